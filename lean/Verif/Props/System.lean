import Verif.Lemmas.System
/-!
# A charge point and a central system, connected

Property C57.
-/
set_option linter.unusedSimpArgs false
namespace Verif.Ocppj
open Json Codec Decode Encode Trip Conn

/-- What is known of the objects given to the library at one end: they have the types they claim, and the requests sent are of
this end's kind (`cp.ChargePoint.Send` takes charge point requests, the central system's service central system requests). -/
structure Proper {F : FloatFmt} {o : Order} {side : Side} (tr : List (Ev (ocppj F o side))) : Prop where
  typed : Typed tr
  own : ∀ i id (r : Req), Ev.send (S := ocppj F o side) i id r ∈ tr → (r.type.isChargePoint = true ↔ side = .cp)

/-- Two ends: `trA` and `trB` are what happened at them. -/
structure Linked {F : FloatFmt} {o₁ o₂ : Order} {a b : Side} (trA : List (Ev (ocppj F o₁ a))) (trB : List (Ev (ocppj F o₂ b))) : Prop where
  ne : a ≠ b
  left : ∃ s, Conn.Exec a trA s
  right : ∃ s, Conn.Exec b trB s
  there : textsIn trB <+: textsOut trA
  back : textsIn trA <+: textsOut trB
  properA : Proper trA
  properB : Proper trB

variable {F : FloatFmt} {o₁ o₂ : Order} {a b : Side} {trA : List (Ev (ocppj F o₁ a))} {trB : List (Ev (ocppj F o₂ b))}

theorem mine_of_own {q : Req} (hne : a ≠ b) (h : q.type.isChargePoint = true ↔ a = .cp) (o : Order) : (ocppj F o b).mine q = true := by
  cases a <;> cases b <;> simp_all [ocppj]

theorem handlerRet_typed (h : Typed trB) {id : String} {resp : Option Resp} {err : Option String}
    (hm : (id, resp, err) ∈ returned trB) : ∀ r, resp = some r → HasTy r.type.ty r.val := by
  rintro r rfl
  exact h.2 _ r _ (mem_handlerRets.1 hm)

/-- Handler calls at an end, with the ids that came with the requests. -/
theorem Linked.calls (h : Linked trA trB) : ((handled trB).map Prod.fst).Nodup ∧
    ∀ id q', (id, q') ∈ handled trB → ∃ i q f r, Ev.send (S := ocppj F o₁ a) i id q ∈ trA ∧ (i, f) ∈ callTexts trA ∧ q' = some r ∧ r.type = q.type ∧
      HasTy (q : Req).type.ty q.val ∧ encCall F id q = .ok f ∧ requestDue F f = some (id, r) := by
  obtain ⟨sA, hA⟩ := h.left
  obtain ⟨sB, hB⟩ := h.right
  obtain ⟨l, hl⟩ := h.there
  have hp := taken_prefix hA hB h.properA.typed hl.symm
  obtain ⟨h1, h2⟩ := calls_nodup hA h.properA.typed
  constructor
  · rw [show handled trB = _ from Exec.handlerCalls_eq hB]
    exact handlerCalls_ids (S := ocppj F o₂ b) (l := taken trB) ((hp.sublist.map Prod.fst).nodup h1)
  · intro id q' hm
    obtain ⟨⟨id', r⟩, hx, ha⟩ : ∃ y : String × Req, y ∈ takenReqs trB ∧ handlerArg (S := ocppj F o₂ b) b y = some (id, q') :=
      List.mem_filterMap.1 (by rw [show handled trB = _ from Exec.handlerCalls_eq hB] at hm; exact hm)
    obtain ⟨i, f, x, hx0, hx1, hx2, hx3, hx4, hx5, hx6⟩ := h2 id' r (hp.subset hx)
    have hs : Ev.send (S := ocppj F o₁ a) i x.id x.req ∈ trA := by simpa using (Exec.sends hA i x hx1).1
    have hmine : (ocppj F o₂ b).mine r = true := by
      apply mine_of_own h.ne
      rw [← hx3]
      exact h.properA.own i x.id x.req hs
    simp only [handlerArg, hmine, if_true, Option.some.injEq, Prod.mk.injEq] at ha
    obtain ⟨rfl, rfl⟩ := ha
    subst hx2
    exact ⟨i, x.req, f, r, hs, hx0, rfl, hx3.symm, hx4, hx5, hx6⟩

/-- A handler return belongs to a handler call. -/
theorem Linked.ret (h : Linked trA trB) {id : String} {resp : Option Resp} {err : Option String}
    (hm : (id, resp, err) ∈ returned trB) :
    (returned trB).filter (fun x => x.1 = id) = [(id, resp, err)] ∧
    ∃ i q f r, Ev.send (S := ocppj F o₁ a) i id q ∈ trA ∧ (i, f) ∈ callTexts trA ∧ (handled trB).filter (fun x => x.1 = id) = [(id, some r)] ∧ r.type = q.type ∧
      HasTy (q : Req).type.ty q.val ∧ encCall F id q = .ok f ∧ requestDue F f = some (id, r) := by
  obtain ⟨sB, hB⟩ := h.right
  obtain ⟨-, ⟨run, -, h1⟩, -, -⟩ := C24_one_reply_per_request hB
  obtain ⟨run', h1'⟩ : ∃ run' : List String, (handled trB).map Prod.fst = (returned trB).map Prod.fst ++ run' :=
    ⟨_, by rw [List.append_assoc] at h1; exact h1⟩
  obtain ⟨h2, h3⟩ := h.calls
  have hn : ((returned trB).map Prod.fst).Nodup := by
    rw [h1'] at h2
    exact (List.nodup_append.1 h2).1
  refine ⟨filter_of_nodup hn hm, ?_⟩
  have hid : id ∈ (handled trB).map Prod.fst := by
    rw [h1', List.mem_append]
    exact .inl (List.mem_map_of_mem hm)
  rw [List.mem_map] at hid
  obtain ⟨⟨id', q'⟩, hq, rfl⟩ := hid
  obtain ⟨i, q, f, r, h4, h4', rfl, h5, h6, h7, h8⟩ := h3 id' q' hq
  exact ⟨i, q, f, r, h4, h4', filter_of_nodup h2 hq, h5, h6, h7, h8⟩

/-- The sender of an id, if its `Send` returned an answer. -/
theorem finish_send {sA : St (ocppj F o₁ a)} (hA : Conn.Exec a trA sA) {i j : Nat} {id : String} {q q' : Req} {x : Answer (ocppj F o₁ a)}
    (hf : Ev.finish i x ∈ trA) (hs : Ev.send (S := ocppj F o₁ a) i id q ∈ trA) (hs' : Ev.send (S := ocppj F o₁ a) j id q' ∈ trA)
    {f : Text} (hw : (j, f) ∈ callTexts trA) : i = j ∧ q = q' := by
  obtain ⟨z, hz⟩ := Exec.finish_sender hA hf
  have hi : ∃ y, sA.senders[i]? = some y ∧ y.id = id ∧ y.req = q := by
    rcases Exec.sender_of_send hA i id q hs with h | ⟨_, h⟩
    · exact h
    · subst h; simp at hz
  have hj : ∃ y, sA.senders[j]? = some y ∧ y.id = id ∧ y.req = q' := by
    rcases Exec.sender_of_send hA j id q' hs' with h | ⟨_, h⟩
    · exact h
    · obtain ⟨y, hy, -⟩ := (Exec.callsOut hA).2 j f hw; subst h; simp at hy
  obtain ⟨y, hy, h1, h2⟩ := hi
  obtain ⟨y', hy', h3, h4⟩ := hj
  have := (Exec.minv hA).ids i j y y' hy hy' (h1.trans h3.symm)
  subst this
  rw [hy] at hy'
  cases hy'
  exact ⟨rfl, h2.symm.trans h4⟩

/-- Where an answer that is returned comes from. -/
theorem Linked.originWritten (h : Linked trA trB) (i : Nat) (x : Answer (ocppj F o₁ a)) (hf : Ev.finish (S := ocppj F o₁ a) i x ∈ trA) :
    ∃ id q f, Ev.send (S := ocppj F o₁ a) i id q ∈ trA ∧ AnswerTo (S := ocppj F o₁ a) id (String.ofList (q : Req).type.action) f x ∧
      ((∃ k c, Ev.refuse (S := ocppj F o₂ b) k id c true ∈ trB ∧ receive f = .ok (some (.error id c "on handling message" []))) ∨
       (∃ resp err, (id, resp, err) ∈ returned trB ∧ encReply F id resp err = .ok f ∧
          Ev.answer (S := ocppj F o₂ b) id resp err (some f) ∈ trB)) := by
  obtain ⟨sA, hA⟩ := h.left
  obtain ⟨sB, hB⟩ := h.right
  obtain ⟨k, f, id, q, ha, hrd, hsd⟩ := (C21_responses_never_crossed hA).1 i _ hf
  have hs : Ev.send (S := ocppj F o₁ a) i id q ∈ trA := hsd.subset (by simp)
  refine ⟨id, q, f, hs, ha, ?_⟩
  have hfr : f ∈ framesRead trA := by
    simp only [framesRead, List.mem_filterMap]
    exact ⟨Ev.read k f, hrd.subset (by simp), rfl⟩
  have hfw : f ∈ written (S := ocppj F o₂ b) trB := h.back.subset hfr
  have hnc : ∀ id' ac p, receive f ≠ .ok (some (.call id' ac p)) := by
    intro id' ac p hc
    cases ha with
    | resp h1 _ => rw [show (ocppj F o₁ a).read f = receive f from rfl, hc] at h1; cases h1
    | code h1 _ => rw [show (ocppj F o₁ a).read f = receive f from rfl, hc] at h1; cases h1
    | callErr h1 => rw [show (ocppj F o₁ a).read f = receive f from rfl, hc] at h1; cases h1
  have hid : ∀ m : Msg Payload, receive f = .ok (some m) → m.id = id := by
    intro m hm
    cases ha with
    | resp h1 _ => rw [show (ocppj F o₁ a).read f = receive f from rfl, hm] at h1; cases h1; rfl
    | code h1 _ => rw [show (ocppj F o₁ a).read f = receive f from rfl, hm] at h1; cases h1; rfl
    | callErr h1 => rw [show (ocppj F o₁ a).read f = receive f from rfl, hm] at h1; cases h1; rfl
  have hok : ∃ m : Msg Payload, receive f = .ok (some m) := by
    cases ha with
    | resp h1 _ => exact ⟨_, h1⟩
    | code h1 _ => exact ⟨_, h1⟩
    | callErr h1 => exact ⟨_, h1⟩
  rcases Exec.written hB hfw with ⟨k', id', c, hr, he⟩ | ⟨id', resp, err, hw, he, hm⟩ | ⟨j, x, -, -, he, hsx⟩
  · have h1 : receive f = .ok (some (.error id' c "on handling message" [])) := by
      rw [he]; exact C10_refusal F id' c
    have := hid _ h1
    subst this
    exact .inl ⟨k', c, hr, h1⟩
  · have hty := handlerRet_typed h.properB.typed hm
    have : id' = id := by
      obtain ⟨m, hm'⟩ := hok
      rcases reply_read hty he with ⟨e, -, h1⟩ | ⟨-, -, e, h1⟩ | ⟨-, r, p', -, h1⟩
      · exact hid _ h1
      · rw [hm'] at h1; cases h1
      · exact hid _ h1
    subst this
    exact .inr ⟨resp, err, hm, he, hw⟩
  · obtain ⟨p', h1⟩ := call_read (h.properB.typed.1 j x.id x.req hsx) he
    exact absurd h1 (hnc _ _ _)

theorem Linked.origin (h : Linked trA trB) (i : Nat) (x : Answer (ocppj F o₁ a)) (hf : Ev.finish (S := ocppj F o₁ a) i x ∈ trA) :
    ∃ id q f, Ev.send (S := ocppj F o₁ a) i id q ∈ trA ∧ AnswerTo (S := ocppj F o₁ a) id (String.ofList (q : Req).type.action) f x ∧
      ((∃ k c, Ev.refuse (S := ocppj F o₂ b) k id c true ∈ trB ∧ receive f = .ok (some (.error id c "on handling message" []))) ∨
       (∃ resp err, (id, resp, err) ∈ returned trB ∧ encReply F id resp err = .ok f)) := by
  obtain ⟨id, q, f, h1, h2, h3 | ⟨resp, err, h3, h4, -⟩⟩ := h.originWritten i x hf
  · exact ⟨id, q, f, h1, h2, .inl h3⟩
  · exact ⟨id, q, f, h1, h2, .inr ⟨resp, err, h3, h4⟩⟩

/-- The request `q` arrives as `q'`: of the same type, and with the value that decoding the request's own encoding gives; that is the
value sent, with times cut to seconds, unless it is a SendLocalList (C07).  (For integers beyond 2^53, see C15.) -/
def Arrives (F : FloatFmt) (o : Order) (q q' : Req) : Prop :=
  q'.type = q.type ∧ ∃ text, marshal F q.type.ty q.val = .ok text ∧
    (q.val.IntsAll (fun n => |n| ≤ 2 ^ 53) → q.val.TimesAll GoTime.Plain →
      decode o q.type.ty text = .ok q'.val ∧ (q.type ≠ .csreqSendLocalList → q'.val = q.val.cutTimes))

/-- A handler's response `resp` to `q` is returned by `Send` as `r`: of the type belonging to the request, and with the same value,
times cut to seconds. -/
def Returns (q : Req) (resp r : Resp) : Prop :=
  r.type = q.type.response ∧ HasTy r.type.ty r.val ∧
    (resp.type = q.type.response → resp.val.IntsAll (fun n => |n| ≤ 2 ^ 53) → resp.val.TimesAll GoTime.Plain → r.val = resp.val.cutTimes)

theorem arrives_of {id : String} {q q' : Req} {t : Text} (hv : HasTy q.type.ty q.val) (he : encCall F id q = .ok t)
    (hd : requestDue F t = some (id, q')) (o : Order) : Arrives F o q q' := by
  have ht := (requestDue_type hv he hd).2
  refine ⟨ht, ?_⟩
  cases hm : marshal F q.type.ty q.val with
  | panic e => rw [(C10_unsendable F id q).2 e hm] at he; cases he
  | err e => rw [(C10_unsendable F id q).1 e hm] at he; cases he
  | ok text =>
    refine ⟨text, rfl, fun hi hp => ?_⟩
    have hs : q.type.action ≠ "DataTransfer".toList := by
      intro hs
      obtain ⟨p, h1⟩ := call_read hv he
      obtain ⟨action, p', h2, h3⟩ := requestDue_call hd
      rw [h1] at h2
      cases h2
      unfold dueTo at h3
      rw [String.toList_ofList, hs, C17_actions.2.2.1] at h3
      cases h3
    obtain ⟨t', p, v, h1, h2, h3, h4, h5⟩ := C14_request F o id q hs hv hi hp text hm
    rw [he] at h1
    cases h1
    obtain ⟨action, p', h6, h7⟩ := requestDue_call hd
    rw [h2] at h6
    cases h6
    rw [← callToRequest_eq F o, h3] at h7
    cases h7
    exact ⟨h4, h5⟩

theorem returns_of {id : String} {q : Req} {resp r : Resp} {t : Text} (hv : HasTy resp.type.ty resp.val)
    (he : encReply F id (some resp) none = .ok t)
    (ha : AnswerTo (S := ocppj F o₁ a) id (String.ofList q.type.action) t (.resp r)) : Returns q resp r := by
  cases ha with
  | @resp p _ h1 h2 =>
    obtain ⟨h3, h4⟩ := resultToResponse_typed (q := q.type) h2
    refine ⟨h3, h4, fun ht hi hp => ?_⟩
    have hs : q.type.action ≠ "DataTransfer".toList := by
      intro hs
      rw [hs] at h2
      have := (C19_dataTransfer F o₁ p).2
      have h2' : resultToResponse F o₁ "DataTransfer" p = .ok r := h2
      rw [h2'] at this
      cases this
    cases hm : marshal F resp.type.ty resp.val with
    | ok text =>
      obtain ⟨t', p', h5, h6, h7⟩ := C14_response F o₁ id q.type hs resp ht hv hi hp text hm
      rw [he] at h5
      cases h5
      rw [show (ocppj F o₁ a).read t = receive t from rfl, h6] at h1
      cases h1
      rw [show (ocppj F o₁ a).toResponse = resultToResponse F o₁ from rfl, h7] at h2
      cases h2
      rfl
    | err e => simp [encReply, frameText, hm, joinElems, GoRes.bind, typeText] at he
    | panic e => simp [encReply, frameText, hm, joinElems, GoRes.bind, typeText] at he

/-- The handler at the other end was called exactly once with this id, for `q`, and returned exactly once, with these. -/
def HandledOnce (o : Order) (trB : List (Ev (ocppj F o₂ b))) (id : String) (q : Req) (resp : Option Resp) (err : Option String) : Prop :=
  (∃ q', (handled trB).filter (fun x => x.1 = id) = [(id, some q')] ∧ Arrives F o q q') ∧
  (returned trB).filter (fun x => x.1 = id) = [(id, resp, err)]

theorem Linked.handledOnce (h : Linked trA trB) {i : Nat} {id : String} {q : Req} {x : Answer (ocppj F o₁ a)}
    (hf : Ev.finish i x ∈ trA) (hs : Ev.send (S := ocppj F o₁ a) i id q ∈ trA) {resp : Option Resp} {err : Option String}
    (hm : (id, resp, err) ∈ returned trB) : HandledOnce o₂ trB id q resp err := by
  obtain ⟨sA, hA⟩ := h.left
  obtain ⟨h2, j, q2, f2, q', h3, h4, h5, h6, h7, h8, h9⟩ := h.ret hm
  obtain ⟨rfl, rfl⟩ := finish_send hA hf hs h3 h4
  exact ⟨⟨q', h5, arrives_of h7 h8 h9 o₂⟩, h2⟩

theorem Linked.response (h : Linked trA trB) (i : Nat) (r : Resp) (hf : Ev.finish (S := ocppj F o₁ a) i (.resp r) ∈ trA) :
    ∃ id q resp, Ev.send (S := ocppj F o₁ a) i id q ∈ trA ∧ HandledOnce o₂ trB id q (some resp) none ∧ Returns q resp r := by
  obtain ⟨id, q, f, hs, ha, hor⟩ := h.origin i _ hf
  have hp : ∃ p, receive f = .ok (some (.result id p)) := by cases ha with | resp h1 _ => exact ⟨_, h1⟩
  obtain ⟨p, hp⟩ := hp
  rcases hor with ⟨k, c, -, h1⟩ | ⟨resp, err, hm, he⟩
  · rw [hp] at h1; cases h1
  · have hty := handlerRet_typed h.properB.typed hm
    rcases reply_read hty he with ⟨e, -, h1⟩ | ⟨-, -, e, h1⟩ | ⟨rfl, resp, p', rfl, h1⟩
    · rw [hp] at h1; cases h1
    · rw [hp] at h1; cases h1
    · exact ⟨id, q, resp, hs, h.handledOnce hf hs hm, returns_of (hty _ rfl) he ha⟩

theorem Linked.code (h : Linked trA trB) (i : Nat) (c : String) (hf : Ev.finish (S := ocppj F o₁ a) i (.code c) ∈ trA) :
    ∃ id q resp, Ev.send (S := ocppj F o₁ a) i id q ∈ trA ∧ HandledOnce o₂ trB id q (some resp) none ∧ c = "FormationViolation" := by
  obtain ⟨id, q, f, hs, ha, hor⟩ := h.origin i _ hf
  have hp : ∃ p, receive f = .ok (some (.result id p)) ∧ resultToResponse F o₁ (String.ofList (q : Req).type.action) p = .err c := by
    cases ha with | code h1 h2 => exact ⟨_, h1, h2⟩
  obtain ⟨p, hp, hc⟩ := hp
  rcases hor with ⟨k, c', -, h1⟩ | ⟨resp, err, hm, he⟩
  · rw [hp] at h1; cases h1
  · have hty := handlerRet_typed h.properB.typed hm
    rcases reply_read hty he with ⟨e, -, h1⟩ | ⟨-, -, e, h1⟩ | ⟨rfl, resp, p', rfl, h1⟩
    · rw [hp] at h1; cases h1
    · rw [hp] at h1; cases h1
    · refine ⟨id, q, resp, hs, h.handledOnce hf hs hm, ?_⟩
      unfold resultToResponse at hc
      repeat' split at hc
      all_goals cases hc
      rfl

theorem fst_inj_of_nodup {α β : Type} {l : List (α × β)} (hn : (l.map Prod.fst).Nodup) {i : α} {f g : β} (h1 : (i, f) ∈ l)
    (h2 : (i, g) ∈ l) : f = g := by
  induction l with
  | nil => cases h1
  | cons y l ih =>
    simp only [List.map_cons, List.nodup_cons] at hn
    rw [List.mem_cons] at h1 h2
    rcases h1 with rfl | h1 <;> rcases h2 with h2 | h2
    · cases h2; rfl
    · exact absurd (List.mem_map_of_mem h2) hn.1
    · subst h2; exact absurd (List.mem_map_of_mem h1) hn.1
    · exact ih hn.2 h1 h2

theorem refusalDue_call {f : Text} {id c : String} (h : refusalDue F f = some (id, c)) :
    (∃ action p, receive f = .ok (some (.call id action p))) ∧ requestDue F f = none := by
  unfold refusalDue at h
  unfold requestDue
  cases hd : due F f with
  | none => rw [hd] at h; cases h
  | some y =>
    obtain ⟨id', e⟩ := y
    rw [hd] at h
    cases e with
    | ok r => cases h
    | error c' =>
      cases h
      refine ⟨?_, rfl⟩
      unfold due at hd
      rcases hr : receive f with (_ | (_ | _ | _)) | _ | _
      all_goals rw [hr] at hd
      all_goals simp only [] at hd
      all_goals try (cases hd; done)
      rename_i id'' action p
      simp only [Option.some.injEq, Prod.mk.injEq] at hd
      exact ⟨action, p, by rw [hd.1]⟩

/-- A call that is refused does not reach the handler. -/
theorem Linked.refused (h : Linked trA trB) {k : Nat} {id c : String} {ok : Bool}
    (hr : Ev.refuse (S := ocppj F o₂ b) k id c ok ∈ trB) : (handled trB).filter (fun x => x.1 = id) = [] := by
  obtain ⟨sA, hA⟩ := h.left
  obtain ⟨sB, hB⟩ := h.right
  obtain ⟨⟨p, hp, -⟩, -⟩ := C20_calls hB
  have hmem : (id, c) ∈ refusals trB := by
    simp only [refusals, List.mem_filterMap]
    exact ⟨_, hr, rfl⟩
  have hg : ∃ g : Text, g ∈ textsIn trB ∧ refusalDue F g = some (id, c) := by
    have : (id, c) ∈ (textsIn trB).filterMap (refusalDue F) := by
      rw [show (textsIn trB).filterMap (refusalDue F) = _ from hp, List.mem_append]
      exact .inl hmem
    exact List.mem_filterMap.1 this
  obtain ⟨g, hg1, hg2⟩ := hg
  obtain ⟨⟨action, pl, hg3⟩, hg4⟩ := refusalDue_call hg2
  have hgw : g ∈ written (S := ocppj F o₁ a) trA := h.there.subset hg1
  rw [List.filter_eq_nil_iff]
  rintro ⟨id', q'⟩ hq
  simp only [decide_eq_true_eq]
  rintro rfl
  obtain ⟨i, q, f, r, -, h2, -, h4, h5, h6, h7⟩ := h.calls.2 id' q' hq
  rcases Exec.written hA hgw with ⟨k', id2, c2, -, he⟩ | ⟨id2, resp, err, hw, he, hm⟩ | ⟨j, x, hj, hx, he, hsx⟩
  · have : receive g = .ok (some (.error id2 c2 "on handling message" [])) := by
      rw [he]; exact C10_refusal F id2 c2
    rw [hg3] at this; cases this
  · rcases reply_read (handlerRet_typed h.properA.typed hm) he with ⟨e, -, h1⟩ | ⟨-, -, e, h1⟩ | ⟨-, r, p', -, h1⟩ <;>
      (rw [hg3] at h1; cases h1)
  · obtain ⟨p', hc⟩ := call_read (h.properA.typed.1 j x.id x.req hsx) he
    rw [hg3] at hc
    simp only [GoRes.ok.injEq, Option.some.injEq, Msg.call.injEq] at hc
    obtain ⟨h8, h9⟩ := Exec.callsOut hA
    obtain ⟨y, hy, hyf, -⟩ := h9 i f h2
    have hye := Exec.frames hA i y f hy hyf
    have hyt := h.properA.typed.1 i y.id y.req (by simpa using (Exec.sends hA i y hy).1)
    obtain ⟨py, hyc⟩ := call_read hyt hye
    obtain ⟨pf, hfc⟩ := call_read h5 h6
    have hid : y.id = id' := by
      rw [hyc] at hfc
      simp only [GoRes.ok.injEq, Option.some.injEq, Msg.call.injEq] at hfc
      exact hfc.1
    have := (Exec.minv hA).ids i j y x hy hx (by rw [hid, hc.1])
    subst this
    have hfg : f = g := fst_inj_of_nodup (l := callTexts trA) h8 h2 hj
    subst hfg
    rw [h7] at hg4
    cases hg4

/-- The codes of refusals. -/
theorem refuse_code {F : FloatFmt} {o : Order} {side : Side} {tr : List (Ev (ocppj F o side))} {s : St (ocppj F o side)} (h : Exec side tr s) {k : Nat}
    {id c : String} {ok : Bool} (hm : Ev.refuse k id c ok ∈ tr) : c = "NotSupported" ∨ c = "FormationViolation" := by
  obtain ⟨p, h1, -⟩ := (C20_calls h).1
  have h2 : (id, c) ∈ (framesRead tr).filterMap (refusalDue F) := by
    rw [h1]
    exact List.mem_append_left _ (List.mem_filterMap.2 ⟨_, hm, rfl⟩)
  obtain ⟨t, -, ht⟩ := List.mem_filterMap.1 h2
  unfold refusalDue at ht
  split at ht
  · rename_i heq
    cases ht
    unfold due dueTo at heq
    repeat' split at heq
    all_goals simp_all
  · cases ht

theorem Linked.callErr (h : Linked trA trB) (i : Nat) (c d : String) (det : Payload)
    (hf : Ev.finish (S := ocppj F o₁ a) i (.callErr c d det) ∈ trA) :
    ∃ id q, Ev.send (S := ocppj F o₁ a) i id q ∈ trA ∧ det = [] ∧
      ((c = "InternalError" ∧ ∃ resp, HandledOnce o₂ trB id q resp (some d)) ∨
       (d = "on handling message" ∧ (c = "NotSupported" ∨ c = "FormationViolation") ∧ (∃ k, Ev.refuse (S := ocppj F o₂ b) k id c true ∈ trB) ∧
         (handled trB).filter (fun x => x.1 = id) = [])) := by
  obtain ⟨id, q, f, hs, ha, hor⟩ := h.origin i _ hf
  have hp : receive f = .ok (some (.error id c d det)) := by cases ha with | callErr h1 => exact h1
  refine ⟨id, q, hs, ?_⟩
  rcases hor with ⟨k, c', hk, h1⟩ | ⟨resp, err, hm, he⟩
  · rw [hp] at h1
    cases h1
    obtain ⟨sB, hB⟩ := h.right
    exact ⟨rfl, .inr ⟨rfl, refuse_code hB hk, ⟨k, hk⟩, h.refused hk⟩⟩
  · have hty := handlerRet_typed h.properB.typed hm
    rcases reply_read hty he with ⟨e, rfl, h1⟩ | ⟨-, -, e, h1⟩ | ⟨-, r, p', -, h1⟩
    · rw [hp] at h1
      cases h1
      exact ⟨rfl, .inl ⟨rfl, resp, h.handledOnce hf hs hm⟩⟩
    · rw [hp] at h1; cases h1
    · rw [hp] at h1; cases h1

theorem Linked.atMostOnce (h : Linked trA trB) (id : String) :
    ((handled trB).filter (fun x => x.1 = id)).length ≤ 1 ∧
    ∀ q', (id, q') ∈ handled trB → ∃ i q r, Ev.send (S := ocppj F o₁ a) i id q ∈ trA ∧ q' = some r ∧ Arrives F o₂ q r := by
  obtain ⟨h1, h2⟩ := h.calls
  constructor
  · by_cases hm : ∃ q', (id, q') ∈ handled trB
    · obtain ⟨q', hq⟩ := hm
      rw [filter_of_nodup h1 hq]
      simp
    · rw [List.filter_eq_nil_iff.2]
      · simp
      · rintro ⟨id', q'⟩ hq
        simp only [decide_eq_true_eq]
        rintro rfl
        exact hm ⟨q', hq⟩
  · intro q' hq
    obtain ⟨i, q, f, r, h3, -, h4, h5, h6, h7, h8⟩ := h2 id q' hq
    exact ⟨i, q, r, h3, h4, arrives_of h6 h7 h8 o₂⟩

/-- A call whose handler panicked is never answered. -/
theorem Linked.panicked (h : Linked trA trB) {i : Nat} {id : String} {q : Req} (hs : Ev.send (S := ocppj F o₁ a) i id q ∈ trA)
    (hp : Ev.handlerPanic (S := ocppj F o₂ b) id ∈ trB) (x : Answer (ocppj F o₁ a)) : Ev.finish (S := ocppj F o₁ a) i x ∉ trA := by
  intro hf
  obtain ⟨id', q', f, hs', -, hor⟩ := h.origin i x hf
  obtain ⟨sA, hA⟩ := h.left
  have hid : id' = id := by
    obtain ⟨z, hz⟩ := Exec.finish_sender hA hf
    rcases Exec.sender_of_send hA i id q hs with ⟨y, hy, h1, -⟩ | ⟨-, h1⟩
    · rcases Exec.sender_of_send hA i id' q' hs' with ⟨y', hy', h2, -⟩ | ⟨-, h2⟩
      · rw [hy] at hy'; cases hy'; exact h2.symm.trans h1
      · subst h2; simp at hz
    · subst h1; simp at hz
  subst hid
  obtain ⟨sB, hB⟩ := h.right
  obtain ⟨-, ⟨run, -, h1⟩, -, -⟩ := C24_one_reply_per_request hB
  have hpm : id' ∈ handlerPanics trB := by
    simp only [handlerPanics, List.mem_filterMap]
    exact ⟨_, hp, rfl⟩
  have hn : ((handlerRets trB).map (·.1) ++ handlerPanics trB ++ run.map (·.1)).Nodup := by
    rw [← h1]; exact h.calls.1
  have hcall : id' ∈ (handlerCalls trB).map (·.1) := by rw [h1]; simp [hpm]
  rcases hor with ⟨k, c, hk, -⟩ | ⟨resp, err, hm, -⟩
  · have := h.refused hk
    obtain ⟨⟨id'', r⟩, hr, rfl⟩ := List.mem_map.1 hcall
    have hr' : ((id'', r) : String × Option Req) ∈ handled trB := hr
    have := List.filter_eq_nil_iff.1 this _ hr'
    simp at this
  · rw [List.append_assoc, List.nodup_append] at hn
    exact hn.2.2 id' (List.mem_map_of_mem (f := (·.1)) hm) id' (by simp [hpm]) rfl

/-- A call whose handler returned something that cannot be encoded is never answered. -/
theorem Linked.unencodable (h : Linked trA trB) {i : Nat} {id : String} {q : Req} (hs : Ev.send (S := ocppj F o₁ a) i id q ∈ trA)
    {resp : Option Resp} {err : Option String} (hr : Ev.handlerRet (S := ocppj F o₂ b) id resp err ∈ trB)
    (he : (encReply F id resp err).isOk = false) (x : Answer (ocppj F o₁ a)) : Ev.finish (S := ocppj F o₁ a) i x ∉ trA := by
  intro hf
  obtain ⟨id', q', f, hs', -, hor⟩ := h.origin i x hf
  obtain ⟨sA, hA⟩ := h.left
  have hid : id' = id := by
    obtain ⟨z, hz⟩ := Exec.finish_sender hA hf
    rcases Exec.sender_of_send hA i id q hs with ⟨y, hy, h1, -⟩ | ⟨-, h1⟩
    · rcases Exec.sender_of_send hA i id' q' hs' with ⟨y', hy', h2, -⟩ | ⟨-, h2⟩
      · rw [hy] at hy'; cases hy'; exact h2.symm.trans h1
      · subst h2; simp at hz
    · subst h1; simp at hz
  subst hid
  have hret := h.ret (mem_handlerRets.2 hr)
  rcases hor with ⟨k, c, hk, -⟩ | ⟨resp', err', hm, hok⟩
  · have h1 := h.refused hk
    obtain ⟨-, j, q2, f2, r2, -, -, h2, -⟩ := hret
    rw [h1] at h2
    cases h2
  · have hmem : (id', resp', err') ∈ (returned trB).filter (fun x => x.1 = id') := by
      rw [List.mem_filter]
      exact ⟨hm, by simp⟩
    rw [hret.1] at hmem
    simp only [List.mem_singleton, Prod.mk.injEq, true_and] at hmem
    obtain ⟨rfl, rfl⟩ := hmem
    rw [hok] at he
    cases he

/-! ### C57 -/

variable {tr : List (Ev (ocppj F o₁ .cp) ⊕ Ev (ocppj F o₂ .cs))} {x : Sys F o₁ o₂}

theorem Sys.Exec.linked (h : Sys.Exec tr x) (hp : Proper (atCp tr)) (hs : Proper (atCs tr)) :
    Linked (atCp tr) (atCs tr) ∧ Linked (atCs tr) (atCp tr) := by
  obtain ⟨h1, h2, h3, h4⟩ := h.ends
  exact ⟨⟨by decide, ⟨_, h1⟩, ⟨_, h2⟩, ⟨_, h3.symm⟩, ⟨_, h4.symm⟩, hp, hs⟩, ⟨by decide, ⟨_, h2⟩, ⟨_, h1⟩, ⟨_, h4.symm⟩, ⟨_, h3.symm⟩, hs, hp⟩⟩

/-- **C57** In every schedule of a charge point and a central system: if the charge point's `Send` number `i` returns a response `r`,
then the central system's handler was called exactly once with this `Send`'s message id, with the request sent (`Arrives`), it
returned exactly once, a response and no error, and this is what `Send` returned (`Returns`). -/
theorem C57_chargePoint (h : Sys.Exec tr x) (hp : Proper (atCp tr)) (hs : Proper (atCs tr)) (i : Nat) (r : Resp)
    (hf : Ev.finish (S := ocppj F o₁ .cp) i (.resp r) ∈ atCp tr) :
    ∃ id q resp, Ev.send (S := ocppj F o₁ .cp) i id q ∈ atCp tr ∧ HandledOnce o₂ (atCs tr) id q (some resp) none ∧ Returns q resp r :=
  (h.linked hp hs).1.response i r hf

/-- **C57** The same in the other direction, at the same time. -/
theorem C57_centralSystem (h : Sys.Exec tr x) (hp : Proper (atCp tr)) (hs : Proper (atCs tr)) (i : Nat) (r : Resp)
    (hf : Ev.finish (S := ocppj F o₂ .cs) i (.resp r) ∈ atCs tr) :
    ∃ id q resp, Ev.send (S := ocppj F o₂ .cs) i id q ∈ atCs tr ∧ HandledOnce o₁ (atCp tr) id q (some resp) none ∧ Returns q resp r :=
  (h.linked hp hs).2.response i r hf

/-- **C57** A `Send` that returns an error from the other side: either the handler there was called exactly once, with the request
sent, and returned this error's text; or the call was refused there without calling the handler, for an action or a payload it does not
know.  There are no further details. -/
theorem C57_error (h : Sys.Exec tr x) (hp : Proper (atCp tr)) (hs : Proper (atCs tr)) (i : Nat) (c d : String) (det : Payload) :
    (Ev.finish (S := ocppj F o₁ .cp) i (.callErr c d det) ∈ atCp tr →
      ∃ id q, Ev.send (S := ocppj F o₁ .cp) i id q ∈ atCp tr ∧ det = [] ∧
        ((c = "InternalError" ∧ ∃ resp, HandledOnce o₂ (atCs tr) id q resp (some d)) ∨
         (d = "on handling message" ∧ (c = "NotSupported" ∨ c = "FormationViolation") ∧ (∃ k, Ev.refuse (S := ocppj F o₂ .cs) k id c true ∈ atCs tr) ∧
           (handled (atCs tr)).filter (fun x => x.1 = id) = []))) ∧
    (Ev.finish (S := ocppj F o₂ .cs) i (.callErr c d det) ∈ atCs tr →
      ∃ id q, Ev.send (S := ocppj F o₂ .cs) i id q ∈ atCs tr ∧ det = [] ∧
        ((c = "InternalError" ∧ ∃ resp, HandledOnce o₁ (atCp tr) id q resp (some d)) ∨
         (d = "on handling message" ∧ (c = "NotSupported" ∨ c = "FormationViolation") ∧ (∃ k, Ev.refuse (S := ocppj F o₁ .cp) k id c true ∈ atCp tr) ∧
           (handled (atCp tr)).filter (fun x => x.1 = id) = []))) :=
  ⟨(h.linked hp hs).1.callErr i c d det, (h.linked hp hs).2.callErr i c d det⟩

/-- **C57** A `Send` that returns an error code of its own: the handler at the other side was called once and answered, but with a response
that cannot be decoded as the one belonging to the request. -/
theorem C57_misfit (h : Sys.Exec tr x) (hp : Proper (atCp tr)) (hs : Proper (atCs tr)) (i : Nat) (c : String) :
    (Ev.finish (S := ocppj F o₁ .cp) i (.code c) ∈ atCp tr →
      ∃ id q resp, Ev.send (S := ocppj F o₁ .cp) i id q ∈ atCp tr ∧ HandledOnce o₂ (atCs tr) id q (some resp) none ∧ c = "FormationViolation") ∧
    (Ev.finish (S := ocppj F o₂ .cs) i (.code c) ∈ atCs tr →
      ∃ id q resp, Ev.send (S := ocppj F o₂ .cs) i id q ∈ atCs tr ∧ HandledOnce o₁ (atCp tr) id q (some resp) none ∧ c = "FormationViolation") :=
  ⟨(h.linked hp hs).1.code i c, (h.linked hp hs).2.code i c⟩

/-- **C57** Whether or not `Send` returns, no handler is called twice with the same message id, nor for anything that was not sent. -/
theorem C57_atMostOnce (h : Sys.Exec tr x) (hp : Proper (atCp tr)) (hs : Proper (atCs tr)) (id : String) :
    (((handled (atCs tr)).filter (fun x => x.1 = id)).length ≤ 1 ∧
      ∀ q', (id, q') ∈ handled (atCs tr) → ∃ i q r, Ev.send (S := ocppj F o₁ .cp) i id q ∈ atCp tr ∧ q' = some r ∧ Arrives F o₂ q r) ∧
    (((handled (atCp tr)).filter (fun x => x.1 = id)).length ≤ 1 ∧
      ∀ q', (id, q') ∈ handled (atCp tr) → ∃ i q r, Ev.send (S := ocppj F o₂ .cs) i id q ∈ atCs tr ∧ q' = some r ∧ Arrives F o₁ q r) :=
  ⟨(h.linked hp hs).1.atMostOnce id, (h.linked hp hs).2.atMostOnce id⟩

/-- **C65** A `Send` whose request made the other side's handler panic never returns an answer (nor an error from the other
side), in any continuation: it can only time out. -/
theorem C65_unanswered (h : Sys.Exec tr x) (hp : Proper (atCp tr)) (hs : Proper (atCs tr)) (i : Nat) (id : String) (q : Req) :
    (Ev.send (S := ocppj F o₁ .cp) i id q ∈ atCp tr → Ev.handlerPanic (S := ocppj F o₂ .cs) id ∈ atCs tr →
      ∀ y, Ev.finish (S := ocppj F o₁ .cp) i y ∉ atCp tr) ∧
    (Ev.send (S := ocppj F o₂ .cs) i id q ∈ atCs tr → Ev.handlerPanic (S := ocppj F o₁ .cp) id ∈ atCp tr →
      ∀ y, Ev.finish (S := ocppj F o₂ .cs) i y ∉ atCs tr) :=
  ⟨fun h1 h2 => (h.linked hp hs).1.panicked h1 h2, fun h1 h2 => (h.linked hp hs).2.panicked h1 h2⟩

/-- **C66** A `Send` whose request's handler returned a response that cannot be encoded as JSON never returns an answer. -/
theorem C66_unanswered (h : Sys.Exec tr x) (hp : Proper (atCp tr)) (hs : Proper (atCs tr)) (i : Nat) (id : String) (q : Req) (resp : Resp)
    (hbad : (marshal F resp.type.ty resp.val).isOk = false) :
    (Ev.send (S := ocppj F o₁ .cp) i id q ∈ atCp tr → Ev.handlerRet (S := ocppj F o₂ .cs) id (some resp) none ∈ atCs tr →
      ∀ y, Ev.finish (S := ocppj F o₁ .cp) i y ∉ atCp tr) ∧
    (Ev.send (S := ocppj F o₂ .cs) i id q ∈ atCs tr → Ev.handlerRet (S := ocppj F o₁ .cp) id (some resp) none ∈ atCp tr →
      ∀ y, Ev.finish (S := ocppj F o₂ .cs) i y ∉ atCs tr) := by
  have he : (encReply F id (some resp) none).isOk = false := by
    cases hm : marshal F resp.type.ty resp.val with
    | ok t => rw [hm] at hbad; cases hbad
    | err e => simp [encReply, frameText, hm, joinElems, typeText, GoRes.bind, GoRes.isOk]
    | panic e => simp [encReply, frameText, hm, joinElems, typeText, GoRes.bind, GoRes.isOk]
  exact ⟨fun h1 h2 => (h.linked hp hs).1.unencodable h1 h2 he, fun h1 h2 => (h.linked hp hs).2.unencodable h1 h2 he⟩

/-- Such responses exist: an Authorize response without its `IdTagInfo` (C09). -/
example : ∃ resp : Resp, HasTy resp.type.ty resp.val ∧ (marshal F resp.type.ty resp.val).isOk = false :=
  ⟨⟨.cprespAuthorize, .struct [.nil]⟩, by simp [RespType.ty, cpresp.Authorize, HasTy, HasTys], by
    rw [show marshal F (RespType.ty .cprespAuthorize) (.struct [.nil]) = _ from (C09_messages F).1]; rfl⟩

/-! ### The round trip happens -/

/-- The round trip, step by step: the charge point sends `q`, the central system's handler gets `q'` and returns `resp`, `err`, and
the charge point's `Send` returns `y`. -/
def roundTrip (F : FloatFmt) (o₁ o₂ : Order) (id : String) (q q' : Req) (f g : Text) (resp : Option Resp) (err : Option String)
    (y : Answer (ocppj F o₁ .cp)) : List (Ev (ocppj F o₁ .cp) ⊕ Ev (ocppj F o₂ .cs)) :=
  [.inr (.spawn 0), .inl (.spawn 0), .inl (Ev.send (S := ocppj F o₁ .cp) 0 id q), .inl (.regSent 0), .inl (.regChan 0),
   .inl (Ev.writeCall (S := ocppj F o₁ .cp) 0 (some f)), .inr (Ev.read (S := ocppj F o₂ .cs) 0 f), .inr (.dispatch 0),
   .inr (Ev.take (S := ocppj F o₂ .cs) 0 id q' (some (some q'))), .inr (Ev.handlerRet (S := ocppj F o₂ .cs) id resp err),
   .inr (Ev.answer (S := ocppj F o₂ .cs) id resp err (some g)), .inl (Ev.read (S := ocppj F o₁ .cp) 0 g), .inl (.dispatch 0),
   .inl (.deliver 0 0), .inl (.finish 0 y)]

theorem afterRead_call (o : Order) (s : St (ocppj F o b)) {id action : String} {f : Text} {p : Payload} {q' : Req}
    (h2 : receive f = .ok (some (.call id action p))) (h3 : callToRequest F o action p = .ok q') :
    afterRead s f = some (.toLoop id q') := by
  have e : (ocppj F o b).read f = .ok (some (.call id action p)) := h2
  have e' : (ocppj F o b).toRequest action p = .ok q' := h3
  unfold afterRead
  rw [e]
  dsimp only
  rw [e']

theorem afterRead_result (o : Order) (s : St (ocppj F o a)) {id action : String} {g : Text} {p : Payload} {r : Resp} {c : Option Nat}
    (h : s.sent id = some action) (hc : s.chan id = c) (h2 : receive g = .ok (some (.result id p)))
    (h3 : resultToResponse F o action p = .ok r) :
    afterRead s g = some (.toSender c (.resp r)) := by
  have e : (ocppj F o a).read g = .ok (some (.result id p)) := h2
  have e' : (ocppj F o a).toResponse action p = .ok r := h3
  unfold afterRead
  rw [e]
  dsimp only
  rw [h]
  dsimp only
  rw [e', hc]

theorem roundTrip_state {id : String} {q q' : Req} {f g : Text} {p p' : Payload} {resp : Option Resp} {r : Resp}
    (hq : q'.type.isChargePoint = true)
    (h1 : encCall F id q = .ok f) (h2 : receive f = .ok (some (.call id (String.ofList q.type.action) p)))
    (h3 : callToRequest F o₂ (String.ofList q.type.action) p = .ok q')
    (h4 : encReply F id resp none = .ok g) (h5 : receive g = .ok (some (.result id p')))
    (h6 : resultToResponse F o₁ (String.ofList q.type.action) p' = .ok r) :
    ∃ x, Sys.Exec (roundTrip F o₁ o₂ id q q' f g resp none (.resp r)) x ∧ x.cp.crashed = false ∧ x.cs.crashed = false ∧
      x.cp.loop = .sel 0 ∧ x.cp.readers[0]? = some (.offer .nil) ∧ x.cs.loop = .top := by
  have o : ∀ {S : Sem} {e : Ev S} {l : List S.Frame}, (∀ k f, e ≠ .read k f) → Consumes e l l := fun h => .other h
  have r0 := Sys.Exec.nil (F := F) (o₁ := o₁) (o₂ := o₂)
  have r1 := r0.snoc (.cs (Step.spawn rfl rfl) (o (by intros; simp)))
  have r2 := r1.snoc (.cp (Step.spawn rfl rfl) (o (by intros; simp)))
  have r3 := r2.snoc (.cp (Step.send (id := id) rfl (by simp [Sys.init, Conn.init]) h1) (o (by intros; simp)))
  have r4 := r3.snoc (.cp (Step.regSent (i := 0) rfl rfl rfl) (o (by intros; simp)))
  have r5 := r4.snoc (.cp (Step.regChan (i := 0) rfl rfl rfl) (o (by intros; simp)))
  have r6 := r5.snoc (.cp (Step.writeOk (i := 0) rfl rfl rfl rfl rfl) (o (by intros; simp)))
  have r7 := r6.snoc (.cs (Step.read (k := 0) (f := f) rfl rfl) .read)
  have r8 := r7.snoc (.cs (Step.dispatch (k := 0) (p := .toLoop id q') rfl rfl (afterRead_call o₂ _ h2 h3)) (o (by intros; simp)))
  have hat : afterTake (S := ocppj F o₂ .cs) .cs id q' = .handling id (some q') := if_pos hq
  have st9 := fun s h1 h2 h3 => Step.take (S := ocppj F o₂ .cs) (side := .cs) (s := s) (k := 0) (id := id) (r := q') h1 h2 h3
  rw [hat] at st9
  have r9 := r8.snoc (.cs (st9 _ rfl ⟨_, rfl⟩ rfl) (o (by intros; simp)))
  have r10 := r9.snoc (.cs (Step.handlerRet (S := ocppj F o₂ .cs) (r := some q') resp none rfl rfl) (o (by intros; simp)))
  have r11 := r10.snoc (.cs (Step.answerOk rfl rfl h4 rfl) (o (by intros; simp)))
  have r12 := r11.snoc (.cp (Step.read (k := 0) (f := g) rfl rfl) .read)
  have r13 := r12.snoc (.cp (Step.dispatch (k := 0) (p := .toSender (some 0) (.resp r)) rfl rfl (afterRead_result o₁ _ (by exact if_pos rfl) (by exact if_pos rfl) h5 h6)) (o (by intros; simp)))
  have r14 := r13.snoc (.cp (Step.deliver (k := 0) (i := 0) rfl rfl rfl rfl) (o (by intros; simp)))
  have r15 := r14.snoc (.cp (Step.finish (i := 0) rfl rfl rfl) (o (by intros; simp)))
  exact ⟨_, r15, rfl, rfl, rfl, rfl, rfl⟩

theorem roundTrip_exec {id : String} {q q' : Req} {f g : Text} {p p' : Payload} {resp : Option Resp} {r : Resp}
    (hq : q'.type.isChargePoint = true)
    (h1 : encCall F id q = .ok f) (h2 : receive f = .ok (some (.call id (String.ofList q.type.action) p)))
    (h3 : callToRequest F o₂ (String.ofList q.type.action) p = .ok q')
    (h4 : encReply F id resp none = .ok g) (h5 : receive g = .ok (some (.result id p')))
    (h6 : resultToResponse F o₁ (String.ofList q.type.action) p' = .ok r) :
    ∃ x, Sys.Exec (roundTrip F o₁ o₂ id q q' f g resp none (.resp r)) x :=
  (roundTrip_state hq h1 h2 h3 h4 h5 h6).imp fun _ h => h.1

/-- **C57** And round trips do happen: for every charge point request other than DataTransfer and every response belonging to it, both
encodable, there is a schedule in which the charge point's `Send` of this request returns this response (times cut to seconds). -/
theorem C57_possible (F : FloatFmt) (o₁ o₂ : Order) (id : String) (q : Req) (resp : Resp) (hcp : q.type.isChargePoint = true)
    (hs : q.type.action ≠ "DataTransfer".toList) (ht : resp.type = q.type.response)
    (hq : HasTy q.type.ty q.val) (hr : HasTy resp.type.ty resp.val)
    (hi : q.val.IntsAll fun n => |n| ≤ 2 ^ 53) (hi' : resp.val.IntsAll fun n => |n| ≤ 2 ^ 53)
    (hp : q.val.TimesAll GoTime.Plain) (hp' : resp.val.TimesAll GoTime.Plain)
    (hm : ∃ t, marshal F q.type.ty q.val = .ok t) (hm' : ∃ t, marshal F resp.type.ty resp.val = .ok t) :
    ∃ tr : List (Ev (ocppj F o₁ .cp) ⊕ Ev (ocppj F o₂ .cs)), ∃ x, Sys.Exec tr x ∧ Proper (atCp tr) ∧ Proper (atCs tr) ∧
      Ev.send (S := ocppj F o₁ .cp) 0 id q ∈ atCp tr ∧
      Ev.finish (S := ocppj F o₁ .cp) 0 (.resp (⟨resp.type, resp.val.cutTimes⟩ : Resp)) ∈ atCp tr := by
  obtain ⟨t, hm⟩ := hm
  obtain ⟨t', hm'⟩ := hm'
  obtain ⟨f, p, v, h1, h2, h3, -, -⟩ := C14_request F o₂ id q hs hq hi hp t hm
  obtain ⟨g, p', h4, h5, h6⟩ := C14_response F o₁ id q.type hs resp ht hr hi' hp' t' hm'
  obtain ⟨x, hx⟩ := roundTrip_exec (o₁ := o₁) (o₂ := o₂) (q' := ⟨q.type, v⟩) hcp h1 h2 h3 h4 h5 h6
  refine ⟨_, x, hx, ⟨⟨?_, ?_⟩, ?_⟩, ⟨⟨?_, ?_⟩, ?_⟩, ?_, ?_⟩
  · intro i id' r hm
    simp [roundTrip, atCp] at hm
    obtain ⟨-, -, rfl⟩ := hm
    exact hq
  · intro id' r e hm
    simp [roundTrip, atCp] at hm
  · intro i id' r hm
    simp [roundTrip, atCp] at hm
    obtain ⟨-, -, rfl⟩ := hm
    simp [hcp]
  · intro i id' r hm
    simp [roundTrip, atCs] at hm
  · intro id' r e hm
    simp [roundTrip, atCs] at hm
    obtain ⟨-, rfl, -⟩ := hm
    exact hr
  · intro i id' r hm
    simp [roundTrip, atCs] at hm
  · simp [roundTrip, atCp]
  · simp [roundTrip, atCp]

/-- The beginning of a round trip: up to the handler call at the central system. -/
def halfTrip (F : FloatFmt) (o₁ o₂ : Order) (id : String) (q q' : Req) (f : Text) (e : Ev (ocppj F o₂ .cs)) : List (Ev (ocppj F o₁ .cp) ⊕ Ev (ocppj F o₂ .cs)) :=
  [.inr (.spawn 0), .inl (.spawn 0), .inl (Ev.send (S := ocppj F o₁ .cp) 0 id q), .inl (.regSent 0), .inl (.regChan 0),
   .inl (Ev.writeCall (S := ocppj F o₁ .cp) 0 (some f)), .inr (Ev.read (S := ocppj F o₂ .cs) 0 f), .inr (.dispatch 0),
   .inr (Ev.take (S := ocppj F o₂ .cs) 0 id q' (some (some q'))), .inr e]

theorem halfTrip_exec {id : String} {q q' : Req} {f : Text} {p : Payload} {e : Ev (ocppj F o₂ .cs)}
    (hq : q'.type.isChargePoint = true)
    (h1 : encCall F id q = .ok f) (h2 : receive f = .ok (some (.call id (String.ofList q.type.action) p)))
    (h3 : callToRequest F o₂ (String.ofList q.type.action) p = .ok q')
    (he : e = .handlerPanic id ∨ ∃ resp err, e = Ev.handlerRet (S := ocppj F o₂ .cs) id resp err) :
    ∃ x, Sys.Exec (halfTrip F o₁ o₂ id q q' f e) x := by
  have o : ∀ {S : Sem} {e : Ev S} {l : List S.Frame}, (∀ k f, e ≠ .read k f) → Consumes e l l := fun h => .other h
  have r0 := Sys.Exec.nil (F := F) (o₁ := o₁) (o₂ := o₂)
  have r1 := r0.snoc (.cs (Step.spawn rfl rfl) (o (by intros; simp)))
  have r2 := r1.snoc (.cp (Step.spawn rfl rfl) (o (by intros; simp)))
  have r3 := r2.snoc (.cp (Step.send (id := id) rfl (by simp [Sys.init, Conn.init]) h1) (o (by intros; simp)))
  have r4 := r3.snoc (.cp (Step.regSent (i := 0) rfl rfl rfl) (o (by intros; simp)))
  have r5 := r4.snoc (.cp (Step.regChan (i := 0) rfl rfl rfl) (o (by intros; simp)))
  have r6 := r5.snoc (.cp (Step.writeOk (i := 0) rfl rfl rfl rfl rfl) (o (by intros; simp)))
  have r7 := r6.snoc (.cs (Step.read (k := 0) (f := f) rfl rfl) .read)
  have r8 := r7.snoc (.cs (Step.dispatch (k := 0) (p := .toLoop id q') rfl rfl (afterRead_call o₂ _ h2 h3)) (o (by intros; simp)))
  have hat : afterTake (S := ocppj F o₂ .cs) .cs id q' = .handling id (some q') := if_pos hq
  have st9 := fun s h1 h2 h3 => Step.take (S := ocppj F o₂ .cs) (side := .cs) (s := s) (k := 0) (id := id) (r := q') h1 h2 h3
  rw [hat] at st9
  have r9 := r8.snoc (.cs (st9 _ rfl ⟨_, rfl⟩ rfl) (o (by intros; simp)))
  rcases he with rfl | ⟨resp, err, rfl⟩
  · exact ⟨_, r9.snoc (.cs (Step.handlerPanicCs (S := ocppj F o₂ .cs) (r := some q') rfl rfl rfl) (o (by intros; simp)))⟩
  · exact ⟨_, r9.snoc (.cs (Step.handlerRet (S := ocppj F o₂ .cs) (r := some q') resp err rfl rfl) (o (by intros; simp)))⟩

/-- **C65**, **C66** It happens: for every charge point request other than DataTransfer that can be encoded there is a schedule in
which the handler it reaches panics, and one in which the handler returns a given response, say an unencodable one. -/
theorem C65_possible (F : FloatFmt) (o₁ o₂ : Order) (id : String) (q : Req) (hcp : q.type.isChargePoint = true)
    (hs : q.type.action ≠ "DataTransfer".toList) (hq : HasTy q.type.ty q.val)
    (hi : q.val.IntsAll fun n => |n| ≤ 2 ^ 53) (hp : q.val.TimesAll GoTime.Plain)
    (hm : ∃ t, marshal F q.type.ty q.val = .ok t) (resp : Resp) (hr : HasTy resp.type.ty resp.val)
    (e : Ev (ocppj F o₂ .cs)) (he : e = .handlerPanic id ∨ e = Ev.handlerRet (S := ocppj F o₂ .cs) id (some resp) none) :
    ∃ tr : List (Ev (ocppj F o₁ .cp) ⊕ Ev (ocppj F o₂ .cs)), ∃ x, Sys.Exec tr x ∧ Proper (atCp tr) ∧ Proper (atCs tr) ∧
      Ev.send (S := ocppj F o₁ .cp) 0 id q ∈ atCp tr ∧ e ∈ atCs tr := by
  obtain ⟨t, hm⟩ := hm
  obtain ⟨f, p, v, h1, h2, h3, -, -⟩ := C14_request F o₂ id q hs hq hi hp t hm
  obtain ⟨x, hx⟩ := halfTrip_exec (o₁ := o₁) (o₂ := o₂) (q' := ⟨q.type, v⟩) (e := e) hcp h1 h2 h3
    (he.imp_right fun h => ⟨_, _, h⟩)
  refine ⟨_, x, hx, ⟨⟨?_, ?_⟩, ?_⟩, ⟨⟨?_, ?_⟩, ?_⟩, ?_, ?_⟩
  · intro i id' r hm
    simp [halfTrip, atCp] at hm
    obtain ⟨-, -, rfl⟩ := hm
    exact hq
  · intro id' r e hm
    simp [halfTrip, atCp] at hm
  · intro i id' r hm
    simp [halfTrip, atCp] at hm
    obtain ⟨-, -, rfl⟩ := hm
    simp [hcp]
  · intro i id' r hm
    rcases he with rfl | rfl <;> simp [halfTrip, atCs] at hm
  · intro id' r e hm
    rcases he with rfl | rfl <;> simp [halfTrip, atCs] at hm
    obtain ⟨-, h, -⟩ := hm
    cases h
    exact hr
  · intro i id' r hm
    rcases he with rfl | rfl <;> simp [halfTrip, atCs] at hm
  · simp [halfTrip, atCp]
  · simp [halfTrip, atCs]

/-- The hypotheses of `C57_possible` hold of a Heartbeat, answered with a time. -/
example (F : FloatFmt) (o₁ o₂ : Order) : ∃ tr : List (Ev (ocppj F o₁ .cp) ⊕ Ev (ocppj F o₂ .cs)), ∃ x, Sys.Exec tr x ∧
    Proper (atCp tr) ∧ Proper (atCs tr) ∧
    Ev.send (S := ocppj F o₁ .cp) 0 "x" (⟨.cpreqHeartbeat, .struct []⟩ : Req) ∈ atCp tr ∧
    Ev.finish (S := ocppj F o₁ .cp) 0 (.resp (⟨.cprespHeartbeat, .struct [.time ⟨1700000000, 0, 0⟩]⟩ : Resp)) ∈ atCp tr := by
  have e : ∀ (m : MsgType) (v : Val), HasTy m.ty v → (∃ j, wire F m.ty v = .ok j) → ∃ t, marshal F m.ty v = .ok t := by
    intro m v hv ⟨j, hj⟩
    rcases C01_wellformed F m v hv with ⟨t, ms, h, -⟩ | ⟨e, -, h⟩ | ⟨e, -, h⟩
    · exact ⟨t, h⟩
    · rw [hj] at h; cases h
    · rw [hj] at h; cases h
  have h1 : HasTy (MsgType.req .cpreqHeartbeat).ty (.struct []) := by
    simp [MsgType.ty, ReqType.ty, cpreq.Heartbeat, HasTy, HasTys]
  have h2 : HasTy (MsgType.resp .cprespHeartbeat).ty (.struct [.time ⟨1700000000, 0, 0⟩]) := by
    simp [MsgType.ty, RespType.ty, cpresp.Heartbeat, HasTy, HasTys]
  exact C57_possible F o₁ o₂ "x" ⟨.cpreqHeartbeat, .struct []⟩ ⟨.cprespHeartbeat, .struct [.time ⟨1700000000, 0, 0⟩]⟩ rfl (by decide) rfl
    h1 h2 (by simp [Val.IntsAll, Val.IntsAlls]) (by simp [Val.IntsAll, Val.IntsAlls]) (by simp [Val.TimesAll, Val.TimesAlls])
    (by simp only [Val.TimesAll, Val.TimesAlls]; decide)
    (e (.req .cpreqHeartbeat) _ h1 ⟨_, rfl⟩) (e (.resp .cprespHeartbeat) _ h2 ⟨_, rfl⟩)

end Verif.Ocppj
