import Verif.Model.SendErr
import Verif.Props.System
/-!
# C96: what the error of a Send tells
-/
set_option linter.unusedSimpArgs false
namespace Verif.Ocppj
open Json Codec Decode Encode Trip Conn

/-! ### Specification -/

/-- Why a `Send` got an error although an answer came. -/
inductive Cause where
  /-- the handler returned an error with this text -/
  | handler (e : String)
  /-- the action of the request is not known -/
  | unknownAction
  /-- the payload of the request was not accepted -/
  | badRequest
  /-- the payload of the handler's response was not accepted -/
  | badResponse

/-- What `Error()` says. -/
def Cause.says : Cause → Text
  | .handler e => "[InternalError] ".toList ++ e.toList ++ ": map[]".toList
  | .unknownAction => "[NotSupported] on handling message: map[]".toList
  | .badRequest => "[FormationViolation] on handling message: map[]".toList
  | .badResponse => "FormationViolation".toList

/-- Integers that a float64 can hold and times that can be written as a date and time. -/
def Ordinary (v : Val) : Prop := v.IntsAll (fun n => |n| ≤ 2 ^ 53) ∧ v.TimesAll GoTime.Plain

variable {F : FloatFmt} {o₁ o₂ : Order} {a b : Side} {trA : List (Ev (ocppj F o₁ a))} {trB : List (Ev (ocppj F o₂ b))}

/-- The cause lies in what happened at the other end, `tr`, to the request `q` with this id. -/
def Cause.Holds (tr : List (Ev (ocppj F o₂ b))) (id : String) (q : Req) : Cause → Prop
  | .handler e => ∃ resp, HandledOnce o₂ tr id q resp (some e)
  | .unknownAction => (handled tr).filter (fun x => x.1 = id) = [] ∧ q.type.action = "DataTransfer".toList
  | .badRequest => (handled tr).filter (fun x => x.1 = id) = [] ∧ q.type.action ≠ "DataTransfer".toList ∧ ¬ Ordinary q.val
  | .badResponse => ∃ resp, HandledOnce o₂ tr id q (some resp) none ∧ ¬ (resp.type = q.type.response ∧ Ordinary resp.val)

/-! ### Lemmas -/

/-- Why a call was refused. -/
theorem Linked.refusedWhy (h : Linked trA trB) {k i : Nat} {id c : String} {ok : Bool} {q : Req} {x : Answer (ocppj F o₁ a)}
    (hr : Ev.refuse (S := ocppj F o₂ b) k id c ok ∈ trB) (hf : Ev.finish (S := ocppj F o₁ a) i x ∈ trA)
    (hs : Ev.send (S := ocppj F o₁ a) i id q ∈ trA) :
    (c = "NotSupported" ∧ q.type.action = "DataTransfer".toList) ∨
    (c = "FormationViolation" ∧ q.type.action ≠ "DataTransfer".toList ∧ ¬ Ordinary q.val) := by
  obtain ⟨sA, hA⟩ := h.left
  obtain ⟨sB, hB⟩ := h.right
  obtain ⟨⟨p, hp, -⟩, -⟩ := C20_calls hB
  have hmem : (id, c) ∈ refusals trB := by
    simp only [refusals, List.mem_filterMap]
    exact ⟨_, hr, rfl⟩
  have hg : ∃ g : Text, g ∈ textsIn trB ∧ refusalDue F g = some (id, c) := by
    have : (id, c) ∈ (textsIn trB).filterMap (refusalDue F) := by
      rw [show (textsIn trB).filterMap (refusalDue F) = _ from hp, List.mem_append]
      exact .inl hmem
    exact List.mem_filterMap.1 this
  obtain ⟨g, hg1, hg2⟩ := hg
  obtain ⟨⟨action, pl, hg3⟩, -⟩ := refusalDue_call hg2
  have hgw : g ∈ written (S := ocppj F o₁ a) trA := h.there.subset hg1
  rcases Exec.written hA hgw with ⟨k', id2, c2, -, he⟩ | ⟨id2, resp, err, hw, he, hm⟩ | ⟨j, y, hj, hy, he, hsy⟩
  · have : receive g = .ok (some (.error id2 c2 "on handling message" [])) := by
      rw [he]; exact C10_refusal F id2 c2
    rw [hg3] at this; cases this
  · rcases reply_read (handlerRet_typed h.properA.typed hm) he with ⟨e, -, h1⟩ | ⟨-, -, e, h1⟩ | ⟨-, r, p', -, h1⟩ <;>
      (rw [hg3] at h1; cases h1)
  · have hty := h.properA.typed.1 j y.id y.req hsy
    obtain ⟨p', hc⟩ := call_read hty he
    rw [hg3] at hc
    simp only [GoRes.ok.injEq, Option.some.injEq, Msg.call.injEq] at hc
    obtain ⟨rfl, rfl, rfl⟩ := hc
    obtain ⟨rfl, rfl⟩ := finish_send hA hf hs hsy hj
    have hd : dueTo F (String.ofList (y.req : Req).type.action) pl = .error c := by
      unfold refusalDue due at hg2
      rw [hg3] at hg2
      dsimp only at hg2
      split at hg2
      · rename_i heq
        cases hg2
        simpa using heq
      · cases hg2
    by_cases hdt : (y.req : Req).type.action = "DataTransfer".toList
    · refine .inl ⟨?_, hdt⟩
      rw [hdt] at hd
      unfold dueTo at hd
      rw [String.toList_ofList, C17_actions.2.2.1] at hd
      cases hd
      rfl
    · refine .inr ⟨?_, hdt, fun hord => ?_⟩
      · unfold dueTo at hd
        have ha : reqFromAction (String.ofList (y.req : Req).type.action).toList = some (y.req : Req).type := by
          rw [String.toList_ofList]
          revert hdt
          cases (y.req : Req).type <;> decide
        rw [ha] at hd
        dsimp only at hd
        split at hd
        · cases hd; rfl
        · cases hd
      · cases hm : marshal F (y.req : Req).type.ty (y.req : Req).val with
        | panic e => rw [show (ocppj F o₁ a).encCall = encCall F from rfl, (C10_unsendable F y.id y.req).2 e hm] at he; cases he
        | err e => rw [show (ocppj F o₁ a).encCall = encCall F from rfl, (C10_unsendable F y.id y.req).1 e hm] at he; cases he
        | ok text =>
          obtain ⟨t', p, v, h1, h2, h3, -, -⟩ := C14_request F o₂ y.id y.req hdt hty hord.1 hord.2 text hm
          rw [show (ocppj F o₁ a).encCall = encCall F from rfl, h1] at he
          cases he
          rw [hg3] at h2
          cases h2
          rw [callToRequest_eq F o₂, hd] at h3
          cases h3

/-- Why a response was not accepted. -/
theorem Linked.codeWhy (h : Linked trA trB) (i : Nat) (c : String) (hf : Ev.finish (S := ocppj F o₁ a) i (.code c) ∈ trA) :
    c = "FormationViolation" ∧ ∃ id q resp, Ev.send (S := ocppj F o₁ a) i id q ∈ trA ∧ HandledOnce o₂ trB id q (some resp) none ∧
      ¬ (resp.type = (q : Req).type.response ∧ Ordinary resp.val) := by
  obtain ⟨id, q, f, hs, ha, hor⟩ := h.origin i _ hf
  have hp : ∃ p, receive f = .ok (some (.result id p)) ∧ resultToResponse F o₁ (String.ofList (q : Req).type.action) p = .err c := by
    cases ha with | code h1 h2 => exact ⟨_, h1, h2⟩
  obtain ⟨p, hp, hc⟩ := hp
  obtain ⟨-, -, -, -, -, hcode⟩ := h.code i c hf
  refine ⟨hcode, ?_⟩
  rcases hor with ⟨k, c', -, h1⟩ | ⟨resp, err, hm, he⟩
  · rw [hp] at h1; cases h1
  · have hty := handlerRet_typed h.properB.typed hm
    rcases reply_read hty he with ⟨e, -, h1⟩ | ⟨-, -, e, h1⟩ | ⟨rfl, resp, p', rfl, h1⟩
    · rw [hp] at h1; cases h1
    · rw [hp] at h1; cases h1
    · refine ⟨id, q, resp, hs, h.handledOnce hf hs hm, fun hw => ?_⟩
      have hdt : (q : Req).type.action ≠ "DataTransfer".toList := by
        intro hdt
        rw [hdt] at hc
        have h2 := (C19_dataTransfer F o₁ p).2
        have hc' : resultToResponse F o₁ "DataTransfer" p = .err c := hc
        rw [hc'] at h2
        cases h2
      cases hmm : marshal F resp.type.ty resp.val with
      | ok text =>
        obtain ⟨t', p'', h5, h6, h7⟩ := C14_response F o₁ id (q : Req).type hdt resp hw.1 (hty _ rfl) hw.2.1 hw.2.2 text hmm
        rw [he] at h5
        cases h5
        rw [hp] at h6
        cases h6
        rw [hc] at h7
        cases h7
      | err e => simp [encReply, frameText, hmm, joinElems, GoRes.bind, typeText] at he
      | panic e => simp [encReply, frameText, hmm, joinElems, GoRes.bind, typeText] at he

/-! Literals -/

theorem lit_ie : "InternalError".toList = ['I', 'n', 't', 'e', 'r', 'n', 'a', 'l', 'E', 'r', 'r', 'o', 'r'] := by decide
theorem lit_ns : "NotSupported".toList = ['N', 'o', 't', 'S', 'u', 'p', 'p', 'o', 'r', 't', 'e', 'd'] := by decide
theorem lit_fv : "FormationViolation".toList = ['F', 'o', 'r', 'm', 'a', 't', 'i', 'o', 'n', 'V', 'i', 'o', 'l', 'a', 't', 'i', 'o', 'n'] := by decide
theorem lit_ohm : "on handling message".toList = ['o', 'n', ' ', 'h', 'a', 'n', 'd', 'l', 'i', 'n', 'g', ' ', 'm', 'e', 's', 's', 'a', 'g', 'e'] := by decide
theorem lit_bie : "[InternalError] ".toList = ['[', 'I', 'n', 't', 'e', 'r', 'n', 'a', 'l', 'E', 'r', 'r', 'o', 'r', ']', ' '] := by decide
theorem lit_map : ": map[]".toList = [':', ' ', 'm', 'a', 'p', '[', ']'] := by decide
theorem lit_bns : "[NotSupported] on handling message: map[]".toList = ['[', 'N', 'o', 't', 'S', 'u', 'p', 'p', 'o', 'r', 't', 'e', 'd', ']', ' ', 'o', 'n', ' ', 'h', 'a', 'n', 'd', 'l', 'i', 'n', 'g', ' ', 'm', 'e', 's', 's', 'a', 'g', 'e', ':', ' ', 'm', 'a', 'p', '[', ']'] := by decide
theorem lit_bfv : "[FormationViolation] on handling message: map[]".toList = ['[', 'F', 'o', 'r', 'm', 'a', 't', 'i', 'o', 'n', 'V', 'i', 'o', 'l', 'a', 't', 'i', 'o', 'n', ']', ' ', 'o', 'n', ' ', 'h', 'a', 'n', 'd', 'l', 'i', 'n', 'g', ' ', 'm', 'e', 's', 's', 'a', 'g', 'e', ':', ' ', 'm', 'a', 'p', '[', ']'] := by decide
theorem lit_m : "map[".toList = ['m', 'a', 'p', '['] := by decide

theorem says_handler (V : ℚ → Text) (e : String) : callErrorText V "InternalError" e [] = (Cause.handler e).says := by
  unfold callErrorText Cause.says sprintS sprintEntries
  rw [lit_ie, lit_m, lit_bie, lit_map]
  simp only [List.cons_append, List.nil_append, List.append_assoc]

theorem says_unknown (V : ℚ → Text) : callErrorText V "NotSupported" "on handling message" [] = Cause.unknownAction.says := by
  unfold callErrorText Cause.says sprintS sprintEntries
  rw [lit_ns, lit_ohm, lit_m, lit_bns]
  simp only [List.cons_append, List.nil_append, List.append_assoc]

theorem says_bad (V : ℚ → Text) : callErrorText V "FormationViolation" "on handling message" [] = Cause.badRequest.says := by
  unfold callErrorText Cause.says sprintS sprintEntries
  rw [lit_fv, lit_ohm, lit_m, lit_bfv]
  simp only [List.cons_append, List.nil_append, List.append_assoc]

theorem Linked.error (h : Linked trA trB) (V : ℚ → Text) (i : Nat) (x : Answer (ocppj F o₁ a)) (t : Text)
    (hf : Ev.finish (S := ocppj F o₁ a) i x ∈ trA) (hx : answerError V x = some t) :
    ∃ id q c, Ev.send (S := ocppj F o₁ a) i id q ∈ trA ∧ Cause.Holds trB id q c ∧ t = c.says := by
  cases x with
  | resp r => cases hx
  | code c =>
    cases hx
    obtain ⟨rfl, id, q, resp, h1, h2, h3⟩ := h.codeWhy i c hf
    exact ⟨id, q, .badResponse, h1, ⟨resp, h2, h3⟩, rfl⟩
  | callErr c d det =>
    cases hx
    obtain ⟨id, q, h1, rfl, h2⟩ := h.callErr i c d det hf
    rcases h2 with ⟨rfl, resp, h3⟩ | ⟨rfl, -, ⟨k, h4⟩, h5⟩
    · exact ⟨id, q, .handler d, h1, ⟨resp, h3⟩, says_handler V d⟩
    · rcases h.refusedWhy h4 hf h1 with ⟨rfl, h6⟩ | ⟨rfl, h6, h7⟩
      · exact ⟨id, q, .unknownAction, h1, ⟨h5, h6⟩, says_unknown V⟩
      · exact ⟨id, q, .badRequest, h1, ⟨h5, h6, h7⟩, says_bad V⟩

theorem says_inj {c d : Cause} (h : c.says = d.says) : c = d := by
  have hh := congrArg (fun l => l[1]?) h
  cases c <;> cases d <;> try rfl
  all_goals unfold Cause.says at h hh
  · rw [List.append_left_inj, List.append_right_inj] at h
    rw [String.toList_inj.1 h]
  all_goals
    rw [lit_fv] at hh <;> simp at hh
  done

/-- A `Send` that returned has one id and one request. -/
theorem send_unique {sA : St (ocppj F o₁ a)} (hA : Conn.Exec a trA sA) {i : Nat} {id id' : String} {q q' : Req} {x : Answer (ocppj F o₁ a)}
    (hf : Ev.finish i x ∈ trA) (hs : Ev.send (S := ocppj F o₁ a) i id q ∈ trA) (hs' : Ev.send (S := ocppj F o₁ a) i id' q' ∈ trA) :
    id = id' ∧ q = q' := by
  obtain ⟨z, hz⟩ := Exec.finish_sender hA hf
  rcases Exec.sender_of_send hA i id q hs with ⟨y, hy, h1, h2⟩ | ⟨_, h⟩
  · rcases Exec.sender_of_send hA i id' q' hs' with ⟨y', hy', h3, h4⟩ | ⟨_, h⟩
    · rw [hy] at hy'
      cases hy'
      exact ⟨h1.symm.trans h3, h2.symm.trans h4⟩
    · subst h; simp at hz
  · subst h; simp at hz

theorem HandledOnce.mem {id : String} {q : Req} {resp : Option Resp} {err : Option String} (h : HandledOnce o₂ trB id q resp err) :
    (id, resp, err) ∈ returned trB := by
  have : (id, resp, err) ∈ (returned trB).filter (fun x => x.1 = id) := by rw [h.2]; simp
  exact (List.mem_filter.1 this).1

theorem Linked.ordinary (h : Linked trA trB) (V : ℚ → Text) (i : Nat) (id : String) (q : Req) (t : Text)
    (hdt : q.type.action ≠ "DataTransfer".toList) (ho : Ordinary q.val) (y : Answer (ocppj F o₁ a))
    (h1 : Ev.send (S := ocppj F o₁ a) i id q ∈ trA) (h2 : Ev.finish (S := ocppj F o₁ a) i y ∈ trA) (h3 : answerError V y = some t)
    (h4 : ∀ resp, (id, some resp, none) ∈ returned trB → resp.type = q.type.response ∧ Ordinary resp.val) :
    ∃ e resp, HandledOnce o₂ trB id q resp (some e) ∧ t = "[InternalError] ".toList ++ e.toList ++ ": map[]".toList := by
  obtain ⟨id', q', c, h5, h6, h7⟩ := h.error V i y t h2 h3
  obtain ⟨sA, hA⟩ := h.left
  obtain ⟨rfl, rfl⟩ := send_unique hA h2 h1 h5
  cases c with
  | handler e => exact ⟨e, h6.choose, h6.choose_spec, h7⟩
  | unknownAction => exact absurd h6.2 hdt
  | badRequest => exact absurd ho h6.2.2
  | badResponse =>
    obtain ⟨resp, h8, h9⟩ := h6
    exact absurd (h4 resp h8.mem) h9

/-- An error of the handler is what `Send` returns. -/
theorem Linked.handlerError (h : Linked trA trB) (V : ℚ → Text) (i : Nat) (id e : String) (q : Req) (resp : Option Resp) (y : Answer (ocppj F o₁ a))
    (h1 : Ev.send (S := ocppj F o₁ a) i id q ∈ trA) (h2 : Ev.finish (S := ocppj F o₁ a) i y ∈ trA) (h3 : (id, resp, some e) ∈ returned trB) :
    answerError V y = some (Cause.handler e).says := by
  obtain ⟨sA, hA⟩ := h.left
  have hr := (h.ret h3).1
  have hret : ∀ {resp' err'}, HandledOnce o₂ trB id q resp' err' → err' = some e := by
    intro resp' err' hh
    have := hh.2
    rw [hr] at this
    simp only [List.cons.injEq, Prod.mk.injEq, and_true, true_and] at this
    exact this.2.symm
  cases hy : answerError V y with
  | none =>
    cases y with
    | resp r =>
      obtain ⟨id', q', resp', h4, h5, -⟩ := h.response i r h2
      obtain ⟨rfl, rfl⟩ := send_unique hA h2 h1 h4
      cases hret h5
    | code c => cases hy
    | callErr c d x => cases hy
  | some t =>
    obtain ⟨id', q', c, h4, h5, rfl⟩ := h.error V i y t h2 hy
    obtain ⟨rfl, rfl⟩ := send_unique hA h2 h1 h4
    have hh := h.handledOnce h2 h1 h3
    have hmem : ∀ l, (handled trB).filter (fun x => x.1 = id) = l → l ≠ [] := by
      rintro l rfl hl
      obtain ⟨⟨q', h6, -⟩, -⟩ := hh
      rw [hl] at h6
      cases h6
    cases c with
    | handler e' =>
      obtain ⟨resp', h6⟩ := h5
      cases hret h6
      rfl
    | unknownAction => exact absurd rfl (hmem _ h5.1)
    | badRequest => exact absurd rfl (hmem _ h5.1)
    | badResponse =>
      obtain ⟨resp', h6, -⟩ := h5
      cases hret h6

variable {tr : List (Ev (ocppj F o₁ .cp) ⊕ Ev (ocppj F o₂ .cs))} {x : Sys F o₁ o₂}

/-! ### C96 -/

/-- **C96** In every schedule of a charge point and a central system, the text of the error that a `Send` returns for an answer says
what happened to the request at the other end. -/
theorem C96_send (h : Sys.Exec tr x) (hp : Proper (atCp tr)) (hs : Proper (atCs tr)) (V : ℚ → Text) (i : Nat) (t : Text) :
    (∀ y, Ev.finish (S := ocppj F o₁ .cp) i y ∈ atCp tr → answerError V y = some t →
      ∃ id q c, Ev.send (S := ocppj F o₁ .cp) i id q ∈ atCp tr ∧ Cause.Holds (atCs tr) id q c ∧ t = c.says) ∧
    (∀ y, Ev.finish (S := ocppj F o₂ .cs) i y ∈ atCs tr → answerError V y = some t →
      ∃ id q c, Ev.send (S := ocppj F o₂ .cs) i id q ∈ atCs tr ∧ Cause.Holds (atCp tr) id q c ∧ t = c.says) :=
  ⟨fun y => (h.linked hp hs).1.error V i y t, fun y => (h.linked hp hs).2.error V i y t⟩

/-- **C96** The text tells the cause: if it is the text of a cause, that is what happened (the texts of different causes, and of
different errors of a handler, differ). -/
theorem C96_tells (h : Sys.Exec tr x) (hp : Proper (atCp tr)) (hs : Proper (atCs tr)) (V : ℚ → Text) (i : Nat) (c : Cause) :
    (∀ y, Ev.finish (S := ocppj F o₁ .cp) i y ∈ atCp tr → answerError V y = some c.says →
      ∃ id q, Ev.send (S := ocppj F o₁ .cp) i id q ∈ atCp tr ∧ Cause.Holds (atCs tr) id q c) ∧
    (∀ y, Ev.finish (S := ocppj F o₂ .cs) i y ∈ atCs tr → answerError V y = some c.says →
      ∃ id q, Ev.send (S := ocppj F o₂ .cs) i id q ∈ atCs tr ∧ Cause.Holds (atCp tr) id q c) := by
  constructor
  · intro y h1 h2
    obtain ⟨id, q, c', h3, h4, h5⟩ := (C96_send h hp hs V i _).1 y h1 h2
    rw [says_inj h5]
    exact ⟨id, q, h3, h4⟩
  · intro y h1 h2
    obtain ⟨id, q, c', h3, h4, h5⟩ := (C96_send h hp hs V i _).2 y h1 h2
    rw [says_inj h5]
    exact ⟨id, q, h3, h4⟩

/-- **C96** If the handler returned an error for the request and `Send` returns an answer, it is this error with its text. -/
theorem C96_handlerError (h : Sys.Exec tr x) (hp : Proper (atCp tr)) (hs : Proper (atCs tr)) (V : ℚ → Text) (i : Nat) (id e : String) (q : Req)
    (resp : Option Resp) :
    (∀ y, Ev.send (S := ocppj F o₁ .cp) i id q ∈ atCp tr → Ev.finish (S := ocppj F o₁ .cp) i y ∈ atCp tr →
      (id, resp, some e) ∈ returned (atCs tr) → answerError V y = some (Cause.handler e).says) ∧
    (∀ y, Ev.send (S := ocppj F o₂ .cs) i id q ∈ atCs tr → Ev.finish (S := ocppj F o₂ .cs) i y ∈ atCs tr →
      (id, resp, some e) ∈ returned (atCp tr) → answerError V y = some (Cause.handler e).says) :=
  ⟨fun y => (h.linked hp hs).1.handlerError V i id e q resp y, fun y => (h.linked hp hs).2.handlerError V i id e q resp y⟩

/-- **C96** A request other than DataTransfer with ordinary values, and a handler that returns ordinary responses of the type
belonging to the request: then an answer that is an error is an error of the handler, with its text. -/
theorem C96_ordinary (h : Sys.Exec tr x) (hp : Proper (atCp tr)) (hs : Proper (atCs tr)) (V : ℚ → Text) (i : Nat) (id : String) (q : Req) (t : Text)
    (hdt : q.type.action ≠ "DataTransfer".toList) (ho : Ordinary q.val) :
    (∀ y, Ev.send (S := ocppj F o₁ .cp) i id q ∈ atCp tr → Ev.finish (S := ocppj F o₁ .cp) i y ∈ atCp tr → answerError V y = some t →
      (∀ resp, (id, some resp, none) ∈ returned (atCs tr) → resp.type = q.type.response ∧ Ordinary resp.val) →
      ∃ e resp, HandledOnce o₂ (atCs tr) id q resp (some e) ∧ t = "[InternalError] ".toList ++ e.toList ++ ": map[]".toList) ∧
    (∀ y, Ev.send (S := ocppj F o₂ .cs) i id q ∈ atCs tr → Ev.finish (S := ocppj F o₂ .cs) i y ∈ atCs tr → answerError V y = some t →
      (∀ resp, (id, some resp, none) ∈ returned (atCp tr) → resp.type = q.type.response ∧ Ordinary resp.val) →
      ∃ e resp, HandledOnce o₁ (atCp tr) id q resp (some e) ∧ t = "[InternalError] ".toList ++ e.toList ++ ": map[]".toList) :=
  ⟨fun y => (h.linked hp hs).1.ordinary V i id q t hdt ho y, fun y => (h.linked hp hs).2.ordinary V i id q t hdt ho y⟩

/-! ### Any peer -/

theorem sep_inj {α : Type} {z : α} : ∀ {l l' r r' : List α}, z ∉ l → z ∉ l' → l ++ z :: r = l' ++ z :: r' → l = l' ∧ r = r'
  | [], [], _, _, _, _, h => ⟨rfl, by simpa using h⟩
  | [], y :: l', _, _, _, h2, h => by
    simp only [List.nil_append, List.cons_append, List.cons.injEq] at h
    exact absurd (by simp [h.1]) h2
  | y :: l, [], _, _, h1, _, h => by
    simp only [List.nil_append, List.cons_append, List.cons.injEq] at h
    exact absurd (by simp [h.1]) h1
  | y :: l, y' :: l', _, _, h1, h2, h => by
    simp only [List.cons_append, List.cons.injEq] at h
    obtain ⟨rfl, h⟩ := h
    obtain ⟨rfl, h3⟩ := sep_inj (fun m => h1 (by simp [m])) (fun m => h2 (by simp [m])) h
    exact ⟨rfl, h3⟩

/-- **C96** With any peer: a `Send` that returned the error of a CallError had read one with the id of its request. -/
theorem C96_received {side : Side} {o : Order} {l : List (Ev (ocppj F o side))} {s : St (ocppj F o side)} (h : Exec side l s) (i : Nat) (c d : String) (x : Payload)
    (hf : Ev.finish (S := ocppj F o side) i (.callErr c d x) ∈ l) :
    ∃ k f id q, Ev.send (S := ocppj F o side) i id q ∈ l ∧ Ev.read (S := ocppj F o side) k f ∈ l ∧ receive f = .ok (some (.error id c d x)) := by
  obtain ⟨k, f, id, q, ha, hrd, hsd⟩ := (C21_responses_never_crossed h).1 i _ hf
  refine ⟨k, f, id, q, hsd.subset (by simp), hrd.subset (by simp), ?_⟩
  cases ha with
  | callErr h1 => exact h1

/-- **C96** With any peer: the text of the error for a CallError tells its code, if codes contain no `]`; and its description, if there are no
details. -/
theorem C96_anyPeer (V : ℚ → Text) (c c' d d' : String) (x x' : Payload) (hc : ']' ∉ c.toList) (hc' : ']' ∉ c'.toList)
    (h : callErrorText V c d x = callErrorText V c' d' x') : c = c' ∧ (x = [] → x' = [] → d = d') := by
  unfold callErrorText at h
  simp only [List.cons.injEq, true_and] at h
  obtain ⟨h1, h2⟩ := sep_inj hc hc' h
  refine ⟨String.toList_inj.1 h1, ?_⟩
  rintro rfl rfl
  simp only [List.cons.injEq, true_and, List.append_left_inj] at h2
  exact String.toList_inj.1 h2

/-- **C96** It does not tell the description if there are details (and it need not tell the code of a peer that puts `]` in it). -/
theorem C96_ambiguous (V : ℚ → Text) :
    callErrorText V "GenericError" "x" [("k".toList, .str "v: map[k:w".toList)] =
      callErrorText V "GenericError" "x: map[k:v" [("k".toList, .str "w".toList)] ∧
    callErrorText V "a" "b] c" [] = callErrorText V "a] b" "c" [] := by
  constructor <;> rfl

/-- **C96** The error for a CallError is never mistaken for the timeout or for a code. -/
theorem C96_kinds (V : ℚ → Text) (c d : String) (x : Payload) :
    callErrorText V c d x ≠ timeoutText ∧
    ∀ code : String, code.toList.head? ≠ some '[' → callErrorText V c d x ≠ code.toList := by
  constructor
  · intro h
    have := congrArg List.head? h
    rw [show timeoutText.head? = some 'r' by decide] at this
    simp [callErrorText] at this
  · intro code hc h
    rw [← h] at hc
    exact hc rfl

/-! ### It happens -/

theorem afterRead_error (o : Order) (s : St (ocppj F o a)) {id action c d : String} {g : Text} {p : Payload} {ch : Option Nat}
    (h : s.sent id = some action) (hc : s.chan id = ch) (h2 : receive g = .ok (some (.error id c d p))) :
    afterRead s g = some (.toSender ch (.callErr c d p)) := by
  have e : (ocppj F o a).read g = .ok (some (.error id c d p)) := h2
  unfold afterRead
  rw [e]
  dsimp only
  rw [h]
  dsimp only
  rw [hc]

theorem afterRead_refuse (o : Order) (s : St (ocppj F o b)) {id action c : String} {f : Text} {p : Payload}
    (h2 : receive f = .ok (some (.call id action p))) (h3 : callToRequest F o action p = .error c) :
    afterRead s f = some (.refusing id c) := by
  have e : (ocppj F o b).read f = .ok (some (.call id action p)) := h2
  have e' : (ocppj F o b).toRequest action p = .error c := h3
  unfold afterRead
  rw [e]
  dsimp only
  rw [e']

/-- **C96** It happens: for every charge point request other than DataTransfer that can be encoded and has ordinary values, and every
text, there is a schedule in which the handler returns an error with this text, and `Send` an error that says so. -/
theorem C96_possible (F : FloatFmt) (o₁ o₂ : Order) (V : ℚ → Text) (id e : String) (q : Req) (hcp : q.type.isChargePoint = true)
    (hs : q.type.action ≠ "DataTransfer".toList) (hq : HasTy q.type.ty q.val) (ho : Ordinary q.val) (hm : ∃ t, marshal F q.type.ty q.val = .ok t) :
    ∃ tr : List (Ev (ocppj F o₁ .cp) ⊕ Ev (ocppj F o₂ .cs)), ∃ x y, Sys.Exec tr x ∧ Proper (atCp tr) ∧ Proper (atCs tr) ∧
      Ev.send (S := ocppj F o₁ .cp) 0 id q ∈ atCp tr ∧ Ev.finish (S := ocppj F o₁ .cp) 0 y ∈ atCp tr ∧
      answerError V y = some (Cause.handler e).says := by
  obtain ⟨t, hm⟩ := hm
  obtain ⟨f, p, v, h1, h2, h3, -, -⟩ := C14_request F o₂ id q hs hq ho.1 ho.2 t hm
  obtain ⟨g, h4, h5⟩ := C10_handlerError F id none e
  have o : ∀ {S : Sem} {e : Ev S} {l : List S.Frame}, (∀ k f, e ≠ .read k f) → Consumes e l l := fun h => .other h
  have r0 := Sys.Exec.nil (F := F) (o₁ := o₁) (o₂ := o₂)
  have r1 := r0.snoc (.cs (Step.spawn rfl rfl) (o (by intros; simp)))
  have r2 := r1.snoc (.cp (Step.spawn rfl rfl) (o (by intros; simp)))
  have r3 := r2.snoc (.cp (Step.send (id := id) rfl (by simp [Sys.init, Conn.init]) h1) (o (by intros; simp)))
  have r4 := r3.snoc (.cp (Step.regSent (i := 0) rfl rfl rfl) (o (by intros; simp)))
  have r5 := r4.snoc (.cp (Step.regChan (i := 0) rfl rfl rfl) (o (by intros; simp)))
  have r6 := r5.snoc (.cp (Step.writeOk (i := 0) rfl rfl rfl rfl rfl) (o (by intros; simp)))
  have r7 := r6.snoc (.cs (Step.read (k := 0) (f := f) rfl rfl) .read)
  have r8 := r7.snoc (.cs (Step.dispatch (k := 0) (p := .toLoop id (⟨q.type, v⟩ : Req)) rfl rfl (afterRead_call o₂ _ h2 h3)) (o (by intros; simp)))
  have hat : afterTake (S := ocppj F o₂ .cs) .cs id (⟨q.type, v⟩ : Req) = .handling id (some (⟨q.type, v⟩ : Req)) := if_pos hcp
  have st9 := fun s h1 h2 h3 => Step.take (S := ocppj F o₂ .cs) (side := .cs) (s := s) (k := 0) (id := id) (r := (⟨q.type, v⟩ : Req)) h1 h2 h3
  rw [hat] at st9
  have r9 := r8.snoc (.cs (st9 _ rfl ⟨_, rfl⟩ rfl) (o (by intros; simp)))
  have r10 := r9.snoc (.cs (Step.handlerRet (S := ocppj F o₂ .cs) (r := some (⟨q.type, v⟩ : Req)) none (some e) rfl rfl) (o (by intros; simp)))
  have r11 := r10.snoc (.cs (Step.answerOk rfl rfl h4 rfl) (o (by intros; simp)))
  have r12 := r11.snoc (.cp (Step.read (k := 0) (f := g) rfl rfl) .read)
  have r13 := r12.snoc (.cp (Step.dispatch (k := 0) (p := .toSender (some 0) (.callErr "InternalError" e ([] : Payload))) rfl rfl (afterRead_error o₁ _ (by exact if_pos rfl) (by exact if_pos rfl) h5)) (o (by intros; simp)))
  have r14 := r13.snoc (.cp (Step.deliver (k := 0) (i := 0) rfl rfl rfl rfl) (o (by intros; simp)))
  have r15 := r14.snoc (.cp (Step.finish (i := 0) rfl rfl rfl) (o (by intros; simp)))
  refine ⟨_, _, .callErr "InternalError" e ([] : Payload), r15, ⟨⟨?_, ?_⟩, ?_⟩, ⟨⟨?_, ?_⟩, ?_⟩, ?_, ?_, ?_⟩
  · intro i id' r hm
    simp [atCp] at hm
    obtain ⟨-, -, rfl⟩ := hm
    exact hq
  · intro id' r e hm
    simp [atCp] at hm
  · intro i id' r hm
    simp [atCp] at hm
    obtain ⟨-, -, rfl⟩ := hm
    simp [hcp]
  · intro i id' r hm
    simp [atCs] at hm
  · intro id' r e hm
    simp [atCs] at hm
  · intro i id' r hm
    simp [atCs] at hm
  · simp [atCp, Sys.init, Conn.init]
  · simp [atCp, Sys.init, Conn.init]
  · exact congrArg some (says_handler V e)

/-- **C96** It happens: every DataTransfer that a charge point can encode may get the error that its action is not supported. -/
theorem C96_dataTransfer (F : FloatFmt) (o₁ o₂ : Order) (V : ℚ → Text) (id : String) (q : Req) (hcp : q.type.isChargePoint = true)
    (hs : q.type.action = "DataTransfer".toList) (hq : HasTy q.type.ty q.val) (hm : ∃ t, marshal F q.type.ty q.val = .ok t) :
    ∃ tr : List (Ev (ocppj F o₁ .cp) ⊕ Ev (ocppj F o₂ .cs)), ∃ x y, Sys.Exec tr x ∧ Proper (atCp tr) ∧ Proper (atCs tr) ∧
      Ev.send (S := ocppj F o₁ .cp) 0 id q ∈ atCp tr ∧ Ev.finish (S := ocppj F o₁ .cp) 0 y ∈ atCp tr ∧
      answerError V y = some Cause.unknownAction.says := by
  obtain ⟨t, hm⟩ := hm
  obtain ⟨f, j, p, -, -, -, h1, h2⟩ := C10_request F id q hq t hm
  have h3 : callToRequest F o₂ (String.ofList q.type.action) p = .error "NotSupported" := by
    rw [hs]
    exact (C19_dataTransfer F o₂ p).1
  have h5 := C10_refusal F id "NotSupported"
  have o : ∀ {S : Sem} {e : Ev S} {l : List S.Frame}, (∀ k f, e ≠ .read k f) → Consumes e l l := fun h => .other h
  have r0 := Sys.Exec.nil (F := F) (o₁ := o₁) (o₂ := o₂)
  have r1 := r0.snoc (.cs (Step.spawn rfl rfl) (o (by intros; simp)))
  have r2 := r1.snoc (.cp (Step.spawn rfl rfl) (o (by intros; simp)))
  have r3 := r2.snoc (.cp (Step.send (id := id) rfl (by simp [Sys.init, Conn.init]) h1) (o (by intros; simp)))
  have r4 := r3.snoc (.cp (Step.regSent (i := 0) rfl rfl rfl) (o (by intros; simp)))
  have r5 := r4.snoc (.cp (Step.regChan (i := 0) rfl rfl rfl) (o (by intros; simp)))
  have r6 := r5.snoc (.cp (Step.writeOk (i := 0) rfl rfl rfl rfl rfl) (o (by intros; simp)))
  have r7 := r6.snoc (.cs (Step.read (k := 0) (f := f) rfl rfl) .read)
  have r8 := r7.snoc (.cs (Step.dispatch (k := 0) (p := .refusing id "NotSupported") rfl rfl (afterRead_refuse o₂ _ h2 h3)) (o (by intros; simp)))
  have r9 := r8.snoc (.cs (Step.refuse (k := 0) true rfl rfl (fun _ => rfl)) (o (by intros; simp)))
  have r12 := r9.snoc (.cp (Step.read (k := 0) (f := encRefusal F id "NotSupported") rfl rfl) .read)
  have r13 := r12.snoc (.cp (Step.dispatch (k := 0) (p := .toSender (some 0) (.callErr "NotSupported" "on handling message" ([] : Payload))) rfl rfl (afterRead_error o₁ _ (by exact if_pos rfl) (by exact if_pos rfl) h5)) (o (by intros; simp)))
  have r14 := r13.snoc (.cp (Step.deliver (k := 0) (i := 0) rfl rfl rfl rfl) (o (by intros; simp)))
  have r15 := r14.snoc (.cp (Step.finish (i := 0) rfl rfl rfl) (o (by intros; simp)))
  refine ⟨_, _, .callErr "NotSupported" "on handling message" ([] : Payload), r15, ⟨⟨?_, ?_⟩, ?_⟩, ⟨⟨?_, ?_⟩, ?_⟩, ?_, ?_, ?_⟩
  · intro i id' r hm
    simp [atCp] at hm
    obtain ⟨-, -, rfl⟩ := hm
    exact hq
  · intro id' r e hm
    simp [atCp] at hm
  · intro i id' r hm
    simp [atCp] at hm
    obtain ⟨-, -, rfl⟩ := hm
    simp [hcp]
  · intro i id' r hm
    simp [atCs] at hm
  · intro id' r e hm
    simp [atCs] at hm
  · intro i id' r hm
    simp [atCs] at hm
  · simp [atCp, Sys.init, Conn.init]
  · simp [atCp, Sys.init, Conn.init]
  · exact congrArg some (says_unknown V)

/-- Such requests exist: the status notification of C14 is one with ordinary values. -/
example (F : FloatFmt) : ∃ q : Req, q.type.isChargePoint = true ∧ q.type.action ≠ "DataTransfer".toList ∧ HasTy q.type.ty q.val ∧ Ordinary q.val ∧
    ∃ t, marshal F q.type.ty q.val = .ok t := by
  obtain ⟨t, h1, h2, h3, h4, h5⟩ := sample_sendable F
  exact ⟨⟨.cpreqStatusNotification, sampleStatus2⟩, rfl, h5, h2, ⟨h3, h4⟩, t, h1⟩

end Verif.Ocppj
