import Verif.Lemmas.Conn7
import Verif.Model.System
import Verif.Props.ConnOcpp
/-!
# Two ends of a connection
-/
set_option linter.unusedSimpArgs false
namespace Verif.Ocppj
open Json Codec Decode Encode Trip Conn

variable {F : FloatFmt} {o₁ o₂ : Order}

section
variable {o : Order} {side : Side}

/-- Frames written, as texts. -/
def textsOut (tr : List (Ev (ocppj F o side))) : List Text := written tr

/-- Frames read, as texts. -/
def textsIn (tr : List (Ev (ocppj F o side))) : List Text := framesRead tr

/-- Calls written, as texts. -/
def callTexts (tr : List (Ev (ocppj F o side))) : List (Nat × Text) := callsOut tr

/-- Requests taken by the serving loop. -/
def takenReqs (tr : List (Ev (ocppj F o side))) : List (String × Req) := taken tr

/-- Calls of the handler at this end: message id and argument. -/
def handled (tr : List (Ev (ocppj F o side))) : List (String × Option Req) := handlerCalls tr

/-- Returns of the handler at this end: message id, response and error. -/
def returned (tr : List (Ev (ocppj F o side))) : List (String × Option Resp × Option String) := handlerRets tr
end

theorem framesRead_snoc {S : Sem} (tr : List (Ev S)) (e : Ev S) :
    framesRead (tr ++ [e]) = framesRead tr ++ (match e with | .read _ f => [f] | _ => []) := by
  unfold framesRead
  rw [List.filterMap_append]
  cases e <;> simp

theorem written_snoc {S : Sem} (tr : List (Ev S)) (e : Ev S) : written (tr ++ [e]) = written tr ++ e.wrote.toList := by
  unfold written
  rw [List.filterMap_append]
  cases h : e.wrote <;> simp [h]

theorem consumes_frames {S : Sem} {e : Ev S} {l l' : List S.Frame} (h : Consumes e l l') (tr : List (Ev S)) :
    framesRead (tr ++ [e]) ++ l' = framesRead tr ++ l := by
  rw [framesRead_snoc]
  cases h with
  | read => simp
  | other hne =>
    cases e
    case read k f => exact absurd rfl (hne k f)
    all_goals simp

/-- Both ends run, and what has been written at one end is what has been read at the other, and what is under way. -/
theorem Sys.Exec.ends {tr : List (Ev (ocppj F o₁ .cp) ⊕ Ev (ocppj F o₂ .cs))} {x : Sys F o₁ o₂} (h : Sys.Exec tr x) :
    Conn.Exec .cp (atCp tr) x.cp ∧ Conn.Exec .cs (atCs tr) x.cs ∧
    textsOut (atCp tr) = textsIn (atCs tr) ++ x.toCs ∧
    textsOut (atCs tr) = textsIn (atCp tr) ++ x.toCp := by
  induction h with
  | nil => exact ⟨.nil, .nil, rfl, rfl⟩
  | @snoc tr e x y h hs ih =>
    obtain ⟨h1, h2, h3, h4⟩ := ih
    cases hs with
    | @cp e s' l hst hc =>
      have e1 : atCp (tr ++ [.inl e]) = atCp tr ++ [e] := by simp [atCp]
      have e2 : atCs (tr ++ [.inl e]) = atCs tr := by simp [atCs]
      rw [e1, e2]
      refine ⟨.snoc h1 hst, h2, ?_, ?_⟩
      · rw [show textsOut (atCp tr ++ [e]) = textsOut (atCp tr) ++ Option.toList (α := Text) e.wrote from written_snoc _ _, h3]
        simp only [List.append_assoc]
      · exact h4.trans (consumes_frames hc (atCp tr)).symm
    | @cs e s' l hst hc =>
      have e1 : atCp (tr ++ [.inr e]) = atCp tr := by simp [atCp]
      have e2 : atCs (tr ++ [.inr e]) = atCs tr ++ [e] := by simp [atCs]
      rw [e1, e2]
      refine ⟨h1, .snoc h2 hst, ?_, ?_⟩
      · exact h3.trans (consumes_frames hc (atCs tr)).symm
      · rw [show textsOut (atCs tr ++ [e]) = textsOut (atCs tr) ++ Option.toList (α := Text) e.wrote from written_snoc _ _, h4]
        simp only [List.append_assoc]

/-! ### What a frame is to the other end -/

variable {a b : Side}

theorem call_read {id : String} {q : Req} {f : Text} (hv : HasTy q.type.ty q.val) (h : encCall F id q = .ok f) :
    ∃ p, receive f = .ok (some (.call id (String.ofList q.type.action) p)) := by
  cases hm : marshal F q.type.ty q.val with
  | panic e => rw [(C10_unsendable F id q).2 e hm] at h; cases h
  | err e => rw [(C10_unsendable F id q).1 e hm] at h; cases h
  | ok text =>
    obtain ⟨t, _, p, _, _, _, h1, h2⟩ := C10_request F id q hv text hm
    rw [h] at h1
    cases h1
    exact ⟨p, h2⟩

theorem reply_read {id : String} {resp : Option Resp} {err : Option String} {f : Text}
    (hv : ∀ r, resp = some r → HasTy r.type.ty r.val) (h : encReply F id resp err = .ok f) :
    (∃ e, err = some e ∧ receive f = .ok (some (.error id "InternalError" e []))) ∨
    (err = none ∧ resp = none ∧ ∃ e, receive f = .err e) ∨
    (err = none ∧ ∃ r p, resp = some r ∧ receive f = .ok (some (.result id p))) := by
  cases err with
  | some e =>
    obtain ⟨t, h1, h2⟩ := C10_handlerError F id resp e
    rw [h] at h1; cases h1
    exact .inl ⟨e, rfl, h2⟩
  | none =>
    cases resp with
    | none =>
      obtain ⟨t, e, h1, h2⟩ := C16_stranded F id
      rw [h] at h1; cases h1
      exact .inr (.inl ⟨rfl, rfl, e, h2⟩)
    | some r =>
      refine .inr (.inr ⟨rfl, r, ?_⟩)
      cases hm : marshal F r.type.ty r.val with
      | ok text =>
        obtain ⟨t, _, p, _, _, h1, h2⟩ := C10_result F id r (hv r rfl) text hm
        rw [h] at h1; cases h1
        exact ⟨p, rfl, h2⟩
      | err e => simp [encReply, frameText, hm, joinElems, GoRes.bind, typeText] at h
      | panic e => simp [encReply, frameText, hm, joinElems, GoRes.bind, typeText] at h

theorem requestDue_call {f : Text} {id : String} {r : Req} (h : requestDue F f = some (id, r)) :
    ∃ action p, receive f = .ok (some (.call id action p)) ∧ dueTo F action p = .ok r := by
  unfold requestDue due at h
  rcases hr : receive f with (_ | (_ | _ | _)) | _ | _
  all_goals rw [hr] at h
  all_goals simp only [] at h
  all_goals try (cases h; done)
  rename_i id' action p
  cases hd : dueTo F action p with
  | error c => rw [hd] at h; cases h
  | ok r' => rw [hd] at h; cases h; exact ⟨_, _, rfl, hd⟩

theorem requestDue_type {f : Text} {id : String} {q r : Req} (hv : HasTy q.type.ty q.val) (h : encCall F id q = .ok f) {id' : String}
    (hr : requestDue F f = some (id', r)) : id' = id ∧ r.type = q.type := by
  obtain ⟨p, h1⟩ := call_read hv h
  obtain ⟨action, p', h2, h3⟩ := requestDue_call hr
  rw [h1] at h2
  cases h2
  refine ⟨rfl, ?_⟩
  unfold dueTo at h3
  rw [String.toList_ofList] at h3
  cases hq : reqFromAction q.type.action with
  | none => rw [hq] at h3; cases h3
  | some q' =>
    have hqq : q' = q.type := by
      by_cases hd : q.type.action = "DataTransfer".toList
      · rw [hd, C17_actions.2.2.1] at hq; cases hq
      · rw [C17_actions.2.1 q.type hd] at hq; cases hq; rfl
    rw [hq] at h3
    simp only [] at h3
    split at h3
    · cases h3
    · cases h3; exact hqq

theorem requestDue_refusal (id c : String) : requestDue F (encRefusal F id c) = none := by
  unfold requestDue due
  rw [C10_refusal]

theorem requestDue_reply {id : String} {resp : Option Resp} {err : Option String} {f : Text}
    (hv : ∀ r, resp = some r → HasTy r.type.ty r.val) (h : encReply F id resp err = .ok f) : requestDue F f = none := by
  unfold requestDue due
  rcases reply_read hv h with ⟨e, -, h⟩ | ⟨-, -, e, h⟩ | ⟨-, r, p, -, h⟩ <;> rw [h]

/-! ### Calls that reach the handler -/

/-- Requests taken at one end are calls written at the other, in order. -/
theorem taken_prefix {trA : List (Ev (ocppj F o₁ a))} {sA : St (ocppj F o₁ a)} {trB : List (Ev (ocppj F o₂ b))} {sB : St (ocppj F o₂ b)}
    (hA : Conn.Exec a trA sA) (hB : Conn.Exec b trB sB) (htA : Typed trA) {l : List Text}
    (hw : textsOut trA = textsIn trB ++ l) :
    takenReqs trB <+: (callTexts trA).filterMap fun x => requestDue F x.2 := by
  obtain ⟨⟨-, -⟩, p, hp, -⟩ := C20_calls hB
  have h1 : (textsOut trA).filterMap (requestDue F) = (callTexts trA).filterMap fun x => requestDue F x.2 := by
    refine written_filterMap (S := ocppj F o₁ a) (requestDue F) trA ?_ ?_
    · exact requestDue_refusal
    · intro id resp err f hm
      obtain ⟨-, -, h3, h4⟩ := C24_one_reply_per_request hA
      obtain ⟨rp, -, h3⟩ := h3
      refine requestDue_reply (fun r hr => ?_) (h4 id resp err f hm)
      have : (id, resp, err) ∈ handlerRets trA := by
        rw [h3, List.mem_append]
        left
        simp only [answers, List.mem_filterMap]
        exact ⟨_, hm, rfl⟩
      simp only [handlerRets, List.mem_filterMap] at this
      obtain ⟨e, he, hx⟩ := this
      cases e <;> simp at hx
      obtain ⟨rfl, rfl, rfl⟩ := hx
      subst hr
      exact htA.2 _ r _ he
  rw [← h1]
  rw [hw, List.filterMap_append]
  obtain ⟨p', hp'⟩ : ∃ p' : List (String × Req), (textsIn trB).filterMap (requestDue F) = takenReqs trB ++ p' := ⟨p, hp⟩
  rw [hp', List.append_assoc]
  exact ⟨_, rfl⟩

/-- The calls that can be taken carry different ids, those of their senders. -/
theorem calls_nodup {trA : List (Ev (ocppj F o₁ a))} {sA : St (ocppj F o₁ a)} (hA : Conn.Exec a trA sA) (htA : Typed trA) :
    (((callTexts trA).filterMap fun x => requestDue F x.2).map Prod.fst).Nodup ∧
    ∀ id q', (id, q') ∈ (callTexts trA).filterMap (fun x => requestDue F x.2) →
      ∃ i f x, (i, f) ∈ callTexts trA ∧ sA.senders[i]? = some x ∧ x.id = id ∧ (x.req : Req).type = q'.type ∧
        HasTy (x.req : Req).type.ty (x.req : Req).val ∧ encCall F id x.req = .ok f ∧ requestDue F f = some (id, q') := by
  obtain ⟨h1, h2⟩ := Exec.callsOut hA
  have hall : ∀ i f, (i, f) ∈ callTexts trA → ∃ x, sA.senders[i]? = some x ∧ encCall F x.id x.req = .ok f ∧
      HasTy (x.req : Req).type.ty (x.req : Req).val := by
    intro i f hm
    obtain ⟨x, hx, hf, -⟩ := h2 i f hm
    refine ⟨x, hx, Exec.frames hA i x f hx hf, htA.1 i x.id x.req (by simpa using (Exec.sends hA i x hx).1)⟩
  constructor
  · change ((callTexts trA).map (·.1)).Nodup at h1
    generalize callTexts trA = l at h1 hall
    induction l with
    | nil => simp
    | cons c l ih =>
      obtain ⟨i, f⟩ := c
      simp only [List.map_cons, List.nodup_cons] at h1
      have ih' := ih h1.2 fun j g hm => hall j g (List.mem_cons_of_mem _ hm)
      rw [List.filterMap_cons]
      cases hr : requestDue F f with
      | none => simpa [hr] using ih'
      | some y =>
        simp only [hr, List.map_cons, List.nodup_cons]
        refine ⟨?_, ih'⟩
        intro hmem
        simp only [List.mem_map, List.mem_filterMap] at hmem
        obtain ⟨z, ⟨⟨j, g⟩, hjg, hz⟩, hzy⟩ := hmem
        obtain ⟨x, hx, hxf, hxt⟩ := hall i f (by simp)
        obtain ⟨x', hx', hxf', hxt'⟩ := hall j g (List.mem_cons_of_mem _ hjg)
        have e1 := (requestDue_type hxt hxf (id' := y.1) (r := y.2) hr).1
        have e2 := (requestDue_type hxt' hxf' (id' := z.1) (r := z.2) hz).1
        have := (Exec.minv hA).ids i j x x' hx hx' (by rw [← e1, ← e2, hzy])
        subst this
        exact h1.1 (List.mem_map_of_mem hjg)
  · intro id q' hm
    simp only [List.mem_filterMap] at hm
    obtain ⟨⟨i, f⟩, hif, hr⟩ := hm
    obtain ⟨x, hx, hxf, hxt⟩ := hall i f hif
    obtain ⟨e1, e2⟩ := requestDue_type hxt hxf (id' := id) (r := q') hr
    subst e1
    exact ⟨i, f, x, hif, hx, rfl, e2.symm, hxt, hxf, hr⟩

theorem filter_of_nodup {α : Type} [DecidableEq α] {β : Type} {l : List (α × β)} (hn : (l.map Prod.fst).Nodup) {x : α × β} (hx : x ∈ l) :
    l.filter (fun y => y.1 = x.1) = [x] := by
  induction l with
  | nil => cases hx
  | cons y l ih =>
    simp only [List.map_cons, List.nodup_cons] at hn
    rw [List.mem_cons] at hx
    rw [List.filter_cons]
    rcases hx with rfl | hx
    · simp only [decide_true, if_true, List.cons.injEq, true_and]
      rw [List.filter_eq_nil_iff]
      intro z hz
      simp only [decide_eq_true_eq]
      intro e
      exact hn.1 (by rw [← e]; exact List.mem_map_of_mem hz)
    · rw [if_neg]
      · exact ih hn.2 hx
      · simp only [decide_eq_true_eq]
        intro e
        exact hn.1 (by rw [e]; exact List.mem_map_of_mem hx)

theorem handlerCalls_ids {S : Sem} {side : Side} {l : List (String × S.Req)} (hn : (l.map Prod.fst).Nodup) :
    ((l.filterMap (handlerArg side)).map Prod.fst).Nodup := by
  have : ((l.filterMap (handlerArg side)).map Prod.fst).Sublist (l.map Prod.fst) := by
    induction l with
    | nil => simp
    | cons x l ih =>
      simp only [List.map_cons, List.nodup_cons] at hn
      rw [List.filterMap_cons]
      unfold handlerArg
      split
      · rename_i h; exact List.Sublist.cons _ (ih hn.2)
      · rename_i y h
        have : y.1 = x.1 := by
          split at h
          · cases h; rfl
          · split at h <;> cases h; rfl
        rw [List.map_cons, List.map_cons, this]
        exact List.Sublist.cons_cons _ (ih hn.2)
  exact this.nodup hn

end Verif.Ocppj
