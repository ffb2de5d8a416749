import Verif.Props.System
import Verif.Spec.Settle
/-!
# Schedules in which nothing goes wrong: one end
-/
set_option linter.unusedSimpArgs false
namespace Verif.Conn
variable {S : Sem} {side : Side}

theorem filterMap_inj {α β : Type} {g : α → Option β} {l : List α} (h : (l.filterMap g).Nodup) {x y : α} (hx : x ∈ l) (hy : y ∈ l) {b : β}
    (h1 : g x = some b) (h2 : g y = some b) : x = y := by
  induction l with
  | nil => cases hx
  | cons z l ih =>
    rw [List.filterMap_cons] at h
    rw [List.mem_cons] at hx hy
    have hn : (l.filterMap g).Nodup := by
      split at h
      · exact h
      · exact (List.nodup_cons.1 h).2
    rcases hx with rfl | hx <;> rcases hy with rfl | hy
    · rfl
    · rw [h1] at h
      exact absurd (List.mem_filterMap.2 ⟨y, hy, h2⟩) (List.nodup_cons.1 h).1
    · rw [h2] at h
      exact absurd (List.mem_filterMap.2 ⟨x, hx, h1⟩) (List.nodup_cons.1 h).1
    · exact ih hn hx hy

/-- Phases of a Send that did not go wrong. -/
structure Calm (s : St S) : Prop where
  open_ : s.closed = false
  loop : s.loop ≠ .exited
  phases : ∀ (i : Nat) (x : Sender S), s.senders[i]? = some x → x.phase ≠ .done .timeout ∧ x.phase ≠ .done .writeErr ∧
    (x.phase = .done .encodeErr → x.frame = none) ∧ (x.phase ≠ .done .encodeErr → x.frame ≠ none)
  offers : ∀ (k : Nat) (e : ReadRes), s.readers[k]? = some (.offer e) → e ≠ .closeErr

open Ocppj in
theorem calm_step {s s' : St S} {e : Ev S} (h : Calm s) (hs : Step side s e s') (hf : Fault e = false) : Calm s' := by
  obtain ⟨h1, h2, h3, h4⟩ := h
  have hlt : ∀ (k : Nat) (x : Sender S), s.senders[k]? = some x → k < s.senders.length :=
    fun k p h => (List.getElem?_eq_some_iff.1 h).1
  have hac : ∀ e', afterResult (S := S) side e' = .exited → e' = .closeErr := by
    intro e'; unfold afterResult; split <;> simp_all
  cases hs
  case dispatch k f p hc hk hp =>
    refine ⟨h1, h2, h3, ?_⟩
    intro j e' hj
    simp only [St.setReader, List.getElem?_set] at hj
    split at hj
    · split at hj
      · simp only [Option.some.injEq] at hj
        subst hj
        unfold afterRead at hp
        repeat' split at hp
        all_goals simp at hp
        all_goals subst hp; simp
      · cases hj
    · exact h4 j e' hj
  case refuse k id c ok hc hk hok =>
    refine ⟨h1, h2, h3, ?_⟩
    intro j e' hj
    simp only [St.setReader, List.getElem?_set] at hj
    split at hj
    · split at hj
      · simp only [Option.some.injEq, Reader.offer.injEq] at hj
        subst hj
        split <;> simp
      · cases hj
    · exact h4 j e' hj
  case result k e hc hl hk =>
    have he := h4 k e hk
    refine ⟨by simp [h1, he, St.setReader], fun hx => he (hac e hx), h3, ?_⟩
    intro j e' hj
    simp only [St.setReader, List.getElem?_set] at hj
    split at hj
    · split at hj <;> cases hj
    · exact h4 j e' hj
  all_goals first
    | (simp [Fault] at hf; done)
    | (constructor <;> simp only [St.setReader, St.setPhase, List.getElem?_set, List.getElem?_append] at * <;> grind)

end Verif.Conn

namespace Verif.Conn
variable {S : Sem} {side : Side}

theorem Exec.calm {tr : List (Ev S)} {s : St S} (h : Exec side tr s) (hf : ∀ e ∈ tr, Ocppj.Fault e = false) : Calm s := by
  induction h with
  | nil => constructor <;> simp [init]
  | @snoc tr e s s' hr hs ih =>
    exact calm_step (ih fun e he => hf e (List.mem_append_left _ he)) hs (hf e (by simp))

/-- A Send that waits for an answer has written its call. -/
theorem Exec.waiting {tr : List (Ev S)} {s : St S} (h : Exec side tr s) {i : Nat} {x : Sender S} (hx : s.senders[i]? = some x)
    (hp : x.phase = .waiting) : ∃ f, x.frame = some f ∧ Ev.writeCall i (some f) ∈ tr := by
  induction h generalizing x with
  | nil => simp [init] at hx
  | @snoc tr e s s' hr hs ih =>
    have hlt : ∀ (k : Nat) (x : Sender S), s.senders[k]? = some x → k < s.senders.length :=
      fun k p h => (List.getElem?_eq_some_iff.1 h).1
    have ih' : ∀ x, s.senders[i]? = some x → x.phase = .waiting → ∃ f, x.frame = some f ∧ Ev.writeCall i (some f) ∈ tr ++ [e] := by
      intro x hx hp
      obtain ⟨f, h1, h2⟩ := ih hx hp
      exact ⟨f, h1, List.mem_append_left _ h2⟩
    clear ih
    cases hs <;> simp only [St.setReader, St.setPhase, List.getElem?_set, List.getElem?_append, List.mem_append, List.mem_singleton] at * <;>
      grind

end Verif.Conn

namespace Verif.Ocppj
open Json Codec Decode Encode Trip Conn

variable {F : FloatFmt} {o₁ o₂ : Order} {a b : Side} {trA : List (Ev (ocppj F o₁ a))} {trB : List (Ev (ocppj F o₂ b))}

/-- The id in an answer. -/
def replyOf (f : Text) : Option String :=
  match receive f with
  | .ok (some (.result id _)) => some id
  | .ok (some (.error id _ _ _)) => some id
  | _ => none

/-- The id in a call. -/
def callOf (f : Text) : Option String :=
  match receive f with
  | .ok (some (.call id _ _)) => some id
  | _ => none

theorem due_count (id : String) (l : List Text) : (l.filterMap callOf).count id =
    ((l.filterMap (requestDue F)).map Prod.fst).count id + ((l.filterMap (refusalDue F)).map Prod.fst).count id := by
  induction l with
  | nil => rfl
  | cons f l ih =>
    simp only [List.filterMap_cons]
    rcases hr : receive f with (_ | (_ | _ | _)) | _ | _
    case ok.some.call id' action p =>
      have e1 : callOf f = some id' := by simp [callOf, hr]
      cases hd : dueTo F action p with
      | ok r =>
        have e2 : requestDue F f = some (id', r) := by simp [requestDue, due, hr, hd]
        have e3 : refusalDue F f = none := by simp [refusalDue, due, hr, hd]
        simp only [e1, e2, e3, List.map_cons, List.count_cons, ih]; omega
      | error c =>
        have e2 : requestDue F f = none := by simp [requestDue, due, hr, hd]
        have e3 : refusalDue F f = some (id', c) := by simp [refusalDue, due, hr, hd]
        simp only [e1, e2, e3, List.map_cons, List.count_cons, ih]; omega
    all_goals
      have e1 : callOf f = none := by simp [callOf, hr]
      have e2 : requestDue F f = none := by simp [requestDue, due, hr]
      have e3 : refusalDue F f = none := by simp [refusalDue, due, hr]
      simp only [e1, e2, e3]; exact ih

/-- The ids of the calls written are different. -/
theorem callIds_nodup {sA : St (ocppj F o₁ a)} (hA : Conn.Exec a trA sA) (ht : Typed trA) : ((textsOut trA).filterMap callOf).Nodup := by
  have h1 : (textsOut trA).filterMap callOf = (callTexts trA).filterMap fun x => callOf x.2 := by
    refine written_filterMap (S := ocppj F o₁ a) callOf trA ?_ ?_
    · intro id c
      show callOf (encRefusal F id c) = none
      simp [callOf, C10_refusal]
    · intro id resp err f hm
      obtain ⟨-, -, ⟨rp, -, h3⟩, h4⟩ := C24_one_reply_per_request hA
      have hmem : (id, resp, err) ∈ handlerRets trA := by
        rw [h3, List.mem_append]
        left
        simp only [answers, List.mem_filterMap]
        exact ⟨_, hm, rfl⟩
      have hty := handlerRet_typed ht hmem
      unfold callOf
      rcases reply_read hty (h4 id resp err f hm) with ⟨e, -, h1⟩ | ⟨-, -, e, h1⟩ | ⟨-, r, p', -, h1⟩ <;> simp [h1]
  rw [h1]
  obtain ⟨h2, h3⟩ := Exec.callsOut hA
  have hall : ∀ i f, (i, f) ∈ callTexts trA → ∃ x, sA.senders[i]? = some x ∧ callOf f = some x.id := by
    intro i f hm
    obtain ⟨x, hx, hf, -⟩ := h3 i f hm
    obtain ⟨p, hp⟩ := call_read (ht.1 i x.id x.req (by simpa using (Exec.sends hA i x hx).1)) (Exec.frames hA i x f hx hf)
    exact ⟨x, hx, by simp [callOf, hp]⟩
  change ((callTexts trA).map (·.1)).Nodup at h2
  clear h1 h3
  generalize callTexts trA = l at h2 hall
  induction l with
  | nil => simp
  | cons c l ih =>
    obtain ⟨i, f⟩ := c
    simp only [List.map_cons, List.nodup_cons] at h2
    obtain ⟨x, hx, hf⟩ := hall i f (by simp)
    rw [List.filterMap_cons]
    simp only [hf, List.nodup_cons]
    refine ⟨?_, ih h2.2 fun j g hm => hall j g (List.mem_cons_of_mem _ hm)⟩
    intro hmem
    simp only [List.mem_filterMap] at hmem
    obtain ⟨⟨j, g⟩, hjg, hz⟩ := hmem
    obtain ⟨y, hy, hg⟩ := hall j g (List.mem_cons_of_mem _ hjg)
    rw [hg] at hz
    have := (Exec.minv hA).ids i j x y hx hy (Option.some.inj hz).symm
    subst this
    exact h2.1 (List.mem_map_of_mem hjg)

theorem Linked.symm (h : Linked trA trB) : Linked trB trA := ⟨h.ne.symm, h.right, h.left, h.back, h.there, h.properB, h.properA⟩

/-- Requests taken and calls refused carry different ids. -/
theorem Linked.dueIds (h : Linked trA trB) (id : String) : ((takenReqs trB).map Prod.fst).count id + ((refusals trB).map Prod.fst).count id ≤ 1 := by
  obtain ⟨sA, hA⟩ := h.left
  obtain ⟨sB, hB⟩ := h.right
  obtain ⟨⟨p, hp, -⟩, p', hp', -⟩ := C20_calls hB
  obtain ⟨p', hp2⟩ : ∃ p' : List (String × Req), (textsIn trB).filterMap (requestDue F) = takenReqs trB ++ p' := ⟨p', hp'⟩
  have hp1 : (textsIn trB).filterMap (refusalDue F) = refusals trB ++ p := hp
  have h1 := due_count (F := F) id (textsIn trB)
  rw [hp1, hp2] at h1
  simp only [List.map_append, List.count_append] at h1
  have h2 : ((textsIn trB).filterMap callOf).count id ≤ 1 := by
    have h3 : ((textsIn trB).filterMap callOf).Sublist ((textsOut trA).filterMap callOf) := h.there.sublist.filterMap _
    exact (h3.count_le id).trans (List.nodup_iff_count_le_one.1 (callIds_nodup hA h.properA.typed) id)
  omega

theorem answers_ids {sB : St (ocppj F o₂ b)} (hB : Conn.Exec b trB sB) : ((answers trB).map (·.1)).Sublist ((takenReqs trB).map Prod.fst) := by
  obtain ⟨h1, ⟨run, -, h2⟩, ⟨rp, -, h3⟩, -⟩ := C24_one_reply_per_request hB
  have h4 : ((answers trB).map (·.1)).Sublist ((handlerRets trB).map (·.1)) := by
    rw [h3, List.map_append]; exact List.sublist_append_left _ _
  have h5 : ((handlerRets trB).map (·.1)).Sublist ((handlerCalls trB).map (·.1)) := by
    rw [h2, List.append_assoc]; exact List.sublist_append_left _ _
  refine (h4.trans h5).trans ?_
  rw [h1]
  show ((List.filterMap (handlerArg b) (taken trB)).map (·.1)).Sublist ((taken trB).map Prod.fst)
  generalize taken trB = l
  induction l with
  | nil => simp
  | cons x l ih =>
    rw [List.filterMap_cons]
    unfold handlerArg
    split
    · exact List.Sublist.cons _ ih
    · rename_i y h
      have : y.1 = x.1 := by
        split at h
        · cases h; rfl
        · split at h <;> cases h; rfl
      rw [List.map_cons, List.map_cons, this]
      exact List.Sublist.cons_cons _ ih

/-- The id of an answer attempted. -/
def ansId {S : Sem} : Ev S → List String
  | .answer id _ _ _ => [id]
  | _ => []

/-- The id of a refusal attempted. -/
def refId {S : Sem} : Ev S → List String
  | .refuse _ id _ _ => [id]
  | _ => []

theorem one_reply {f : Text} {r : Option String} (h : replyOf f = r) (id : String) : ([f].filterMap replyOf).count id = r.toList.count id := by
  rw [List.filterMap_cons, h]
  cases r <;> rfl

theorem replyIds_count {tr : List (Ev (ocppj F o₂ b))} (ht : ∀ id (r : Resp) err w, Ev.answer (S := ocppj F o₂ b) id (some r) err w ∈ tr → HasTy r.type.ty r.val)
    (hs : ∀ i f, Ev.writeCall (S := ocppj F o₂ b) i (some f) ∈ tr → replyOf f = none)
    (he : ∀ id resp err f, Ev.answer (S := ocppj F o₂ b) id resp err (some f) ∈ tr → encReply F id resp err = .ok f) (id : String) :
    ((textsOut tr).filterMap replyOf).count id ≤ ((answers tr).map (·.1)).count id + ((refusals tr).map Prod.fst).count id := by
  induction tr with
  | nil => exact Nat.zero_le _
  | cons e tr ih =>
    have ih' := ih (fun id r err w hm => ht id r err w (List.mem_cons_of_mem _ hm)) (fun i f hm => hs i f (List.mem_cons_of_mem _ hm))
      (fun id resp err f hm => he id resp err f (List.mem_cons_of_mem _ hm))
    clear ih
    have h1 : textsOut (e :: tr) = Option.toList (α := Text) e.wrote ++ textsOut tr := by
      unfold textsOut Conn.written
      rw [List.filterMap_cons]
      cases e.wrote <;> rfl
    have h2 : ((answers (e :: tr)).map (·.1)) = ansId e ++ (answers tr).map (·.1) := by
      cases e <;> rfl
    have h3 : (refusals (e :: tr)).map Prod.fst = refId e ++ (refusals tr).map Prod.fst := by
      cases e <;> rfl
    rw [h1, h2, h3, List.filterMap_append, List.count_append, List.count_append, List.count_append]
    have key : ((Option.toList (α := Text) e.wrote).filterMap replyOf).count id ≤
(ansId e).count id + (refId e).count id := by
      cases e
      case refuse k id' c ok =>
        cases ok
        · exact Nat.zero_le _
        · have : replyOf (encRefusal F id' c) = some id' := by simp [replyOf, C10_refusal]
          exact (one_reply this id).le.trans (Nat.le_add_left _ _)
      case answer id' resp err w =>
        cases w with
        | none => exact Nat.zero_le _
        | some f =>
          have hty : ∀ r, resp = some r → HasTy r.type.ty r.val := by rintro r rfl; exact ht id' r err (some f) (by simp)
          have hf := he id' resp err f (by simp)
          have hr : replyOf f = some id' ∨ replyOf f = none := by
            unfold replyOf
            rcases reply_read hty hf with ⟨e, -, h1⟩ | ⟨-, -, e, h1⟩ | ⟨-, r, p', -, h1⟩ <;> simp [h1]
          rcases hr with hr | hr
          · exact (one_reply hr id).le.trans (Nat.le_add_right _ _)
          · exact (one_reply hr id).le.trans (Nat.zero_le _)
      case writeCall i w =>
        cases w with
        | none => exact Nat.zero_le _
        | some f =>
          have h2 : replyOf (f : Text) = none := hs i f (by simp)
          exact (one_reply h2 id).le.trans (Nat.zero_le _)
      all_goals exact Nat.zero_le _
    omega

/-- No two answers written carry the same id. -/
theorem Linked.replyIds (h : Linked trA trB) : ((textsOut trB).filterMap replyOf).Nodup := by
  obtain ⟨sA, hA⟩ := h.left
  obtain ⟨sB, hB⟩ := h.right
  rw [List.nodup_iff_count_le_one]
  intro id
  have h1 := h.dueIds id
  have h2 := (answers_ids hB).count_le id
  obtain ⟨-, -, ⟨rp, -, h3⟩, h4⟩ := C24_one_reply_per_request hB
  refine (replyIds_count ?_ ?_ h4 id).trans (le_trans (by omega) h1)
  · intro id r err w hm
    have hmem : ((id, some r, err) : String × Option (ocppj F o₂ b).Resp × Option String) ∈ handlerRets trB := by
      rw [h3, List.mem_append]
      left
      simp only [answers, List.mem_filterMap]
      exact ⟨_, hm, rfl⟩
    exact handlerRet_typed h.properB.typed hmem r rfl
  · intro i f hm
    have hm' : (i, f) ∈ Conn.callsOut trB := by
      simp only [Conn.callsOut, List.mem_filterMap]
      exact ⟨_, hm, rfl⟩
    obtain ⟨x, hx, hf, -⟩ := (Exec.callsOut hB).2 i f hm'
    obtain ⟨p, hp⟩ := call_read (h.properB.typed.1 i x.id x.req (by simpa using (Exec.sends hB i x hx).1)) (Exec.frames hB i x f hx hf)
    simp [replyOf, hp]

end Verif.Ocppj
