import Verif.Lemmas.Conn
namespace Verif.Conn
variable {S : Sem} {side : Side}

/-! ### Leaked readers -/

/-- A reader that was relieved of a request is stuck: nobody will ever take its result. -/
def Stuck (s : St S) (k : Nat) : Prop :=
  (∃ e, s.readers[k]? = some (.offer e)) ∧ s.loop ≠ .sel k

theorem stuck_step {s s' : St S} {e : Ev S} {k : Nat} (h : Stuck s k) (hs : Step side s e s') :
    Stuck s' k := by
  obtain ⟨⟨x, h1⟩, h2⟩ := h
  unfold Stuck
  cases hs <;>
    simp only [St.setReader, St.setPhase, List.getElem?_set, List.getElem?_append] at * <;>
    grind

theorem Run.stuck {s s' : St S} {tr : List (Ev S)} {k : Nat} (h : Stuck s k)
    (hr : Run side s tr s') : Stuck s' k := by
  induction hr with
  | nil => exact h
  | snoc _ hs ih => exact stuck_step ih hs

/-- Readers whose request was taken. -/
def takers (tr : List (Ev S)) : List Nat :=
  tr.filterMap fun | .take k _ _ _ => some k | _ => none

theorem takers_length (tr : List (Ev S)) : (takers tr).length = (taken tr).length := by
  unfold takers taken
  induction tr with
  | nil => rfl
  | cons a l ih => cases a <;> simp_all

theorem Exec.takers_stuck {s : St S} {tr : List (Ev S)} (hr : Exec side tr s) :
    (takers tr).Nodup ∧ ∀ k ∈ takers tr, Stuck s k := by
  induction hr with
  | nil => simp [takers]
  | @snoc tr e s s' hr hs ih =>
    have hi := Exec.inv hr
    have h2 : ∀ k ∈ takers tr, Stuck s' k := fun k hk => stuck_step (ih.2 k hk) hs
    by_cases ht : ∃ k id r a, e = .take k id r a
    · obtain ⟨k, id, r, a, rfl⟩ := ht
      have hx : takers (tr ++ [Ev.take k id r a]) = takers tr ++ [k] := by simp [takers]
      cases hs with
      | take hc hl hk =>
        have hnot : k ∉ takers tr := by
          intro hm
          obtain ⟨⟨e, he⟩, _⟩ := ih.2 k hm
          rw [hk] at he; simp at he
        rw [hx]
        refine ⟨?_, ?_⟩
        · rw [List.nodup_append]
          refine ⟨ih.1, by simp, ?_⟩
          intro a ha b hb; simp at hb; subst hb; intro hab; exact hnot (hab ▸ ha)
        · intro j hj
          rw [List.mem_append] at hj
          rcases hj with hj | hj
          · exact h2 j hj
          · simp at hj; subst hj
            have hlt : j < s.readers.length := by
              have := List.getElem?_eq_some_iff.1 hk; obtain ⟨h, _⟩ := this; exact h
            exact ⟨⟨.nil, by simp [St.setReader, hlt]⟩, by simp⟩
    · have hx : takers (tr ++ [e]) = takers tr := by
        cases e <;> simp_all [takers]
      rw [hx]; exact ⟨ih.1, h2⟩

@[simp, grind =] theorem taken_nil : taken ([] : List (Ev S)) = [] := rfl

theorem taken_length_snoc (tr : List (Ev S)) (e : Ev S) : (taken (tr ++ [e])).length =
    (taken tr).length + match e with | .take _ _ _ _ => 1 | _ => 0 := by
  cases e <;> simp [taken]

theorem isOffer_of_active {p : Reader S} (h : p.active = true) : p.isOffer = false := by
  cases p <;> simp_all [Reader.active, Reader.isOffer]

/-- At most the current reader blocks on its result besides the stuck ones. -/
theorem Exec.offers {s : St S} {tr : List (Ev S)} (hr : Exec side tr s) :
    s.readers.countP Reader.isOffer ≤ (taken tr).length + 1 ∧
    ((∀ k, s.loop ≠ .sel k) → s.loop ≠ .exited →
      s.readers.countP Reader.isOffer = (taken tr).length) ∧
    (∀ (k : Nat) (p : Reader S), s.readers[k]? = some p → p.active = true →
      s.readers.countP Reader.isOffer = (taken tr).length) ∧
    (∀ (k : Nat) (p : Reader S), s.loop = .sel k → s.readers[k]? = some p →
      s.readers.countP Reader.isOffer = (taken tr).length + if p.isOffer then 1 else 0) := by
  induction hr with
  | nil => simp [init]
  | @snoc tr e s s' hr hs ih =>
    have hi := Exec.inv hr
    obtain ⟨i1, i2, i3, i4⟩ := ih
    have hact := hi.act
    have hcur := hi.cur
    rw [taken_length_snoc]
    cases hs <;>
    simp only [St.setReader, St.setPhase, List.getElem?_set, List.getElem?_append,
      List.countP_append] at * <;>
    grind [Reader.active, Reader.isOffer, countP_set_eq, isOffer_of_active]

end Verif.Conn
