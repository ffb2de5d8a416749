import Verif.Lemmas.Registry2
set_option linter.unusedSimpArgs false
namespace Verif.Registry

theorem connected_once {tr : List Ev} {s : St} (h : Exec tr s) (n : Nat) (id : String) :
    tr.count (.connected n id) ≤ 1 := by
  induction h with
  | nil => simp
  | @snoc tr e s' s'' hr hs ih =>
    rw [List.count_append]
    by_cases he : e = .connected n id
    · subst he
      cases hs with
      | @connected _ c hc hp hu =>
        have hh := (Exec.hist hr).up n c.cp
        have : Ev.connected n c.cp ∉ tr := fun hm => by
          obtain ⟨d, h1, _, h3⟩ := hh.1 hm
          rw [hc] at h1; cases h1; simp [hu] at h3
        rw [List.count_eq_zero_of_not_mem this]; simp
    · have : List.count (Ev.connected n id) [e] = 0 := by
        rw [List.count_eq_zero]; simp; exact fun h => he h.symm
      omega

theorem disconnected_once {tr : List Ev} {s : St} (h : Exec tr s) (n : Nat) (id : String) :
    tr.count (.disconnected n id) ≤ 1 := by
  induction h with
  | nil => simp
  | @snoc tr e s' s'' hr hs ih =>
    rw [List.count_append]
    by_cases he : e = .disconnected n id
    · subst he
      cases hs with
      | @disconnected _ c hc hp hu =>
        have hh := (Exec.hist hr).down n c.cp
        have : Ev.disconnected n c.cp ∉ tr := fun hm => by
          obtain ⟨d, h1, _, h3⟩ := hh.1 hm
          rw [hc] at h1; cases h1; simp [hu] at h3
        rw [List.count_eq_zero_of_not_mem this]; simp
    · have : List.count (Ev.disconnected n id) [e] = 0 := by
        rw [List.count_eq_zero]; simp; exact fun h => he h.symm
      omega

theorem quiet_phase {s : St} (hq : Quiet s) {n : Nat} {c : CState} (hc : s.table[n]? = some c) :
    c.upCalled = true ∧ (c.closed = true → c.phase = .cleaned) ∧
    (c.phase = .cleaned → c.downCalled = true) := by
  have hreg : c.phase ≠ .registered := fun h => hq _ _ (.notify hc h)
  refine ⟨?_, ?_, ?_⟩
  · cases hu : c.upCalled with
    | true => rfl
    | false => exact (hq _ _ (.connected hc hreg hu)).elim
  · intro hcl
    cases hp : c.phase with
    | registered => exact absurd hp hreg
    | serving => exact (hq _ _ (.leave hc hp hcl)).elim
    | leaving => exact (hq _ _ (.cleanup hc hp)).elim
    | cleaned => rfl
  · intro hp
    cases hd : c.downCalled with
    | true => rfl
    | false => exact (hq _ _ (.disconnected hc (.inr hp) hd)).elim

/-- What one step of another charge point leaves alone. -/
theorem isolate_step {s s' : St} {e : Ev} {id : String} (hi : Inv s) (hs : Step s e s')
    (hne : match e with
      | .handshake _ i => i ≠ id
      | .notify _ i => i ≠ id
      | .leave _ i => i ≠ id
      | .connected _ i => i ≠ id
      | .disconnected _ i => i ≠ id
      | .waitConnect i _ => i ≠ id
      | .drop n => ∀ c, s.table[n]? = some c → c.cp ≠ id
      | .cleanup n => ∀ c, s.table[n]? = some c → c.cp ≠ id) :
    s'.conns.get id = s.conns.get id ∧ s'.connected id = s.connected id ∧
    (∀ (n : Nat) (c : CState), c.cp = id → (s'.table[n]? = some c ↔ s.table[n]? = some c)) := by
  cases hs with
  | handshake i =>
    obtain ⟨ch, h1, h2, h3, h4, h5⟩ := register_eq hi i
    simp only at hne
    have hne' : ¬ id = i := fun h => hne h.symm
    refine ⟨by rw [h4, GoMap.get_put]; simp [hne'], by rw [h3]; simp [upd, hne'], ?_⟩
    intro n c hc
    rw [register_table, snoc_getElem?]
    constructor
    · rintro (h | ⟨-, rfl⟩)
      · exact h
      · exact absurd hc hne
    · exact .inl
  | notify hc hp =>
    refine ⟨rfl, rfl, ?_⟩
    simp only [List.getElem?_set] at *; grind
  | connected hc hp hu =>
    refine ⟨rfl, rfl, ?_⟩
    simp only [List.getElem?_set] at *; grind
  | disconnected hc hp hu =>
    refine ⟨rfl, rfl, ?_⟩
    simp only [List.getElem?_set] at *; grind
  | drop hc =>
    refine ⟨rfl, rfl, ?_⟩
    simp only [List.getElem?_set] at *; grind
  | leave hc hp hcl =>
    refine ⟨rfl, rfl, ?_⟩
    simp only [List.getElem?_set] at *; grind
  | @cleanup n c hc hp =>
    have hne' : ¬ id = c.cp := fun h => hne c hc h.symm
    refine ⟨?_, ?_, ?_⟩
    · unfold St.cleanup; simp only; split
      · simp [GoMap.get_del, hne']
      · rfl
    · unfold St.cleanup; simp only; split
      · simp [upd, hne']
      · rfl
    · rw [cleanup_table]
      simp only [List.getElem?_set] at *; grind
  | @waitConnect i c hc =>
    obtain ⟨e1, e2, e3, e4, e5⟩ := ensureChan_same s i
    refine ⟨by rw [e1], by rw [e3], by rw [e4]; simp⟩

theorem waitClosed_eq {s : St} (hi : Inv s) (id : String) : s.waitClosed id = s.connected id := by
  obtain ⟨ch, hch⟩ := ensureChan_some s id
  have hw := watch_wait hi (.waitConnect hch)
  unfold St.waitClosed
  simp only [hch, hw.1]
  cases s.connected id <;> rfl

end Verif.Registry
