import Verif.Lemmas.JRead3
/-! # Reading the two leniently decoded requests -/
set_option linter.unusedSimpArgs false
namespace Verif.Ocppj
open Json Codec Decode Encode Trip

theorem fieldOf_iff {fs : List FieldInfo} (hn : (fs.map fun f => foldName f.json).Nodup) {i : Nat} {f : FieldInfo} (hi : fs[i]? = some f)
    (k : Text) : fieldOf fs k = some i ↔ foldName k = foldName f.json := by
  obtain ⟨hil, hie⟩ := List.getElem?_eq_some_iff.1 hi
  have huniq : ∀ (i' : Nat) (h' : i' < fs.length), foldName (fs[i']).json = foldName f.json → i' = i := by
    intro i' h' e
    exact (List.Nodup.getElem_inj_iff hn (hi := by simpa using h') (hj := by simpa using hil)).1 (by simp [e, hie])
  unfold fieldOf
  cases ha : fs.findIdx? (fun f => f.json == k) with
  | some i' =>
    obtain ⟨h', hp, _⟩ := List.findIdx?_eq_some_iff_getElem.1 ha
    simp only [beq_iff_eq] at hp
    simp only [Option.some.injEq]
    constructor
    · rintro rfl; rw [← hp, hie]
    · intro e; exact huniq i' h' (by rw [hp, e])
  | none =>
    simp only []
    rw [List.findIdx?_eq_some_iff_getElem]
    constructor
    · rintro ⟨_, h, _⟩
      rw [hie] at h
      exact (by simpa using h : foldName f.json = foldName k).symm
    · intro hk
      refine ⟨hil, by simp [hie, hk], ?_⟩
      intro i' hlt
      simp only [beq_iff_eq]
      intro e
      have := huniq i' (by omega) (by rw [e, hk])
      omega

theorem fieldOf_lt {fs : List FieldInfo} {k : Text} {i : Nat} (h : fieldOf fs k = some i) : i < fs.length := by
  unfold fieldOf at h
  cases ha : fs.findIdx? (fun f => f.json == k) with
  | some i' =>
    rw [ha] at h; cases h
    exact (List.findIdx?_eq_some_iff_getElem.1 ha).1
  | none =>
    rw [ha] at h
    exact (List.findIdx?_eq_some_iff_getElem.1 h).1

theorem readLenient_length {fs : List FieldInfo} {rs : List Reader} {ms : List (Text × JVal)} {vs tv : List Val}
    (h : readLenient fs rs ms vs = some tv) : tv.length = vs.length := by
  induction ms generalizing vs with
  | nil => simp only [readLenient, Option.some.injEq] at h; rw [h]
  | cons m ms ih =>
    obtain ⟨k, j⟩ := m
    simp only [readLenient] at h
    split at h
    · exact ih h
    · split at h
      · split at h
        · rw [ih h]; simp
        · cases h
      · cases h

/-- Reading with at most one property for each field: each field is read from its property, and the others stay. -/
theorem readLenient_iff {fs : List FieldInfo} {rs : List Reader} (hrl : rs.length = fs.length) {ms : List (Text × JVal)}
    (hu : ms.Pairwise fun a b => ∀ i, fieldOf fs a.1 = some i → fieldOf fs b.1 ≠ some i) {vs : List Val} (hl : vs.length = fs.length) (tv : List Val) :
    readLenient fs rs ms vs = some tv ↔ tv.length = vs.length ∧ ∀ (i : Nat) r z x, rs[i]? = some r → vs[i]? = some z → tv[i]? = some x →
      (∀ m ∈ ms, fieldOf fs m.1 = some i → r m.2 z = some x) ∧ ((∀ m ∈ ms, fieldOf fs m.1 ≠ some i) → x = z) := by
  induction ms generalizing vs with
  | nil =>
    simp only [readLenient, Option.some.injEq, List.not_mem_nil, false_implies, implies_true, true_and, forall_const]
    constructor
    · rintro rfl
      exact ⟨rfl, fun i r z x _ h1 h2 => by rw [h1] at h2; exact (Option.some.inj h2).symm⟩
    · rintro ⟨h1, h2⟩
      refine List.ext_getElem h1.symm fun i hi hi' => ?_
      exact (h2 i _ _ _ (List.getElem?_eq_getElem (by omega)) (List.getElem?_eq_getElem hi) (List.getElem?_eq_getElem hi')).symm
  | cons m ms ih =>
    obtain ⟨k, j⟩ := m
    rw [List.pairwise_cons] at hu
    simp only [readLenient]
    cases hk : fieldOf fs k with
    | none =>
      simp only [ih hu.2 hl, List.mem_cons, forall_eq_or_imp, hk, reduceCtorEq, false_implies, true_and, ne_eq, not_false_eq_true]
    | some i =>
      have hil := fieldOf_lt hk
      obtain ⟨r, h1⟩ : ∃ r, rs[i]? = some r := ⟨_, List.getElem?_eq_getElem (by omega)⟩
      obtain ⟨z, h2⟩ : ∃ z, vs[i]? = some z := ⟨_, List.getElem?_eq_getElem (by omega)⟩
      have hiv := (List.getElem?_eq_some_iff.1 h2).1
      simp only [h1, h2]
      have hno : ∀ m ∈ ms, fieldOf fs m.1 ≠ some i := fun m hm => hu.1 m hm i hk
      constructor
      · intro h
        cases hr : r j z with
        | none => rw [hr] at h; cases h
        | some x0 =>
          rw [hr] at h
          obtain ⟨g1, g2⟩ := (ih hu.2 (by simpa using hl)).1 h
          refine ⟨by simpa using g1, ?_⟩
          intro i' r' z' x hr' hz' hx
          by_cases e : i = i'
          · subst e
            rw [h1] at hr'; cases hr'
            rw [h2] at hz'; cases hz'
            obtain ⟨-, a2⟩ := g2 i r x0 x h1 (List.getElem?_set_self hiv) hx
            have := a2 hno
            subst this
            refine ⟨?_, fun hn => absurd hk (hn (k, j) (by simp))⟩
            intro m hm hmi
            rcases List.mem_cons.1 hm with rfl | hm
            · exact hr
            · exact absurd hmi (hno m hm)
          · obtain ⟨a1, a2⟩ := g2 i' r' z' x hr' (by rw [List.getElem?_set_ne e]; exact hz') hx
            refine ⟨?_, fun hn => a2 fun m hm => hn m (List.mem_cons_of_mem _ hm)⟩
            intro m hm hmi
            rcases List.mem_cons.1 hm with rfl | hm
            · rw [hk] at hmi; exact absurd (Option.some.inj hmi) e
            · exact a1 m hm hmi
      · rintro ⟨g1, g2⟩
        obtain ⟨x0, hx0⟩ : ∃ x, tv[i]? = some x := ⟨_, List.getElem?_eq_getElem (by omega)⟩
        have hr := (g2 i r z x0 h1 h2 hx0).1 (k, j) (by simp) hk
        simp only [] at hr
        rw [hr]
        refine (ih hu.2 (by simpa using hl)).2 ⟨by simpa using g1, ?_⟩
        intro i' r' z' x hr' hz' hx
        by_cases e : i = i'
        · subst e
          rw [List.getElem?_set_self hiv] at hz'; cases hz'
          rw [hx0] at hx; cases hx
          exact ⟨fun m hm hmi => absurd hmi (hno m hm), fun _ => rfl⟩
        · rw [List.getElem?_set_ne e] at hz'
          obtain ⟨a1, a2⟩ := g2 i' r' z' x hr' hz' hx
          refine ⟨fun m hm => a1 m (List.mem_cons_of_mem _ hm), fun hn => a2 ?_⟩
          intro m hm
          rcases List.mem_cons.1 hm with rfl | hm
          · rw [hk]; exact fun he => e (Option.some.inj he)
          · exact hn m hm

/-- Types whose variable keeps its value when `null` is read, and whose other values do not depend on the variable. -/
def keeps : Ty → Bool
  | .ptr _ | .slice _ | .struct _ _ => false
  | _ => true

theorem read_keeps {t : Ty} (h : keeps t = true) (sch : Schema) (old : Val) : read t sch .null old = some old := by
  cases t <;> simp [keeps] at h <;> simp [read]

theorem read_fresh {t : Ty} (h : keeps t = true) (sch : Schema) {j : JVal} (hj : j ≠ .null) (old old' : Val) : read t sch j old = read t sch j old' := by
  cases t <;> simp [keeps] at h <;> cases j <;> simp [read] at hj ⊢

/-- A field for which only `null` is read keeps its value. -/
theorem readLenient_stays {fs : List FieldInfo} {rs : List Reader} {ms : List (Text × JVal)} {vs tv : List Val} {i : Nat} {t : Ty} {sch : Schema}
    (ht : keeps t = true) (hr : rs[i]? = some (read t sch)) (h : readLenient fs rs ms vs = some tv)
    (hn : ∀ m ∈ ms, fieldOf fs m.1 = some i → m.2 = .null) : tv[i]? = vs[i]? := by
  induction ms generalizing vs with
  | nil => simp only [readLenient, Option.some.injEq] at h; rw [h]
  | cons m ms ih =>
    obtain ⟨k, j⟩ := m
    have hn' := fun m hm => hn m (List.mem_cons_of_mem _ hm)
    simp only [readLenient] at h
    split at h
    · exact ih h hn'
    · rename_i i' hk
      split at h
      · rename_i r v h1 h2
        split at h
        · rename_i v' h3
          rw [ih h hn']
          by_cases e : i' = i
          · subst e
            have hj := hn (k, j) (by simp) hk
            simp only [] at hj
            subst hj
            rw [hr] at h1; cases h1
            rw [read_keeps ht] at h3; cases h3
            rw [List.getElem?_set_self (List.getElem?_eq_some_iff.1 h2).1, h2]
          · rw [List.getElem?_set_ne e]
        · cases h
      · cases h

/-- A field gets the last value that is not `null`. -/
theorem readLenient_last {fs : List FieldInfo} {rs : List Reader} {pre post : List (Text × JVal)} {k : Text} {j : JVal} {vs tv : List Val} {i : Nat}
    {t : Ty} {sch : Schema} (ht : keeps t = true) (hr : rs[i]? = some (read t sch)) (h : readLenient fs rs (pre ++ (k, j) :: post) vs = some tv)
    (hk : fieldOf fs k = some i) (hj : j ≠ .null) (hn : ∀ m ∈ post, fieldOf fs m.1 = some i → m.2 = .null) :
    ∃ x, tv[i]? = some x ∧ ∀ old, read t sch j old = some x := by
  rw [readLenient_append, Option.bind_eq_some_iff] at h
  obtain ⟨ws, h1, h2⟩ := h
  simp only [readLenient, hk, hr] at h2
  split at h2
  · rename_i r v e1 e2
    cases e1
    split at h2
    · rename_i v' h3
      refine ⟨v', ?_, fun old => by rw [← h3]; exact read_fresh ht sch hj _ _⟩
      rw [readLenient_stays ht hr h2 hn, List.getElem?_set_self (List.getElem?_eq_some_iff.1 e2).1]
    · cases h2
  · cases h2

/-- Each property of a field's name is read. -/
theorem readLenient_each {fs : List FieldInfo} {rs : List Reader} {ms : List (Text × JVal)} {vs tv : List Val} {i : Nat} {r : Reader}
    (hr : rs[i]? = some r) (h : readLenient fs rs ms vs = some tv) {m : Text × JVal} (hm : m ∈ ms) (hk : fieldOf fs m.1 = some i) :
    ∃ old x, r m.2 old = some x := by
  obtain ⟨pre, post, rfl⟩ := List.append_of_mem hm
  rw [readLenient_append, Option.bind_eq_some_iff] at h
  obtain ⟨ws, h1, h2⟩ := h
  obtain ⟨k, j⟩ := m
  simp only [] at hk
  simp only [readLenient, hk, hr] at h2
  split at h2
  · rename_i r' v e1 e2
    cases e1
    split at h2
    · rename_i v' h3; exact ⟨v, v', h3⟩
    · cases h2
  · cases h2

end Verif.Ocppj
