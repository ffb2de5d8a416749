import Verif.Spec.Decode
import Verif.Lemmas.Encode
import Verif.Lemmas.Num
set_option linter.unusedSimpArgs false
/-!
# The decoders read what the specification says, in every iteration order
-/
namespace Verif
namespace Decode
open Json Codec Encode

/-- A decoder's result against the specified one: same value, and an error (not a panic) where there
is none. -/
def Agree {α : Type} : GoRes α → Option α → Prop
  | .ok a, some b => a = b
  | .err _, none => True
  | _, _ => False

theorem Agree.ok_iff {α : Type} {x : GoRes α} {y : Option α} (h : Agree x y) (a : α) : x = .ok a ↔ y = some a := by
  cases x <;> cases y <;> simp_all [Agree]

theorem Agree.bind {α β : Type} {x : GoRes α} {y : Option α} (h : Agree x y) {f : α → GoRes β} {g : α → Option β}
    (hf : ∀ a, y = some a → Agree (f a) (g a)) : Agree (x.bind f) (y.bind g) := by
  cases x <;> cases y <;> simp_all [Agree]

theorem Agree.map {α β : Type} {x : GoRes α} {y : Option α} (h : Agree x y) (f : α → β) :
    Agree (x.bind fun a => .ok (f a)) (y.map f) := by
  cases x <;> cases y <;> simp_all [Agree]

theorem agree_of {α : Type} {x : GoRes α} {y : Option α} (h1 : ∀ a, x = .ok a ↔ y = some a) (h2 : x.isPanic = false) :
    Agree x y := by
  cases x with
  | ok a => simp [(h1 a).1 rfl, Agree]
  | err m =>
    cases y with
    | none => exact True.intro
    | some b => simpa using (h1 b).2 rfl
  | panic m => simp at h2

/-! ### Maps -/

theorem lastWins_mem (ms : List (Text × JVal)) (k : Text) (j : JVal) :
    (k, j) ∈ lastWins ms ↔ lastVal ms k = some j := by
  have key : ∀ (ms : List (Text × JVal)) k, lastVal ms k = none ↔ k ∉ ms.map Prod.fst := by
    intro ms k
    induction ms with
    | nil => simp [lastVal]
    | cons m ms ih =>
      obtain ⟨k', j'⟩ := m
      simp only [lastVal, List.map_cons, List.mem_cons, not_or]
      cases h : lastVal ms k with
      | some j => simp [h] at ih; simp [ih]
      | none => 
        have := ih.1 h
        simp only [this, not_false_eq_true, and_true]
        by_cases hk : k' = k <;> simp [hk, eq_comm]
        exact fun h => hk h.symm
  induction ms with
  | nil => simp [lastWins, lastVal]
  | cons m ms ih =>
    obtain ⟨k', j'⟩ := m
    simp only [lastWins, lastVal]
    by_cases hk' : k' ∈ ms.map Prod.fst
    · have hc : (ms.map Prod.fst).contains k' = true := by simpa using hk'
      rw [if_pos hc]
      refine ih.trans ?_
      cases h : lastVal ms k with
      | some _ => simp
      | none =>
        have : k' ≠ k := by rintro rfl; exact (key _ _).1 h hk'
        simp [this]
    · have hc : ¬ (ms.map Prod.fst).contains k' = true := by simpa using hk'
      rw [if_neg hc]
      simp only [List.mem_cons, Prod.mk.injEq, ih]
      by_cases hkk : k' = k
      · subst hkk
        have := (key ms k').2 hk'
        simp [this, eq_comm]
      · have : ¬ k = k' := fun h => hkk h.symm
        cases h : lastVal ms k <;> simp [hkk, this]

theorem lastWins_keys (ms : List (Text × JVal)) (k : Text) :
    k ∈ (lastWins ms).map Prod.fst ↔ k ∈ ms.map Prod.fst := by
  induction ms with
  | nil => simp [lastWins]
  | cons m ms ih =>
    obtain ⟨k', j'⟩ := m
    simp only [lastWins]
    split
    · rename_i hc
      have hc : k' ∈ ms.map Prod.fst := by simpa using hc
      rw [ih, List.map_cons, List.mem_cons]
      exact ⟨Or.inr, fun h => h.elim (fun h => h ▸ hc) id⟩
    · rw [List.map_cons, List.map_cons, List.mem_cons, List.mem_cons, ih]

theorem lastWins_nodup (ms : List (Text × JVal)) : ((lastWins ms).map Prod.fst).Nodup := by
  induction ms with
  | nil => simp [lastWins]
  | cons m ms ih =>
    obtain ⟨k', j'⟩ := m
    simp only [lastWins]
    split
    · exact ih
    · rename_i hc
      have hc : k' ∉ ms.map Prod.fst := by simpa using hc
      rw [List.map_cons, List.nodup_cons, lastWins_keys]
      exact ⟨hc, ih⟩

/-! ### The switch loop -/

/-- Every entry is either skipped or read into its field; the other fields keep their values. -/
def Loop (cs : List (Text × Nat)) (strict : Bool) (rs : List Reader) (ents : List (Text × JVal)) (vs vs' : List Val) : Prop :=
  vs'.length = vs.length ∧
  (∀ e ∈ ents, ∀ i, cs.lookup e.1 = some i →
    ∃ r v v', rs[i]? = some r ∧ vs[i]? = some v ∧ vs'[i]? = some v' ∧ r e.2 v = some v') ∧
  (∀ e ∈ ents, cs.lookup e.1 = none → strict = false) ∧
  (∀ i, (∀ e ∈ ents, cs.lookup e.1 ≠ some i) → vs'[i]? = vs[i]?)

/-- What is known about the decoders of the fields. -/
def DecsOk (cs : List (Text × Nat)) (ts : List Ty) (decs : List FieldDec) (rs : List Reader) : Prop :=
  ∀ k i, cs.lookup k = some i → ∃ t d r, ts[i]? = some t ∧ decs[i]? = some d ∧ rs[i]? = some r ∧
    ∀ p j old, HasTy t old → Agree (d p j old) (r j old) ∧ ∀ v, r j old = some v → HasTy t v

theorem hasTys_length {ts : List Ty} {vs : List Val} (h : HasTys ts vs) : vs.length = ts.length := by
  induction ts generalizing vs with
  | nil => cases vs <;> simp_all [HasTys]
  | cons t ts ih => cases vs <;> simp_all [HasTys]

theorem hasTys_set {ts : List Ty} {vs : List Val} (h : HasTys ts vs) {i : Nat} {t : Ty} {v : Val} (ht : ts[i]? = some t)
    (hv : HasTy t v) : HasTys ts (vs.set i v) := by
  induction ts generalizing vs i with
  | nil => simp at ht
  | cons t' ts ih =>
    cases vs with
    | nil => simp [HasTys] at h
    | cons v' vs =>
      simp only [HasTys] at h
      cases i with
      | zero => simp at ht; subst ht; simp [HasTys, hv, h.2]
      | succ i => simp [HasTys, h.1]; exact ih h.2 (by simpa using ht)

theorem goCases_ok {cs : List (Text × Nat)} {ts : List Ty} {decs : List FieldDec} {rs : List Reader}
    (hd : DecsOk cs ts decs rs) (hinj : ∀ k k' i, cs.lookup k = some i → cs.lookup k' = some i → k = k')
    (strict : Bool) (p : List Nat) (ents : List (Text × JVal)) (hn : (ents.map Prod.fst).Nodup)
    (n : Nat) (vs : List Val) (hv : HasTys ts vs) :
    (goCases cs strict decs p n ents vs).isPanic = false ∧
    (∀ vs', goCases cs strict decs p n ents vs = .ok vs' → HasTys ts vs') ∧
    ∀ vs', goCases cs strict decs p n ents vs = .ok vs' ↔ Loop cs strict rs ents vs vs' := by
  induction ents generalizing n vs with
  | nil =>
    simp only [goCases]
    refine ⟨rfl, fun vs' h => by cases h; exact hv, fun vs' => ?_⟩
    simp only [GoRes.ok.injEq, Loop, List.not_mem_nil, false_imp_iff, implies_true, true_and, forall_const]
    constructor
    · rintro rfl; simp
    · rintro ⟨_, h⟩; exact (List.ext_getElem? h).symm
  | cons e ents ih =>
    obtain ⟨k, j⟩ := e
    simp only [List.map_cons, List.nodup_cons] at hn
    simp only [goCases]
    cases hk : cs.lookup k with
    | none =>
      simp only []
      cases strict with
      | true =>
        refine ⟨by simp, by simp, fun vs' => ?_⟩
        simp only [if_true, reduceCtorEq, false_iff]
        rintro ⟨_, _, h, _⟩
        simpa using h (k, j) (by simp) hk
      | false =>
        obtain ⟨h1, h2, h3⟩ := ih hn.2 (n + 1) vs hv
        refine ⟨h1, h2, fun vs' => ?_⟩
        simp only [Bool.false_eq_true, if_false]
        rw [h3]
        simp only [Loop, List.forall_mem_cons, hk, reduceCtorEq, false_imp_iff, implies_true, true_and, ne_eq, not_false_eq_true]
    | some i =>
      simp only []
      obtain ⟨t, d, r, ht, hdi, hri, hag⟩ := hd k i hk
      obtain ⟨v, hvi, hvt⟩ := hasTys_get hv ht
      rw [getD_some hdi, getD_some hvi]
      obtain ⟨hag1, hag2⟩ := hag (n :: p) j v hvt
      cases hr : r j v with
      | none =>
        rw [hr] at hag1
        cases hdv : d (n :: p) j v with
        | err m =>
          refine ⟨rfl, by simp, fun vs' => ?_⟩
          simp only [GoRes.bind, reduceCtorEq, false_iff]
          rintro ⟨_, h, _⟩
          obtain ⟨r', v1, v', h1, h2, h3, h4⟩ := h (k, j) (by simp) i hk
          rw [hri] at h1; cases h1
          rw [hvi] at h2; cases h2
          rw [hr] at h4; cases h4
        | ok a => rw [hdv] at hag1; exact hag1.elim
        | panic a => rw [hdv] at hag1; exact hag1.elim
      | some v' =>
        have hdv := (hag1.ok_iff v').2 hr
        rw [hdv]
        simp only [GoRes.bind]
        have hi : i < vs.length := by
          rcases Nat.lt_or_ge i vs.length with h | h
          · exact h
          · simp [List.getElem?_eq_none h] at hvi
        obtain ⟨h1, h2, h3⟩ := ih hn.2 (n + 1) (vs.set i v') (hasTys_set hv ht (hag2 v' hr))
        refine ⟨h1, h2, fun vs' => ?_⟩
        rw [h3]
        -- the other entries do not touch field `i`
        have hne : ∀ e ∈ ents, cs.lookup e.1 ≠ some i := by
          intro e he hc
          have := hinj _ _ _ hk hc
          exact hn.1 (this ▸ List.mem_map_of_mem he)
        simp only [Loop, List.forall_mem_cons, List.length_set, hk, reduceCtorEq, false_imp_iff, true_and, Option.some.injEq, ne_eq]
        constructor
        · rintro ⟨g1, g2, g3, g4⟩
          refine ⟨g1, ⟨?_, ?_⟩, g3, ?_⟩
          · rintro _ rfl
            refine ⟨r, v, v', hri, hvi, ?_, hr⟩
            rw [g4 i hne]; simp [hi]
          · intro e he i' hi'
            obtain ⟨r', v1, v2, q1, q2, q3, q4⟩ := g2 e he i' hi'
            have : i ≠ i' := by rintro rfl; exact hne e he hi'
            rw [List.getElem?_set_ne this] at q2
            exact ⟨r', v1, v2, q1, q2, q3, q4⟩
          · rintro i' ⟨hi', hr'⟩
            rw [g4 i' hr', List.getElem?_set_ne hi']
        · rintro ⟨g1, ⟨g2, g3⟩, g4, g5⟩
          refine ⟨g1, ?_, g4, ?_⟩
          · intro e he i' hi'
            obtain ⟨r', v1, v2, q1, q2, q3, q4⟩ := g3 e he i' hi'
            have : i ≠ i' := by rintro rfl; exact hne e he hi'
            rw [← List.getElem?_set_ne this (a := v')] at q2
            exact ⟨r', v1, v2, q1, q2, q3, q4⟩
          · intro i' hi'
            by_cases hc : i = i'
            · subst hc
              obtain ⟨r', v1, v2, q1, q2, q3, q4⟩ := g2 i rfl
              rw [hri] at q1; cases q1
              rw [hvi] at q2; cases q2
              rw [hr] at q4; cases q4
              rw [q3]; simp [hi]
            · rw [g5 i' ⟨hc, hi'⟩, List.getElem?_set_ne hc]

/-! ### The specified fields -/

/-- What becomes of a field. -/
def Picked (x : Option JVal) (r : Reader) (v v' : Val) : Prop :=
  match x with
  | some j => r j v = some v'
  | none => v' = v

theorem readFields_iff {props : List (Text × Schema)} {ms : List (Text × JVal)} {fs : List FieldInfo} {rs : List Reader}
    {vs : List Val} (h1 : rs.length = fs.length) (h2 : vs.length = fs.length) (vs' : List Val) :
    readFields props ms fs rs vs = some vs' ↔ vs'.length = vs.length ∧
      ∀ (i : Nat) f r v, fs[i]? = some f → rs[i]? = some r → vs[i]? = some v → ∃ v', vs'[i]? = some v' ∧
        Picked (if (props.map Prod.fst).contains f.json then lastVal ms f.json else none) r v v' := by
  induction fs generalizing rs vs vs' with
  | nil =>
    simp only [List.length_nil, List.length_eq_zero_iff] at h1 h2
    subst h1 h2
    simp [readFields, eq_comm]
  | cons f fs ih =>
    cases rs with
    | nil => simp at h1
    | cons r rs =>
      cases vs with
      | nil => simp at h2
      | cons v vs =>
        simp only [List.length_cons, Nat.add_right_cancel_iff] at h1 h2
        have ih := fun vs' => ih h1 h2 (vs' := vs')
        simp only [readFields]
        generalize hx : (if (props.map Prod.fst).contains f.json = true then lastVal ms f.json else none) = x
        have split0 : ∀ vs' : List Val, (vs'.length = (v :: vs).length ∧
            ∀ (i : Nat) f' r' v', (f :: fs)[i]? = some f' → (r :: rs)[i]? = some r' → (v :: vs)[i]? = some v' →
              ∃ w, vs'[i]? = some w ∧ Picked (if (props.map Prod.fst).contains f'.json then lastVal ms f'.json else none) r' v' w) ↔
            ∃ w ws, vs' = w :: ws ∧ Picked x r v w ∧
              readFields props ms fs rs vs = some ws := by
          intro vs'
          constructor
          · rintro ⟨hl, h⟩
            cases vs' with
            | nil => simp at hl
            | cons w ws =>
              refine ⟨w, ws, rfl, ?_, (ih ws).2 ⟨by simpa using hl, ?_⟩⟩
              · obtain ⟨w', hw, h⟩ := h 0 f r v rfl rfl rfl
                simp at hw; subst hw
                rw [hx] at h; exact h
              · intro i f' r' v' hf hr hv
                simpa using h (i + 1) f' r' v' (by simpa using hf) (by simpa using hr) (by simpa using hv)
          · rintro ⟨w, ws, rfl, h, hr⟩
            have := (ih ws).1 hr
            refine ⟨by simp [this.1], ?_⟩
            intro i f' r' v' hf hr hv
            cases i with
            | zero =>
              simp at hf hr hv
              subst hf hr hv
              refine ⟨w, rfl, ?_⟩
              rw [hx]; exact h
            | succ i => simpa using this.2 i f' r' v' (by simpa using hf) (by simpa using hr) (by simpa using hv)
        rw [split0]
        cases x with
        | none =>
          simp only [Option.map_eq_some_iff]
          constructor
          · rintro ⟨ws, h1, rfl⟩; exact ⟨v, ws, rfl, rfl, h1⟩
          · rintro ⟨w, ws, rfl, rfl, h⟩; exact ⟨ws, h, rfl⟩
        | some j =>
          simp only []
          constructor
          · intro h
            split at h
            · rename_i v' ws h1 h2
              exact ⟨v', ws, by simpa using h.symm, h1, h2⟩
            · cases h
          · rintro ⟨w, ws, rfl, h1, h2⟩
            rw [h1, h2]

end Decode
end Verif
