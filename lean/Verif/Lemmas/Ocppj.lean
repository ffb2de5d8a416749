import Verif.Spec.Frame
import Verif.Lemmas.Trip
set_option linter.unusedSimpArgs false
set_option linter.unnecessarySeqFocus false
/-!
# Untyped values and frames
-/
namespace Verif.Ocppj
open Json Codec Decode

/-! ### Key order -/

theorem char_toNat_inj {a b : Char} (h : a.toNat = b.toNat) : a = b := Char.ext (UInt32.toNat_inj.1 h)

theorem keyLt_irrefl (a : Text) : keyLt a a = false := by
  induction a with
  | nil => rfl
  | cons c a ih => simp [keyLt, ih]

theorem keyLt_trans {a b c : Text} (h : keyLt a b = true) (h' : keyLt b c = true) : keyLt a c = true := by
  induction a generalizing b c with
  | nil =>
    cases c with
    | nil => cases b <;> simp [keyLt] at h'
    | cons => rfl
  | cons x a ih =>
    cases b with
    | nil => simp [keyLt] at h
    | cons y b =>
      cases c with
      | nil => simp [keyLt] at h'
      | cons z c =>
        simp only [keyLt] at h h' ⊢
        by_cases h1 : x = y
        · subst h1
          rw [if_pos rfl] at h
          by_cases h2 : x = z
          · subst h2; rw [if_pos rfl] at h' ⊢; exact ih h h'
          · rw [if_neg h2] at h' ⊢; exact h'
        · rw [if_neg h1] at h
          by_cases h2 : y = z
          · subst h2; rw [if_neg h1]; exact h
          · rw [if_neg h2] at h'
            simp only [decide_eq_true_eq] at h h'
            have : x ≠ z := by rintro rfl; omega
            rw [if_neg this]; simp only [decide_eq_true_eq]; omega

theorem keyLt_total {a b : Text} (h : a ≠ b) (h' : keyLt a b = false) : keyLt b a = true := by
  induction a generalizing b with
  | nil => cases b with
    | nil => simp at h
    | cons => simp [keyLt] at h'
  | cons x a ih =>
    cases b with
    | nil => rfl
    | cons y b =>
      simp only [keyLt] at h' ⊢
      by_cases h1 : x = y
      · subst h1
        rw [if_pos rfl] at h' ⊢
        exact ih (fun e => h (by rw [e])) h'
      · rw [if_neg h1] at h'
        have : y ≠ x := fun e => h1 e.symm
        rw [if_neg this]
        simp only [decide_eq_false_iff_not, decide_eq_true_eq] at h' ⊢
        have : x.toNat ≠ y.toNat := fun e => h1 (char_toNat_inj e)
        omega

/-- Strictly ascending keys. -/
def Asc {α : Type} (m : List (Text × α)) : Prop := (m.map Prod.fst).Pairwise (fun a b => keyLt a b = true)

theorem Asc.nil {α : Type} : Asc ([] : List (Text × α)) := by simp [Asc]

theorem asc_cons {α : Type} {k : Text} {v : α} {m : List (Text × α)} :
    Asc ((k, v) :: m) ↔ (∀ x ∈ m, keyLt k x.1 = true) ∧ Asc m := by
  simp [Asc, List.pairwise_cons]

theorem mapPut_mem {α : Type} {k : Text} {v : α} {m : List (Text × α)} {x : Text × α} (h : x ∈ mapPut k v m) :
    x = (k, v) ∨ x ∈ m := by
  induction m with
  | nil => simpa [mapPut] using h
  | cons y m ih =>
    obtain ⟨k', v'⟩ := y
    simp only [mapPut] at h
    split at h
    · rcases List.mem_cons.1 h with h | h
      · exact Or.inl h
      · exact Or.inr (List.mem_cons_of_mem _ h)
    · split at h
      · rcases List.mem_cons.1 h with h | h
        · exact Or.inl h
        · exact Or.inr h
      · rcases List.mem_cons.1 h with h | h
        · exact Or.inr (by rw [h]; simp)
        · rcases ih h with h | h
          · exact Or.inl h
          · exact Or.inr (List.mem_cons_of_mem _ h)

theorem asc_mapPut {α : Type} (k : Text) (v : α) {m : List (Text × α)} (h : Asc m) : Asc (mapPut k v m) := by
  induction m with
  | nil => simp [mapPut, Asc]
  | cons y m ih =>
    obtain ⟨k', v'⟩ := y
    rw [asc_cons] at h
    simp only [mapPut]
    split
    · rename_i e; subst e; rw [asc_cons]; exact h
    · rename_i hne
      split
      · rename_i hlt
        rw [asc_cons, asc_cons]
        refine ⟨?_, h⟩
        intro x hx
        rcases List.mem_cons.1 hx with rfl | hx
        · exact hlt
        · exact keyLt_trans hlt (h.1 x hx)
      · rename_i hlt
        rw [asc_cons]
        refine ⟨fun x hx => ?_, ih h.2⟩
        rcases mapPut_mem hx with rfl | hx
        · exact keyLt_total hne (by simpa using hlt)
        · exact h.1 x hx

theorem lookup_cons {α : Type} (k k' : Text) (v : α) (m : List (Text × α)) :
    List.lookup k' ((k, v) :: m) = if k' = k then some v else m.lookup k' := by
  rw [List.lookup_cons]
  by_cases h : k' = k
  · simp [h]
  · have : (k' == k) = false := by simpa using h
    simp [this, h]

theorem lookup_mapPut {α : Type} (k k' : Text) (v : α) (m : List (Text × α)) :
    (mapPut k v m).lookup k' = if k' = k then some v else m.lookup k' := by
  induction m with
  | nil => simp [mapPut, lookup_cons]
  | cons y m ih =>
    obtain ⟨k₁, v₁⟩ := y
    simp only [mapPut]
    split
    · rename_i e; subst e; simp only [lookup_cons]; split <;> rfl
    · rename_i hne
      split
      · simp only [lookup_cons]
      · simp only [lookup_cons, ih]
        by_cases h1 : k' = k₁
        · subst h1
          rw [if_pos rfl, if_neg (fun e => hne e.symm)]
          simp
        · rw [if_neg h1, if_neg h1]

theorem asc_ext {α : Type} {m m' : List (Text × α)} (h : Asc m) (h' : Asc m')
    (he : ∀ k, m.lookup k = m'.lookup k) : m = m' := by
  induction m generalizing m' with
  | nil =>
    cases m' with
    | nil => rfl
    | cons x m' => obtain ⟨k, v⟩ := x; have := he k; simp [lookup_cons] at this
  | cons x m ih =>
    obtain ⟨k, v⟩ := x
    cases m' with
    | nil => have := he k; simp [lookup_cons] at this
    | cons x' m' =>
      obtain ⟨k', v'⟩ := x'
      rw [asc_cons] at h h'
      have notin : ∀ {n : List (Text × α)} {c : Text}, (∀ x ∈ n, keyLt c x.1 = true) → n.lookup c = none := by
        intro n c hc
        rw [lookup_none]
        intro hm
        obtain ⟨x, hx, rfl⟩ := List.mem_map.1 hm
        have := hc x hx
        rw [keyLt_irrefl] at this; cases this
      have hk : k = k' := by
        by_contra hne
        have h1 := he k
        have h2 := he k'
        rw [lookup_cons, lookup_cons, if_pos rfl, if_neg hne] at h1
        rw [lookup_cons, lookup_cons, if_pos rfl, if_neg (fun e => hne e.symm)] at h2
        have a := lookup_mem h1.symm
        have b := lookup_mem h2
        have c := keyLt_trans (h'.1 _ a) (h.1 _ b)
        rw [keyLt_irrefl] at c; cases c
      subst hk
      have hv : v = v' := by have := he k; simpa [lookup_cons] using this
      subst hv
      rw [ih h.2 h'.2]
      intro c
      by_cases hc : c = k
      · subst hc; rw [notin h.1, notin h'.1]
      · have := he c
        rwa [lookup_cons, lookup_cons, if_neg hc, if_neg hc] at this

/-! ### Untyped values -/

theorem toEntries_none {ms : List (Text × JVal)} (m m' : Payload) (h : toEntries ms m = none) : toEntries ms m' = none := by
  induction ms generalizing m m' with
  | nil => simp [toEntries] at h
  | cons x ms ih =>
    obtain ⟨k, v⟩ := x
    simp only [toEntries] at h ⊢
    split at h
    · exact ih _ _ h
    · rfl

mutual
theorem toAny_inRange (j : JVal) : (toAny j).isSome = true ↔ InRange j := by
  match j with
  | .null => simp [toAny, InRange]
  | .bool b => simp [toAny, InRange]
  | .num l =>
    simp only [toAny, InRange, IsNum, Option.isSome_map]
    rw [Option.isSome_iff_exists]
  | .str s => simp [toAny, InRange]
  | .arr vs => simp only [toAny, InRange, Option.isSome_map]; exact toAnys_inRange vs
  | .obj ms => simp only [toAny, InRange, Option.isSome_map]; exact toEntries_inRange ms []
  termination_by structural j
theorem toAnys_inRange (vs : List JVal) : (toAnys vs).isSome = true ↔ InRanges vs := by
  match vs with
  | [] => simp [toAnys, InRanges]
  | v :: vs =>
    simp only [toAnys, InRanges, ← toAny_inRange v, ← toAnys_inRange vs]
    cases toAny v <;> cases toAnys vs <;> simp
  termination_by structural vs
theorem toEntries_inRange (ms : List (Text × JVal)) (m : Payload) : (toEntries ms m).isSome = true ↔ InRangeMembers ms := by
  match ms with
  | [] => simp [toEntries, InRangeMembers]
  | (k, v) :: ms =>
    simp only [toEntries, InRangeMembers, ← toAny_inRange v]
    cases hv : toAny v with
    | none => simp
    | some a => simp only [Option.isSome_some, true_and]; exact toEntries_inRange ms _
  termination_by structural ms
end

theorem lastVal_cons (k k' : Text) (v : JVal) (ms : List (Text × JVal)) :
    lastVal ((k, v) :: ms) k' = match lastVal ms k' with | some j => some j | none => if k = k' then some v else none := rfl

mutual
theorem toAny_holds (j : JVal) (a : GoAny) (h : toAny j = some a) : Holds j a := by
  match j with
  | .null => simp [toAny] at h; subst h; exact .null
  | .bool b => simp [toAny] at h; subst h; exact .bool
  | .num l =>
    simp only [toAny, Option.map_eq_some_iff] at h
    obtain ⟨q, hq, rfl⟩ := h
    exact .num hq
  | .str s => simp [toAny] at h; subst h; exact .str
  | .arr vs =>
    simp only [toAny, Option.map_eq_some_iff] at h
    obtain ⟨as, hq, rfl⟩ := h
    obtain ⟨h1, h2⟩ := toAnys_holds vs as hq
    exact .arr h1 h2
  | .obj ms =>
    simp only [toAny, Option.map_eq_some_iff] at h
    obtain ⟨p, hq, rfl⟩ := h
    have hr : InRangeMembers ms := (toEntries_inRange ms []).1 (by rw [hq]; rfl)
    obtain ⟨h1, h2⟩ := toEntries_holds ms [] p hq
    refine .obj (h1 Asc.nil) ?_ ?_ hr
    · intro k b j hb hj
      have := h2 k
      rw [hj] at this
      obtain ⟨b', hb', hh⟩ := this
      rw [hb] at hb'; cases hb'; exact hh
    · intro k
      have := h2 k
      cases hl : lastVal ms k with
      | none => rw [hl] at this; rw [this]; rfl
      | some j => rw [hl] at this; obtain ⟨b', hb', _⟩ := this; rw [hb']; rfl
  termination_by structural j
theorem toAnys_holds (vs : List JVal) (as : List GoAny) (h : toAnys vs = some as) :
    vs.length = as.length ∧ ∀ (i : Nat) v a, vs[i]? = some v → as[i]? = some a → Holds v a := by
  match vs with
  | [] => simp [toAnys] at h; subst h; simp
  | v :: vs =>
    simp only [toAnys] at h
    cases hv : toAny v with
    | none => rw [hv] at h; simp at h
    | some a =>
      cases hvs : toAnys vs with
      | none => rw [hv, hvs] at h; simp at h
      | some as' =>
        rw [hv, hvs] at h
        simp only [Option.some.injEq] at h
        subst h
        obtain ⟨h1, h2⟩ := toAnys_holds vs as' hvs
        refine ⟨by simp [h1], ?_⟩
        intro i w b hw hb
        cases i with
        | zero => simp at hw hb; subst hw; subst hb; exact toAny_holds v a hv
        | succ i => simp at hw hb; exact h2 i w b hw hb
  termination_by structural vs
theorem toEntries_holds (ms : List (Text × JVal)) (m p : Payload) (h : toEntries ms m = some p) :
    (Asc m → Asc p) ∧ ∀ k, match lastVal ms k with
      | some j => ∃ b, p.lookup k = some b ∧ Holds j b
      | none => p.lookup k = m.lookup k := by
  match ms with
  | [] => simp [toEntries] at h; subst h; simp [lastVal]
  | (k, v) :: ms =>
    simp only [toEntries] at h
    cases hv : toAny v with
    | none => rw [hv] at h; simp at h
    | some a =>
      rw [hv] at h
      obtain ⟨h1, h2⟩ := toEntries_holds ms _ p h
      refine ⟨fun hm => h1 (asc_mapPut _ _ hm), fun k' => ?_⟩
      have := h2 k'
      rw [lastVal_cons]
      cases hl : lastVal ms k' with
      | some j => rw [hl] at this; exact this
      | none =>
        rw [hl] at this
        simp only [] at this ⊢
        rw [lookup_mapPut] at this
        by_cases hk : k = k'
        · subst hk
          rw [if_pos rfl] at this ⊢
          exact ⟨a, this, toAny_holds v a hv⟩
        · rw [if_neg (fun e => hk e.symm)] at this
          rw [if_neg hk]
          exact this
  termination_by structural ms
end

theorem holds_unique {j : JVal} {a : GoAny} (h : Holds j a) : ∀ b, Holds j b → a = b := by
  induction h with
  | null => intro b hb; cases hb; rfl
  | bool => intro b hb; cases hb; rfl
  | str => intro b hb; cases hb; rfl
  | num hq =>
    intro b hb
    cases hb with
    | num hq' => unfold IsNum at hq hq'; rw [hq] at hq'; cases hq'; rfl
  | @arr vs as hl _ ih =>
    intro b hb
    cases hb with
    | @arr _ as' hl' h' =>
      congr 1
      apply List.ext_getElem?
      intro i
      by_cases hi : i < vs.length
      · have hv : vs[i]? = some vs[i] := List.getElem?_eq_getElem hi
        have h1 : as[i]? = some (as[i]'(by omega)) := List.getElem?_eq_getElem _
        have h2 : as'[i]? = some (as'[i]'(by omega)) := List.getElem?_eq_getElem _
        rw [h1, h2, ih i _ _ hv h1 _ (h' i _ _ hv h2)]
      · rw [List.getElem?_eq_none (by omega), List.getElem?_eq_none (by omega)]
  | @obj ms p ha _ hs _ ih =>
    intro b hb
    cases hb with
    | @obj _ p' ha' hh' hs' _ =>
      congr 1
      refine asc_ext ha ha' fun k => ?_
      have e1 := hs k
      have e2 := hs' k
      cases hl : lastVal ms k with
      | none =>
        rw [hl] at e1 e2
        simp only [Option.isSome_none, Option.isSome_eq_false_iff, Option.isNone_iff_eq_none] at e1 e2
        rw [e1, e2]
      | some j =>
        rw [hl] at e1 e2
        simp only [Option.isSome_some, Option.isSome_iff_exists] at e1 e2
        obtain ⟨x, hx⟩ := e1
        obtain ⟨y, hy⟩ := e2
        rw [hx, hy, ih k x j hx hl y (hh' k y j hy hl)]

theorem holds_inRange {j : JVal} {a : GoAny} (h : Holds j a) : InRange j := by
  induction h with
  | null => trivial
  | bool => trivial
  | str => trivial
  | num hq => exact ⟨_, hq⟩
  | @arr vs as hl _ ih =>
    have : ∀ (vs : List JVal), (∀ v ∈ vs, InRange v) → InRanges vs := by
      intro vs
      induction vs with
      | nil => intro _; trivial
      | cons v vs ihh => intro hh; exact ⟨hh v (by simp), ihh fun w hw => hh w (by simp [hw])⟩
    apply this
    intro v hv
    obtain ⟨i, hi, rfl⟩ := List.mem_iff_getElem.1 hv
    exact ih i _ (as[i]'(by omega)) (List.getElem?_eq_getElem hi) (List.getElem?_eq_getElem _)
  | obj _ _ _ hr _ => exact hr

/-- Decoding to an untyped value is what `Holds` says. -/
theorem toAny_iff (j : JVal) (a : GoAny) : toAny j = some a ↔ Holds j a := by
  constructor
  · exact toAny_holds j a
  · intro h
    have := (toAny_inRange j).2 (holds_inRange h)
    obtain ⟨b, hb⟩ := Option.isSome_iff_exists.1 this
    rw [hb, holds_unique h b (toAny_holds j b hb)]

end Verif.Ocppj
