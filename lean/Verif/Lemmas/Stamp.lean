import Verif.Lemmas.Calendar
import Verif.Lemmas.Num
import Mathlib.Tactic.Positivity
/-! # Which texts are time stamps -/
set_option linter.unusedSimpArgs false
namespace Verif.Cal
open GoTime Json

theorem charDigit_dig (n : Nat) : charDigit (dig n) = some ⟨n % 10, Nat.mod_lt _ (by decide)⟩ := charDigit_digitChar _

theorem dig_of_charDigit {c : Char} {d : Fin 10} (h : charDigit c = some d) : c = dig d.val := by
  rw [← digitChar_charDigit h]
  unfold dig
  congr 1
  ext
  simp only
  omega

theorem dig_add (a n : Nat) (h : n = 10 * a + n % 10) (k : Nat) (hk : k = n % 10) : dig k = dig n := by
  unfold dig; congr 1; ext; simp only; omega

theorem dig_congr {a b : Nat} (h : a % 10 = b % 10) : dig a = dig b := by
  unfold dig; congr 1; ext; simpa using h

theorem takeNum_two {n : Nat} (h : n < 100) (r : Text) : takeNum 2 0 (two n ++ r) = some (n, r) := by
  simp only [two, List.cons_append, List.nil_append, takeNum, charDigit_dig, Option.some.injEq, Prod.mk.injEq, and_true]
  omega

theorem takeNum_four {n : Nat} (h : n < 10000) (r : Text) : takeNum 4 0 (four n ++ r) = some (n, r) := by
  simp only [four, List.cons_append, List.nil_append, takeNum, charDigit_dig, Option.some.injEq, Prod.mk.injEq, and_true]
  omega

theorem takeNum_two_inv {t r : Text} {n : Nat} (h : takeNum 2 0 t = some (n, r)) : n < 100 ∧ t = two n ++ r := by
  match t, h with
  | c :: t, h =>
    simp only [takeNum] at h
    cases hc : charDigit c with
    | none => rw [hc] at h; simp at h
    | some d =>
      rw [hc] at h
      match t, h with
      | c' :: t, h =>
        simp only [takeNum] at h
        cases hc' : charDigit c' with
        | none => rw [hc'] at h; simp at h
        | some e =>
          rw [hc'] at h
          simp only [Option.some.injEq, Prod.mk.injEq] at h
          obtain ⟨h1, rfl⟩ := h
          refine ⟨by omega, ?_⟩
          rw [dig_of_charDigit hc, dig_of_charDigit hc', two]
          simp only [List.cons_append, List.nil_append, List.cons.injEq, and_true]
          exact ⟨dig_congr (by omega), dig_congr (by omega)⟩

theorem takeNum_succ_inv {k acc : Nat} {t r : Text} {n : Nat} (h : takeNum (k + 1) acc t = some (n, r)) :
    ∃ d : Nat, d < 10 ∧ ∃ u, t = dig d :: u ∧ takeNum k (acc * 10 + d) u = some (n, r) := by
  match t, h with
  | c :: t, h =>
    simp only [takeNum] at h
    cases hc : charDigit c with
    | none => rw [hc] at h; simp at h
    | some d =>
      rw [hc] at h
      exact ⟨d.val, d.isLt, t, by rw [← dig_of_charDigit hc], h⟩

theorem takeNum_four_inv {t r : Text} {n : Nat} (h : takeNum 4 0 t = some (n, r)) : n < 10000 ∧ t = four n ++ r := by
  obtain ⟨a, ha, u1, rfl, h1⟩ := takeNum_succ_inv h
  obtain ⟨b, hb, u2, rfl, h2⟩ := takeNum_succ_inv h1
  obtain ⟨c, hc, u3, rfl, h3⟩ := takeNum_succ_inv h2
  obtain ⟨d, hd, u4, rfl, h4⟩ := takeNum_succ_inv h3
  clear h h1 h2 h3
  have h := h4
  simp only [takeNum, Option.some.injEq, Prod.mk.injEq] at h
  obtain ⟨h1, rfl⟩ := h
  refine ⟨by omega, ?_⟩
  simp only [four, List.cons_append, List.nil_append, List.cons.injEq, and_true]
  exact ⟨dig_congr (by omega), dig_congr (by omega), dig_congr (by omega), dig_congr (by omega)⟩

theorem takeHour_inv {t r : Text} {n : Nat} (h : takeHour t = some (n, r)) : ∃ hh, HourText n hh ∧ t = hh ++ r := by
  match t, h with
  | c :: t, h =>
    simp only [takeHour] at h
    cases hc : charDigit c with
    | none => rw [hc] at h; simp at h
    | some d =>
      rw [hc] at h
      match t, h with
      | [], h =>
        simp only [Option.some.injEq, Prod.mk.injEq] at h
        obtain ⟨h1, rfl⟩ := h
        exact ⟨[c], .inr ⟨by omega, by rw [dig_of_charDigit hc, h1]⟩, rfl⟩
      | c' :: t, h =>
        simp only at h
        cases hc' : charDigit c' with
        | none =>
          rw [hc'] at h
          simp only [Option.some.injEq, Prod.mk.injEq] at h
          obtain ⟨h1, rfl⟩ := h
          exact ⟨[c], .inr ⟨by omega, by rw [dig_of_charDigit hc, h1]⟩, rfl⟩
        | some e =>
          rw [hc'] at h
          simp only [Option.some.injEq, Prod.mk.injEq] at h
          obtain ⟨h1, rfl⟩ := h
          refine ⟨[c, c'], .inl ?_, rfl⟩
          rw [dig_of_charDigit hc, dig_of_charDigit hc', two]
          simp only [List.cons.injEq, and_true]
          exact ⟨dig_congr (by omega), dig_congr (by omega)⟩

theorem takeHour_text {n : Nat} (h : n < 100) {hh : Text} (ht : HourText n hh) (r : Text) :
    takeHour (hh ++ ':' :: r) = some (n, ':' :: r) := by
  rcases ht with rfl | ⟨h10, rfl⟩
  · simp only [two, List.cons_append, List.nil_append, takeHour, charDigit_dig, Option.some.injEq, Prod.mk.injEq, and_true]
    omega
  · have : charDigit ':' = none := by decide
    simp only [List.cons_append, List.nil_append, takeHour, charDigit_dig, this, Option.some.injEq, Prod.mk.injEq, and_true]
    omega

theorem expect_inv {c : Char} {t r : Text} (h : expect c t = some r) : t = c :: r := by
  match t, h with
  | c' :: t, h =>
    simp only [expect] at h
    split at h
    · rename_i e; simp only [Option.some.injEq] at h; rw [e, h]
    · cases h

theorem parseFraction_inv (t : Text) : ∃ ds ff, FracText ds ff ∧ t = ff ++ (parseFraction t).2 ∧ (parseFraction t).1 = fracNano 9 ds := by
  match t with
  | [] => exact ⟨[], [], .inl ⟨rfl, rfl⟩, rfl, rfl⟩
  | c :: u =>
    simp only [parseFraction]
    split
    · rename_i hc
      have hs := takeDigits_sound u
      cases hd : takeDigits u with
      | mk ds r =>
        rw [hd] at hs
        cases ds with
        | nil => exact ⟨[], [], .inl ⟨rfl, rfl⟩, rfl, rfl⟩
        | cons d ds =>
          refine ⟨d :: ds, c :: (d :: ds).map digitChar, .inr ⟨by simp, c, hc, rfl⟩, ?_, rfl⟩
          rw [hs]; rfl
    · exact ⟨[], [], .inl ⟨rfl, rfl⟩, rfl, rfl⟩

theorem parseFraction_text {ds : List (Fin 10)} {ff : Text} (h : FracText ds ff) {c : Char} {r : Text} (hc : charDigit c = none)
    (h1 : c ≠ '.') (h2 : c ≠ ',') : parseFraction (ff ++ c :: r) = (fracNano 9 ds, c :: r) := by
  rcases h with ⟨rfl, rfl⟩ | ⟨hne, s, hs, rfl⟩
  · exact parseFraction_none h1 h2
  · have hn : NoDigit (c :: r) := by
      intro x u hx
      rw [← (List.cons.inj hx).1]; exact hc
    simp only [List.cons_append, parseFraction, hs, if_true, takeDigits_append _ hn]
    first
    | done
    | (cases ds with
       | nil => exact absurd rfl hne
       | cons d ds => rfl)

/-- Offset of a zone in seconds. -/
def zoneSec (z : Option (Bool × Nat × Nat)) : Int :=
  match z with
  | none => 0
  | some (neg, h, m) => if neg then -((h * 3600 + m * 60 : Nat) : Int) else ((h * 3600 + m * 60 : Nat) : Int)

/-- The zone is one that is accepted. -/
def ZoneOk (z : Option (Bool × Nat × Nat)) : Prop := ∀ neg h m, z = some (neg, h, m) → h ≤ 24 ∧ m ≤ 60

theorem parseZone_inv {t : Text} {off : Int} (h : parseZone t = some off) : ∃ z, ZoneOk z ∧ t = zoneSpelled z ∧ off = zoneSec z := by
  unfold parseZone at h
  split at h
  · simp only [Option.some.injEq] at h
    exact ⟨none, (by intro _ _ _ h; cases h), rfl, h.symm⟩
  · rename_i c u _
    split at h
    · rename_i hc
      split at h
      · cases h
      · rename_i a u₁ e1
        split at h
        · cases h
        · rename_i u₂ e2
          split at h
          · rename_i b e3
            split at h
            · rename_i hr
              obtain ⟨-, rfl⟩ := takeNum_two_inv e1
              have e2' := expect_inv e2
              obtain ⟨-, rfl⟩ := takeNum_two_inv e3
              subst e2'
              simp only [Option.some.injEq] at h
              refine ⟨some (decide (c = '-'), a, b), ?_, ?_, ?_⟩
              · intro _ _ _ e; cases e; exact hr
              · rcases hc with rfl | rfl <;> simp [zoneSpelled]
              · rw [← h]
                rcases hc with rfl | rfl
                · simp [zoneSec]; ring
                · simp [zoneSec]; ring
            · cases h
          · cases h
    · cases h
  · cases h

theorem parseZone_text {z : Option (Bool × Nat × Nat)} (h : ZoneOk z) : parseZone (zoneSpelled z) = some (zoneSec z) := by
  match z with
  | none => rfl
  | some (neg, a, b) =>
    obtain ⟨ha, hb⟩ := h neg a b rfl
    have e1 := takeNum_two (n := a) (by omega) (':' :: two b)
    have e2 := takeNum_two (n := b) (by omega) []
    simp only [List.append_nil] at e2
    cases neg
    · simp only [zoneSpelled, parseZone, zoneSec]
      simp [e1, e2, expect, ha, hb]
      ring
    · simp only [zoneSpelled, parseZone, zoneSec]
      simp [e1, e2, expect, ha, hb]
      ring

theorem zone_start (z : Option (Bool × Nat × Nat)) : ∃ c r, zoneSpelled z = c :: r ∧ charDigit c = none ∧ c ≠ '.' ∧ c ≠ ',' := by
  match z with
  | none => exact ⟨'Z', [], rfl, by decide, by decide, by decide⟩
  | some (true, a, b) => exact ⟨'-', _, rfl, by decide, by decide, by decide⟩
  | some (false, a, b) => exact ⟨'+', _, rfl, by decide, by decide, by decide⟩

theorem fracVal_bounds (ds : List (Fin 10)) : 0 ≤ fracVal ds ∧ fracVal ds < 1 := by
  induction ds with
  | nil => simp [fracVal]
  | cons d ds ih =>
    have h1 : (d.val : ℚ) ≤ 9 := by have := d.isLt; exact_mod_cast (by omega : d.val ≤ 9)
    have h0 : (0 : ℚ) ≤ d.val := by positivity
    simp only [fracVal]
    constructor
    · have := ih.1; positivity
    · rw [div_lt_one (by norm_num)]; linarith [ih.2]

theorem fracNano_floor (ds : List (Fin 10)) (k : Nat) : (fracNano k ds : Int) = ⌊fracVal ds * 10 ^ k⌋ := by
  induction ds generalizing k with
  | nil => simp [fracNano, fracVal]
  | cons d ds ih =>
    cases k with
    | zero =>
      simp only [fracNano, if_true, pow_zero, mul_one]
      symm
      have := fracVal_bounds (d :: ds)
      rw [Nat.cast_zero, Int.floor_eq_zero_iff]
      exact ⟨this.1, this.2⟩
    | succ k =>
      simp only [fracNano, Nat.add_one_ne_zero, if_false, Nat.add_sub_cancel]
      have : fracVal (d :: ds) * 10 ^ (k + 1) = ((d.val * 10 ^ k : ℕ) : ℤ) + fracVal ds * 10 ^ k := by
        simp only [fracVal, pow_succ]
        push_cast
        ring
      rw [this, Int.floor_intCast_add, ← ih k]
      push_cast
      ring

theorem offset_eq (s : Stamp) : s.offset = zoneSec s.zone := by
  unfold Stamp.offset zoneSec
  rfl

/-- Exactly the spellings of valid time stamps are accepted, as the moment they denote. -/
theorem parseTime_iff (text : Text) (t : GoTime) :
    parseTime text = some t ↔ ∃ s : Stamp, s.Valid ∧ s.Spelled text ∧ s.Denotes t := by
  constructor
  · intro h
    simp only [parseTime, bind, Option.bind_eq_some_iff] at h
    obtain ⟨⟨y, t1⟩, h1, t2, h2, ⟨mo, t3⟩, h3, t4, h4, ⟨d, t5⟩, h5, t6, h6, ⟨hr, t7⟩, h7, t8, h8, ⟨mi, t9⟩, h9, t10, h10,
      ⟨sc, t11⟩, h11, off, h12, h⟩ := h
    split at h
    · rename_i hv
      obtain ⟨v1, v2, v3, v4, v5, v6, v7⟩ := hv
      simp only at h2 h3 h4 h5 h6 h7 h8 h9 h10 h11 h12 v1 v2 v3 v4 v5 v6 v7
      obtain ⟨hy, rfl⟩ := takeNum_four_inv h1
      have e2 := expect_inv h2
      obtain ⟨-, e3⟩ := takeNum_two_inv h3
      have e4 := expect_inv h4
      obtain ⟨-, e5⟩ := takeNum_two_inv h5
      have e6 := expect_inv h6
      obtain ⟨hh, hhh, e7⟩ := takeHour_inv h7
      have e8 := expect_inv h8
      obtain ⟨-, e9⟩ := takeNum_two_inv h9
      have e10 := expect_inv h10
      obtain ⟨-, e11⟩ := takeNum_two_inv h11
      obtain ⟨ds, ff, hf, e12, hn⟩ := parseFraction_inv t11
      obtain ⟨z, hz, e13, hoff⟩ := parseZone_inv h12
      have hvd : (⟨y, mo, d⟩ : Date).Valid := ⟨v1, v2, v3, by rw [← daysIn_eq _ v1 v2]; exact v4⟩
      refine ⟨⟨y, mo, d, hr, mi, sc, ds, z⟩, ⟨by simp only; omega, hvd, v5, v6, v7, hz⟩, ⟨hh, ff, hhh, hf, ?_⟩, ?_⟩
      · simp only
        rw [e2, e3, e4, e5, e6, e7, e8, e9, e10, e11, e12, e13]
        simp [List.append_assoc]
      · simp only [Option.some.injEq] at h
        refine ⟨dayNumber y mo d, (dayOf_iff _ _).2 ⟨hvd, rfl⟩, ?_, ?_, ?_⟩
        · rw [← h, offset_eq, ← hoff]; push_cast; ring
        · rw [← h]; simp only; rw [hn]; exact fracNano_floor ds 9
        · rw [← h, offset_eq, ← hoff]
    · cases h
  · rintro ⟨⟨y, mo, d, hr, mi, sc, ds, z⟩, ⟨v1, v2, v3, v4, v5, v6⟩, ⟨hh, ff, hhh, hf, rfl⟩, n, hn, hs, hns, ho⟩
    simp only at v1 v2 v3 v4 v5 hhh hf hn hs hns ho ⊢
    obtain ⟨w1, w2, w3, w4⟩ := v2
    simp only at w1 w2 w3 w4
    obtain ⟨c, r, hz, hc1, hc2, hc3⟩ := zone_start z
    have hd31 : d ≤ 31 := by
      refine le_trans w4 ?_
      unfold monthDays; repeat' split
      all_goals omega
    simp only [parseTime, List.append_assoc, List.cons_append, List.nil_append]
    simp only [takeNum_four (show y < 10000 by omega), takeNum_two (show mo < 100 by omega), takeNum_two (show d < 100 by omega),
      takeHour_text (show hr < 100 by omega) hhh, takeNum_two (show mi < 100 by omega), takeNum_two (show sc < 100 by omega),
      expect_cons, Option.bind_eq_bind, Option.bind_some]
    rw [hz, parseFraction_text hf hc1 hc2 hc3, ← hz]
    simp only [parseZone_text v6, Option.bind_some]
    rw [if_pos ⟨w1, w2, w3, by rw [daysIn_eq _ w1 w2]; exact w4, v3, v4, v5⟩]
    have hnum := (dayOf_spec hn).2
    simp only [num] at hnum
    obtain ⟨tsec, tnano, toff⟩ := t
    simp only [Option.some.injEq, GoTime.mk.injEq]
    simp only [offset_eq] at hs ho
    simp only at hns hs ho
    refine ⟨?_, ?_, ho.symm⟩
    · rw [hnum, hs]; push_cast; ring
    · have := fracNano_floor ds 9
      rw [← hns] at this
      exact_mod_cast this

end Verif.Cal
