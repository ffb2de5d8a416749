import Verif.Model.Num
import Mathlib.Tactic.Ring
import Mathlib.Tactic.Linarith
import Mathlib.Tactic.NormNum
import Mathlib.Tactic.FieldSimp
import Mathlib.Tactic.Positivity
import Mathlib.Data.Nat.Prime.Basic
import Mathlib.Algebra.Order.Field.Power
/-! Lemmas on float64 rounding. -/
namespace Verif

theorem roundEven_int (k : ℤ) : roundEven (k : ℚ) = k := by
  simp [roundEven]

theorem roundEven_bound {x : ℚ} {b : ℤ} (h1 : -(b : ℚ) ≤ x) (h2 : x ≤ b) : -b ≤ roundEven x ∧ roundEven x ≤ b := by
  have f1 : -b ≤ ⌊x⌋ := Int.le_floor.2 (by push_cast; exact h1)
  have f2 : ⌊x⌋ ≤ b := by
    have : ⌊x⌋ ≤ ⌊(b : ℚ)⌋ := Int.floor_le_floor h2
    simpa using this
  have f3 : x - ⌊x⌋ ≠ 0 → ⌊x⌋ < b := by
    intro hne
    rcases lt_or_eq_of_le f2 with h | h
    · exact h
    · exfalso
      apply hne
      have := Int.floor_le x
      rw [h] at this ⊢
      linarith
  unfold roundEven
  simp only
  split
  · exact ⟨f1, f2⟩
  · rename_i hh
    have := f3 (by intro h0; rw [h0] at hh; norm_num at hh)
    split
    · omega
    split <;> omega

/-- Integers times powers of two with a 53 bit significand are not changed by rounding. -/
theorem roundF64_dyadic {k : ℤ} {e : ℤ} (hk : |k| ≤ 2 ^ 53) (he : -1074 ≤ e) :
    roundF64 ((k : ℚ) * 2 ^ e) = (k : ℚ) * 2 ^ e := by
  have h2 : (0 : ℚ) < 2 := by norm_num
  suffices h : ∃ m : ℤ, (k : ℚ) * 2 ^ e / 2 ^ ulpExp ((k : ℚ) * 2 ^ e) = m by
    obtain ⟨m, hm⟩ := h
    unfold roundF64
    rw [hm, roundEven_int, ← hm]
    field_simp
  by_cases hk0 : k = 0
  · exact ⟨0, by simp [hk0]⟩
  generalize hE : ulpExp ((k : ℚ) * 2 ^ e) = E
  have hkq : (0 : ℚ) < |(k : ℚ)| := abs_pos.2 (by exact_mod_cast hk0)
  have key : E ≤ e ∨ (|k| = 2 ^ 53 ∧ E = e + 1) := by
    unfold ulpExp at hE
    by_cases hle : E ≤ e
    · exact Or.inl hle
    · right
      have hlog : Int.log 2 |(k : ℚ) * 2 ^ e| - 52 = E := by
        rcases max_choice (Int.log 2 |(k : ℚ) * 2 ^ e| - 52) (-1074) with h | h
        · rw [h] at hE; exact hE
        · rw [h] at hE; omega
      have hpos : 0 < |(k : ℚ) * 2 ^ e| := by rw [abs_mul]; positivity
      have hl : ((2 : ℕ) : ℚ) ^ (E + 52) ≤ |(k : ℚ) * 2 ^ e| := by
        have := Int.zpow_log_le_self (b := 2) (by norm_num) hpos
        rwa [show E + 52 = Int.log 2 |(k : ℚ) * 2 ^ e| by omega]
      have habs : |(k : ℚ) * 2 ^ e| = |(k : ℚ)| * 2 ^ e := by
        rw [abs_mul, abs_of_pos (zpow_pos h2 e)]
      rw [habs] at hl
      have hle53 : |(k : ℚ)| ≤ 2 ^ (53 : ℤ) := by
        have : ((|k| : ℤ) : ℚ) ≤ ((2 ^ 53 : ℤ) : ℚ) := by exact_mod_cast hk
        rw [Int.cast_abs] at this
        refine le_trans this (le_of_eq ?_)
        rw [Int.cast_pow, show (53 : ℤ) = ((53 : ℕ) : ℤ) from rfl, zpow_natCast]
        rfl
      have h3 : (2 : ℚ) ^ (E + 52 - e) ≤ |(k : ℚ)| := by
        rw [zpow_sub₀ (by norm_num), div_le_iff₀ (zpow_pos h2 e)]
        exact_mod_cast hl
      have h4 : (2 : ℚ) ^ (E + 52 - e) ≤ 2 ^ (53 : ℤ) := le_trans h3 hle53
      have h5 : E + 52 - e ≤ 53 := (zpow_le_zpow_iff_right₀ (by norm_num)).1 h4
      have h6 : E = e + 1 := by omega
      refine ⟨?_, h6⟩
      have h7 : (2 : ℚ) ^ (53 : ℤ) ≤ |(k : ℚ)| := by
        rw [h6] at h3
        rwa [show e + 1 + 52 - e = 53 by ring] at h3
      have h8 : ((2 ^ 53 : ℤ) : ℚ) ≤ ((|k| : ℤ) : ℚ) := by
        rw [Int.cast_abs]
        refine le_trans (le_of_eq ?_) h7
        rw [Int.cast_pow, show (53 : ℤ) = ((53 : ℕ) : ℤ) from rfl, zpow_natCast]
        rfl
      have h9 : (2 ^ 53 : ℤ) ≤ |k| := by exact_mod_cast h8
      omega
  rcases key with h | ⟨h, h'⟩
  · refine ⟨k * 2 ^ (e - E).toNat, ?_⟩
    have : (2 : ℚ) ^ e = 2 ^ (e - E) * 2 ^ E := by rw [← zpow_add₀ (by norm_num)]; congr 1; ring
    rw [this]
    have h3 : (2 : ℚ) ^ (e - E) = ((2 ^ (e - E).toNat : ℤ) : ℚ) := by
      push_cast
      rw [← zpow_natCast, Int.toNat_of_nonneg (by omega)]
    rw [← mul_assoc, mul_div_assoc, div_self (zpow_pos h2 E).ne', mul_one, h3]
    push_cast
    rfl
  · have hdvd : ∃ m : ℤ, k = 2 * m := by
      rcases abs_choice k with h1 | h1
      · exact ⟨2 ^ 52, by omega⟩
      · exact ⟨-2 ^ 52, by omega⟩
    obtain ⟨m, rfl⟩ := hdvd
    refine ⟨m, ?_⟩
    rw [h', zpow_add₀ (by norm_num)]
    push_cast
    field_simp

/-- Every rounded number is an integer with a 53 bit significand times a power of two. -/
theorem roundF64_form (q : ℚ) : ∃ k e : ℤ, |k| ≤ 2 ^ 53 ∧ -1074 ≤ e ∧ roundF64 q = (k : ℚ) * 2 ^ e := by
  have h2 : (0 : ℚ) < 2 := by norm_num
  refine ⟨roundEven (q / 2 ^ ulpExp q), ulpExp q, ?_, le_max_right _ _, rfl⟩
  have hb : |q / 2 ^ ulpExp q| ≤ 2 ^ (53 : ℤ) := by
    by_cases hq : q = 0
    · simp [hq]
    have hpos : 0 < |q| := abs_pos.2 hq
    have := (Int.lt_zpow_succ_log_self (b := 2) (by norm_num) |q|).le
    rw [abs_div, abs_of_pos (zpow_pos h2 _), div_le_iff₀ (zpow_pos h2 _), ← zpow_add₀ (by norm_num)]
    refine le_trans this ?_
    refine zpow_le_zpow_right₀ (by norm_num) ?_
    have : Int.log 2 |q| - 52 ≤ ulpExp q := le_max_left _ _
    omega
  have hb' := abs_le.1 hb
  have := roundEven_bound (b := 2 ^ 53) (x := q / 2 ^ ulpExp q) (by push_cast; exact_mod_cast hb'.1)
    (by push_cast; exact_mod_cast hb'.2)
  exact abs_le.2 this

theorem roundF64_idem (q : ℚ) : roundF64 (roundF64 q) = roundF64 q := by
  obtain ⟨k, e, hk, he, h⟩ := roundF64_form q
  rw [h, roundF64_dyadic hk he]

/-- The result of parsing a float is a float. -/
theorem fl64_isF64 {q r : ℚ} (h : fl64 q = some r) : IsF64 r := by
  unfold fl64 at h
  split at h
  · rename_i hlt
    obtain rfl := Option.some.inj h
    unfold IsF64 fl64
    rw [roundF64_idem, if_pos hlt]
  · simp at h

/-- Integers up to 2^53 are floats. -/
theorem isF64_int {n : ℤ} (h : |n| ≤ 2 ^ 53) : IsF64 (n : ℚ) := by
  have hr : roundF64 (n : ℚ) = n := by
    have := roundF64_dyadic (e := 0) h (by norm_num)
    simpa using this
  unfold IsF64 fl64
  rw [hr, if_pos]
  have : ((|n| : ℤ) : ℚ) ≤ ((2 ^ 53 : ℤ) : ℚ) := by exact_mod_cast h
  rw [Int.cast_abs] at this
  refine lt_of_le_of_lt this ?_
  have e : ((2 ^ 53 : ℤ) : ℚ) = 2 ^ (53 : ℤ) := by
    rw [Int.cast_pow, show (53 : ℤ) = ((53 : ℕ) : ℤ) from rfl, zpow_natCast]
    rfl
  rw [e]
  exact zpow_lt_zpow_right₀ (by norm_num) (by norm_num)

theorem IsF64.form {q : ℚ} (h : IsF64 q) : ∃ k e : ℤ, |k| ≤ 2 ^ 53 ∧ -1074 ≤ e ∧ q = (k : ℚ) * 2 ^ e := by
  obtain ⟨k, e, hk, he, hq⟩ := roundF64_form q
  unfold IsF64 fl64 at h
  split at h
  · exact ⟨k, e, hk, he, (Option.some.inj h).symm.trans hq⟩
  · simp at h

theorem natAbs_cast_neg {n : ℤ} (h : n < 0) : ((n.natAbs : ℕ) : ℚ) = -(n : ℚ) := by
  have e : ((n.natAbs : ℕ) : ℤ) = -n := by omega
  calc ((n.natAbs : ℕ) : ℚ) = (((n.natAbs : ℕ) : ℤ) : ℚ) := (Int.cast_natCast _).symm
    _ = ((-n : ℤ) : ℚ) := by rw [e]
    _ = -(n : ℚ) := Int.cast_neg n

theorem natAbs_cast_nonneg {n : ℤ} (h : 0 ≤ n) : ((n.natAbs : ℕ) : ℚ) = (n : ℚ) := by
  have e : ((n.natAbs : ℕ) : ℤ) = n := by omega
  calc ((n.natAbs : ℕ) : ℚ) = (((n.natAbs : ℕ) : ℤ) : ℚ) := (Int.cast_natCast _).symm
    _ = (n : ℚ) := by rw [e]

theorem value_ofInt (n : ℤ) : (NumLit.ofInt n).value = n := by
  unfold NumLit.value NumLit.ofInt
  simp only [fracVal, decide_eq_true_eq, Option.getD_none, zpow_zero, mul_one, add_zero]
  rcases lt_or_ge n 0 with h | h
  · rw [if_pos h]
    rw [natAbs_cast_neg h]; ring
  · rw [if_neg (by omega)]
    rw [natAbs_cast_nonneg h]; ring

theorem isInt_ofInt (n : ℤ) : (NumLit.ofInt n).isInt = true := rfl

theorem intVal_ofInt (n : ℤ) : (NumLit.ofInt n).intVal = n := by
  unfold NumLit.intVal NumLit.ofInt
  simp only [decide_eq_true_eq]
  split <;> omega

/-- An exact decimal for a dyadic rational: `m / 2^j = m * 5^j * 10^(-j)`. -/
def exactLit (q : ℚ) : NumLit :=
  if q.den = 1 then NumLit.ofInt q.num
  else { neg := decide (q.num < 0), ip := q.num.natAbs * 5 ^ Nat.log 2 q.den, frac := [],
         exp := some (-(Nat.log 2 q.den : ℤ)) }

theorem exactLit_value {q : ℚ} (h : ∃ j : ℕ, q.den = 2 ^ j) : (exactLit q).value = q := by
  unfold exactLit
  split
  · rename_i hd
    rw [value_ofInt]
    exact Rat.coe_int_num_of_den_eq_one hd
  · obtain ⟨j, hj⟩ := h
    have hlog : Nat.log 2 q.den = j := by rw [hj]; exact Nat.log_pow (by norm_num) j
    rw [hlog]
    have hq : (q.num : ℚ) / (2 ^ j : ℚ) = q := by
      conv_rhs => rw [← Rat.num_div_den q, hj]
      push_cast
      rfl
    have hpow : ((5 : ℚ) ^ j) * 10 ^ (-(j : ℤ)) = 1 / 2 ^ j := by
      rw [zpow_neg, zpow_natCast, show (10 : ℚ) = 5 * 2 by norm_num, mul_pow]
      field_simp
    unfold NumLit.value
    simp only [fracVal, add_zero, Option.getD_some, decide_eq_true_eq]
    push_cast
    rcases lt_or_ge q.num 0 with h | h
    · rw [if_pos h]
      rw [natAbs_cast_neg h]
      conv_rhs => rw [← hq]
      calc -1 * (-(q.num : ℚ) * 5 ^ j) * 10 ^ (-(j : ℤ)) = q.num * (5 ^ j * 10 ^ (-(j : ℤ))) := by ring
        _ = _ := by rw [hpow]; ring
    · rw [if_neg (by omega)]
      rw [natAbs_cast_nonneg h]
      conv_rhs => rw [← hq]
      calc 1 * ((q.num : ℚ) * 5 ^ j) * 10 ^ (-(j : ℤ)) = q.num * (5 ^ j * 10 ^ (-(j : ℤ))) := by ring
        _ = _ := by rw [hpow]; ring

theorem IsF64.den {q : ℚ} (h : IsF64 q) : ∃ j : ℕ, q.den = 2 ^ j := by
  obtain ⟨k, e, -, -, hq⟩ := h.form
  have hd : q.den ∣ 2 ^ e.natAbs := by
    rcases le_or_gt 0 e with h | h
    · obtain ⟨n, rfl⟩ := Int.eq_ofNat_of_zero_le h
      have : q = ((k * 2 ^ n : ℤ) : ℚ) := by rw [hq]; push_cast; rfl
      rw [this, Rat.den_intCast]
      exact one_dvd _
    · have hqe : q = (k : ℚ) / ((2 ^ e.natAbs : ℕ) : ℚ) := by
        rw [hq]
        have : e = -(e.natAbs : ℤ) := by omega
        conv_lhs => rw [this]
        rw [zpow_neg, zpow_natCast]
        push_cast
        rfl
      have : q = Rat.divInt k ((2 ^ e.natAbs : ℕ) : ℤ) := by
        rw [hqe, Rat.divInt_eq_div]
        push_cast
        rfl
      rw [this]
      have := Rat.den_dvd k ((2 ^ e.natAbs : ℕ) : ℤ)
      exact_mod_cast this
  obtain ⟨j, -, hj⟩ := (Nat.dvd_prime_pow Nat.prime_two).1 hd
  exact ⟨j, hj⟩

theorem log_edge : Int.log 2 (9223372036854776000 : ℚ) = 63 := by
  have e : (9223372036854776000 : ℚ) = ((9223372036854776000 : ℕ) : ℚ) := by norm_num
  rw [e, Int.log_natCast]
  norm_cast

theorem round_edge {x : ℚ} (f : ℤ) (h1 : (f : ℚ) < x + 1 / 2) (h2 : x < f + 1 / 2) : roundEven x = f := by
  unfold roundEven
  simp only
  rcases le_or_gt (f : ℚ) x with h | h
  · have hf : ⌊x⌋ = f := by rw [Int.floor_eq_iff]; constructor <;> linarith
    rw [hf, if_pos (by linarith)]
  · have hf : ⌊x⌋ = f - 1 := by rw [Int.floor_eq_iff]; push_cast; constructor <;> linarith
    rw [hf, if_neg (by push_cast; linarith), if_pos (by push_cast; linarith)]
    ring

/-- 9223372036854776000 and its negative are rounded to plus and minus 2^63. -/
theorem fl64_edge : fl64 ((9223372036854776000 : ℤ) : ℚ) = some (2 ^ 63) ∧ fl64 ((-9223372036854776000 : ℤ) : ℚ) = some (-(2 ^ 63)) := by
  have key : ∀ (q r : ℚ) (k : ℤ), |q| = 9223372036854776000 → (k : ℚ) < q / 2048 + 1 / 2 → q / 2048 < k + 1 / 2 → r = k * 2048 →
      |r| = 2 ^ 63 → fl64 q = some r := by
    intro q r k ha h1 h2 hr hb
    have hu : ulpExp q = 11 := by unfold ulpExp; rw [ha, log_edge]; norm_num
    have hrd : roundF64 q = r := by
      unfold roundF64
      rw [hu, show (2 : ℚ) ^ (11 : ℤ) = 2048 by norm_num, round_edge k h1 h2, hr]
    unfold fl64
    rw [hrd, if_pos]
    rw [hb, show (2 : ℚ) ^ 63 = 2 ^ (63 : ℤ) by norm_num]
    exact zpow_lt_zpow_right₀ (by norm_num) (by norm_num)
  constructor
  · refine key _ _ (2 ^ 52) ?_ ?_ ?_ ?_ ?_
    · rw [abs_of_pos (by norm_num)]; norm_num
    all_goals norm_num
  · refine key _ _ (-(2 ^ 52)) ?_ ?_ ?_ ?_ ?_
    · rw [abs_of_neg (by norm_num)]; norm_num
    all_goals norm_num

/-- The contract on the float formatter can be met. -/
def exactFmt : FloatFmt where
  fmt := fun q => if q = 2 ^ 63 then .ofInt 9223372036854776000 else if q = -(2 ^ 63) then .ofInt (-9223372036854776000) else exactLit q
  roundtrip := by
    intro q h
    split
    · rename_i e; rw [value_ofInt, e]; exact fl64_edge.1
    split
    · rename_i e; rw [value_ofInt, e]; exact fl64_edge.2
    rw [exactLit_value h.den]
    exact h
  int := by
    intro n hn
    have h1 : (n : ℚ) ≠ 2 ^ 63 := by
      intro e
      have : n = 2 ^ 63 := by exact_mod_cast e
      rw [this] at hn; norm_num at hn
    have h2 : (n : ℚ) ≠ -(2 ^ 63) := by
      intro e
      have : n = -(2 ^ 63) := by exact_mod_cast e
      rw [this] at hn; norm_num at hn
    simp only [h1, h2, if_false]
    simp [exactLit]
  plain := by
    intro n _
    repeat' split
    all_goals simp [exactLit, isInt_ofInt]
  edge := by
    constructor
    · simp only [if_true]
    · simp only [if_true]
      rw [if_neg (by norm_num)]

end Verif
