import Verif.Lemmas.Num
import Mathlib.Tactic.Linarith
/-! # Integers as float64 -/
namespace Verif

theorem roundEven_floor (x : ℚ) : ⌊x⌋ ≤ roundEven x ∧ roundEven x ≤ ⌊x⌋ + 1 := by
  unfold roundEven
  simp only
  repeat' split
  all_goals omega

/-- An integer is rounded to an integer, not beyond the next power of two, and only zero to zero. -/
theorem roundF64_intCast (n : ℤ) (h : |n| ≤ 2 ^ 63) : ∃ k : ℤ, roundF64 (n : ℚ) = k ∧ |k| ≤ 2 ^ 63 ∧ (k = 0 ↔ n = 0) := by
  by_cases hs : |n| ≤ 2 ^ 53
  · have := isF64_int hs
    unfold IsF64 fl64 at this
    split at this
    · exact ⟨n, Option.some.inj this, h, Iff.rfl⟩
    · cases this
  · have hn0 : n ≠ 0 := by rintro rfl; simp at hs
    have habs : |(n : ℚ)| = ((n.natAbs : ℕ) : ℚ) := by
      rw [← Int.cast_abs, Int.abs_eq_natAbs]; rfl
    have hlog : Int.log 2 |(n : ℚ)| = (Nat.log 2 n.natAbs : ℕ) := by rw [habs, Int.log_natCast]
    have hna : 2 ^ 53 < n.natAbs := by
      rw [Int.abs_eq_natAbs] at hs
      exact_mod_cast not_le.1 hs
    have hnb : n.natAbs ≤ 2 ^ 63 := by
      rw [Int.abs_eq_natAbs] at h
      exact_mod_cast h
    have hl1 : 53 ≤ Nat.log 2 n.natAbs := (Nat.le_log_iff_pow_le (by norm_num) (by omega)).2 (by omega)
    have hl2 : Nat.log 2 n.natAbs ≤ 63 := by
      by_contra hc
      have := (Nat.le_log_iff_pow_le (b := 2) (x := 64) (y := n.natAbs) (by norm_num) (by omega)).1 (by omega)
      norm_num at this
      omega
    obtain ⟨u, hu1, hu⟩ : ∃ u : ℕ, u ≤ 11 ∧ ulpExp (n : ℚ) = u := by
      refine ⟨Nat.log 2 n.natAbs - 52, by omega, ?_⟩
      unfold ulpExp
      rw [hlog]
      omega
    unfold roundF64
    rw [hu, zpow_natCast]
    refine ⟨roundEven ((n : ℚ) / 2 ^ u) * 2 ^ u, by push_cast; ring, ?_, ?_⟩
    · have hb := roundEven_bound (x := (n : ℚ) / 2 ^ u) (b := 2 ^ (63 - u)) (by
        rw [le_div_iff₀ (by positivity)]
        push_cast
        rw [neg_mul, ← pow_add, show 63 - u + u = 63 by omega]
        have := (abs_le.1 h).1
        exact_mod_cast this) (by
        rw [div_le_iff₀ (by positivity)]
        push_cast
        rw [← pow_add, show 63 - u + u = 63 by omega]
        have := (abs_le.1 h).2
        exact_mod_cast this)
      rw [abs_mul, abs_of_pos (show (0 : ℤ) < 2 ^ u by positivity)]
      calc |roundEven ((n : ℚ) / 2 ^ u)| * 2 ^ u ≤ 2 ^ (63 - u) * 2 ^ u :=
            mul_le_mul_of_nonneg_right (abs_le.2 hb) (by positivity)
        _ = 2 ^ 63 := by rw [← pow_add, show 63 - u + u = 63 by omega]
    · constructor
      · intro hz
        exfalso
        have hr : roundEven ((n : ℚ) / 2 ^ u) = 0 := by
          rcases mul_eq_zero.1 hz with h | h
          · exact h
          · exact absurd h (by positivity)
        obtain ⟨f1, f2⟩ := roundEven_floor ((n : ℚ) / 2 ^ u)
        rw [hr] at f1 f2
        have hpu : (2 : ℚ) ^ u ≤ 2 ^ 11 := pow_le_pow_right₀ (by norm_num) hu1
        have hp0 : (0 : ℚ) < 2 ^ u := by positivity
        rcases lt_or_gt_of_ne hn0 with hneg | hpos
        · have h1 : (-1 : ℤ) ≤ ⌊(n : ℚ) / 2 ^ u⌋ := by omega
          rw [Int.le_floor, le_div_iff₀ hp0] at h1
          have h2 : (n : ℚ) < -(2 ^ 53) := by
            have : n < -(2 ^ 53) := by omega
            exact_mod_cast this
          push_cast at h1
          nlinarith
        · have h1 : ⌊(n : ℚ) / 2 ^ u⌋ < 1 := by omega
          rw [Int.floor_lt, div_lt_iff₀ hp0] at h1
          have h2 : (2 ^ 53 : ℚ) < n := by
            have : 2 ^ 53 < n := by omega
            exact_mod_cast this
          push_cast at h1
          nlinarith
      · rintro rfl
        exact absurd rfl hn0

theorem fl64_intCast (n : ℤ) (h : |n| ≤ 2 ^ 63) : fl64 (n : ℚ) = some (roundF64 n) := by
  obtain ⟨k, hk, hb, -⟩ := roundF64_intCast n h
  unfold fl64
  rw [if_pos]
  rw [hk, ← Int.cast_abs]
  calc ((|k| : ℤ) : ℚ) ≤ ((2 ^ 63 : ℤ) : ℚ) := by exact_mod_cast hb
    _ = (2 : ℚ) ^ (63 : ℤ) := by norm_num
    _ < _ := zpow_lt_zpow_right₀ (by norm_num) (by norm_num)

theorem value_of_isInt {l : NumLit} (h : l.isInt = true) : l.value = (l.intVal : ℚ) := by
  obtain ⟨neg, ip, frac, exp⟩ := l
  simp only [NumLit.isInt, Bool.and_eq_true, List.isEmpty_iff, Option.isNone_iff_eq_none] at h
  obtain ⟨rfl, rfl⟩ := h
  cases neg <;> simp [NumLit.value, NumLit.intVal, fracVal]

theorem ofInt_of_isInt {l : NumLit} (h : l.isInt = true) (h0 : l.intVal ≠ 0) : l = NumLit.ofInt l.intVal := by
  obtain ⟨neg, ip, frac, exp⟩ := l
  simp only [NumLit.isInt, Bool.and_eq_true, List.isEmpty_iff, Option.isNone_iff_eq_none] at h
  obtain ⟨rfl, rfl⟩ := h
  simp only [NumLit.intVal] at h0 ⊢
  cases neg <;> simp [NumLit.ofInt] at h0 ⊢
  omega

/-- The integer literal written for the float64 nearest to `n`. -/
def onWire (F : FloatFmt) (n : ℤ) : ℤ := (F.fmt (roundF64 (n : ℚ))).intVal

theorem onWire_spec (F : FloatFmt) (n : ℤ) (h : |n| ≤ 2 ^ 63) :
    F.fmt (roundF64 (n : ℚ)) = NumLit.ofInt (onWire F n) ∧ fl64 (onWire F n : ℚ) = fl64 n ∧ (onWire F n = 0 ↔ n = 0) ∧
    (|n| ≤ 2 ^ 53 → onWire F n = n) := by
  obtain ⟨k, hk, hb, hz⟩ := roundF64_intCast n h
  have hf := fl64_intCast n h
  have hi : (F.fmt (roundF64 (n : ℚ))).isInt = true := by
    rw [hk]
    exact F.plain k (lt_of_le_of_lt hb (by norm_num))
  have hF : IsF64 (roundF64 (n : ℚ)) := fl64_isF64 hf
  have hrt := F.roundtrip _ hF
  rw [value_of_isInt hi] at hrt
  have hzero : onWire F n = 0 ↔ n = 0 := by
    constructor
    · intro h0
      unfold onWire at h0
      rw [h0] at hrt
      have hz0 := isF64_int (n := 0) (by norm_num)
      unfold IsF64 at hz0
      rw [hz0] at hrt
      have := Option.some.inj hrt
      rw [hk] at this
      exact hz.1 (by exact_mod_cast this.symm)
    · rintro rfl
      have : roundF64 ((0 : ℤ) : ℚ) = ((0 : ℤ) : ℚ) := by
        rw [hk, hz.2 rfl]
      unfold onWire
      rw [this, F.int 0 (by norm_num), intVal_ofInt]
  refine ⟨?_, by rw [hf]; exact hrt, hzero, ?_⟩
  · by_cases h0 : onWire F n = 0
    · rw [h0]
      have := hzero.1 h0
      subst this
      have : roundF64 ((0 : ℤ) : ℚ) = ((0 : ℤ) : ℚ) := by rw [hk, hz.2 rfl]
      rw [this, F.int 0 (by norm_num)]
    · exact ofInt_of_isInt hi h0
  · intro hs
    have h1 := isF64_int hs
    unfold IsF64 at h1
    rw [hf] at h1
    unfold onWire
    rw [Option.some.inj h1, F.int n hs, intVal_ofInt]

end Verif
