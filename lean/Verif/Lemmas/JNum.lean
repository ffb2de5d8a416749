import Verif.Lemmas.JRead
/-! # Which integers arrive in an integer field -/
set_option linter.unusedSimpArgs false
namespace Verif.Ocppj
open Json Codec Decode Encode Trip

theorem roundEven_ge {x : ℚ} {m : ℤ} (hm : m % 2 = 0) (h : (m : ℚ) - 1 / 2 ≤ x) : m ≤ roundEven x := by
  have hfl : m - 1 ≤ ⌊x⌋ := by rw [Int.le_floor]; push_cast; linarith
  unfold roundEven
  simp only
  by_cases hf : ⌊x⌋ = m - 1
  · rw [hf]
    rw [if_neg (by push_cast; linarith)]
    split
    · omega
    · rw [if_neg (by omega)]; omega
  · have : m ≤ ⌊x⌋ := by omega
    repeat' split
    all_goals omega

theorem roundEven_le {x : ℚ} {m : ℤ} (hm : m % 2 = 0) (h : x ≤ m + 1 / 2) : roundEven x ≤ m := by
  have hfl : ⌊x⌋ ≤ m := by
    have := Int.floor_le x
    have h2 : (⌊x⌋ : ℚ) < ((m + 1 : ℤ) : ℚ) := by push_cast; linarith
    have : ⌊x⌋ < m + 1 := by exact_mod_cast h2
    omega
  unfold roundEven
  simp only
  by_cases hf : ⌊x⌋ = m
  · rw [hf]
    split
    · exact le_refl _
    · rw [if_neg (by linarith)]
  · have : ⌊x⌋ + 1 ≤ m := by omega
    repeat' split
    all_goals omega

theorem roundEven_lt {x : ℚ} {m : ℤ} (h : x < m - 1 / 2) : roundEven x < m := by
  have hfl : ⌊x⌋ < m := by rw [Int.floor_lt]; linarith
  unfold roundEven
  simp only
  by_cases hf : ⌊x⌋ = m - 1
  · rw [hf, if_pos (by push_cast; linarith)]; omega
  · repeat' split
    all_goals omega

theorem roundEven_gt {x : ℚ} {m : ℤ} (h : (m : ℚ) + 1 / 2 < x) : m < roundEven x := by
  have hfl : m ≤ ⌊x⌋ := by rw [Int.le_floor]; linarith
  unfold roundEven
  simp only
  by_cases hf : ⌊x⌋ = m
  · rw [hf, if_neg (by linarith), if_pos (by linarith)]; omega
  · repeat' split
    all_goals omega

/-- Integers between 2^62 and 2^63 are rounded to multiples of 1024. -/
theorem round_top {n : ℤ} (h1 : 2 ^ 62 ≤ |n|) (h2 : |n| < 2 ^ 63) : roundF64 (n : ℚ) = (roundEven ((n : ℚ) / 1024) : ℚ) * 1024 := by
  have habs : |(n : ℚ)| = ((n.natAbs : ℕ) : ℚ) := by
    rw [← Int.cast_abs, Int.abs_eq_natAbs]; rfl
  have h1' : 2 ^ 62 ≤ n.natAbs := by rw [Int.abs_eq_natAbs] at h1; exact_mod_cast h1
  have h2' : n.natAbs < 2 ^ 63 := by rw [Int.abs_eq_natAbs] at h2; exact_mod_cast h2
  have hlog : Nat.log 2 n.natAbs = 62 := by
    rw [Nat.log_eq_iff (by norm_num)]
    exact ⟨h1', h2'⟩
  have hu : ulpExp (n : ℚ) = 10 := by
    unfold ulpExp
    rw [habs, Int.log_natCast, hlog]
    norm_num
  unfold roundF64
  rw [hu, show (2 : ℚ) ^ (10 : ℤ) = 1024 by norm_num]

theorem round_small {n : ℤ} (h : |n| ≤ 2 ^ 62) : |roundF64 (n : ℚ)| ≤ 2 ^ 62 := by
  by_cases hn : n = 0
  · subst hn
    have := isF64_int (n := 0) (by norm_num)
    rw [isF64_round this]
    norm_num
  have habs : |(n : ℚ)| = ((n.natAbs : ℕ) : ℚ) := by
    rw [← Int.cast_abs, Int.abs_eq_natAbs]; rfl
  have hnb : n.natAbs ≤ 2 ^ 62 := by
    rw [Int.abs_eq_natAbs] at h
    exact_mod_cast h
  have hl2 : Nat.log 2 n.natAbs ≤ 62 := by
    by_contra hc
    have := (Nat.le_log_iff_pow_le (b := 2) (x := 63) (y := n.natAbs) (by norm_num) (by omega)).1 (by omega)
    norm_num at this
    omega
  by_cases hs : |n| ≤ 2 ^ 53
  · rw [isF64_round (isF64_int hs), ← Int.cast_abs]
    exact_mod_cast h
  have hna : 2 ^ 53 < n.natAbs := by
    rw [Int.abs_eq_natAbs] at hs
    exact_mod_cast not_le.1 hs
  have hl1 : 53 ≤ Nat.log 2 n.natAbs := (Nat.le_log_iff_pow_le (by norm_num) (by omega)).2 (by omega)
  obtain ⟨u, hu1, hu⟩ : ∃ u : ℕ, u ≤ 10 ∧ ulpExp (n : ℚ) = u := by
    refine ⟨Nat.log 2 n.natAbs - 52, by omega, ?_⟩
    unfold ulpExp
    rw [habs, Int.log_natCast]
    omega
  unfold roundF64
  rw [hu, zpow_natCast]
  have hb := roundEven_bound (x := (n : ℚ) / 2 ^ u) (b := 2 ^ (62 - u)) (by
    rw [le_div_iff₀ (by positivity)]
    push_cast
    rw [neg_mul, ← pow_add, show 62 - u + u = 62 by omega]
    have := (abs_le.1 h).1
    exact_mod_cast this) (by
    rw [div_le_iff₀ (by positivity)]
    push_cast
    rw [← pow_add, show 62 - u + u = 62 by omega]
    have := (abs_le.1 h).2
    exact_mod_cast this)
  rw [abs_mul, abs_of_pos (show (0 : ℚ) < 2 ^ u by positivity)]
  have hb' : |(roundEven ((n : ℚ) / 2 ^ u) : ℚ)| ≤ 2 ^ (62 - u) := by
    rw [← Int.cast_abs]
    exact_mod_cast abs_le.2 hb
  calc |(roundEven ((n : ℚ) / 2 ^ u) : ℚ)| * 2 ^ u ≤ 2 ^ (62 - u) * 2 ^ u := mul_le_mul_of_nonneg_right hb' (by positivity)
    _ = 2 ^ 62 := by rw [← pow_add, show 62 - u + u = 62 by omega]

/-- Which integers a 64 bit field takes. -/
theorem fits64 {l : NumLit} {n : ℤ} (h : l.value = (n : ℚ)) : (∃ k, IntFits 64 l k) ↔ |n| < 2 ^ 63 - 512 := by
  constructor
  · rintro ⟨k, h1, h2, h3, h4⟩
    unfold IsNum at h1
    rw [h] at h1
    have hk := fl64_eq h1
    norm_num at h2 h3 h4
    by_contra hc
    rw [not_lt] at hc
    norm_num at hc
    rcases le_total 0 n with h0 | h0
    · rw [abs_of_nonneg h0] at hc
      by_cases hb : 2 ^ 63 ≤ n
      · have := roundF64_ge (q := (n : ℚ)) (by exact_mod_cast hb)
        rw [hk] at this
        have : (2 : ℤ) ^ 63 ≤ k := by exact_mod_cast this
        norm_num at this
        omega
      · norm_num at hb
        rw [round_top (by rw [abs_of_nonneg h0]; norm_num; omega) (by rw [abs_of_nonneg h0]; norm_num; omega)] at hk
        have := roundEven_ge (x := (n : ℚ) / 1024) (m := 2 ^ 53) (by norm_num) (by
          rw [le_div_iff₀ (by norm_num)]
          have : (9223372036854775296 : ℚ) ≤ n := by exact_mod_cast hc
          norm_num; linarith)
        have h5 : roundEven ((n : ℚ) / 1024) * 1024 = k := by exact_mod_cast hk
        norm_num at this
        omega
    · rw [abs_of_nonpos h0] at hc
      by_cases hb : n ≤ -(2 ^ 63)
      · have := roundF64_le (q := (n : ℚ)) (by exact_mod_cast hb)
        rw [hk] at this
        have : k ≤ -(2 ^ 63) := by exact_mod_cast this
        norm_num at this
        omega
      · norm_num at hb
        rw [round_top (by rw [abs_of_nonpos h0]; norm_num; omega) (by rw [abs_of_nonpos h0]; norm_num; omega)] at hk
        have := roundEven_le (x := (n : ℚ) / 1024) (m := -(2 ^ 53)) (by norm_num) (by
          rw [div_le_iff₀ (by norm_num)]
          have : (n : ℚ) ≤ -9223372036854775296 := by
            have : n ≤ -9223372036854775296 := by omega
            exact_mod_cast this
          norm_num; linarith)
        have h5 : roundEven ((n : ℚ) / 1024) * 1024 = k := by exact_mod_cast hk
        norm_num at this
        omega
  · intro hn
    have h63 : |n| ≤ 2 ^ 63 := by norm_num at hn ⊢; omega
    obtain ⟨k, hk, hb, -⟩ := roundF64_intCast n h63
    have hl : IsNum l (k : ℚ) := by unfold IsNum; rw [h, fl64_intCast n h63, hk]
    have hlt : |k| < 2 ^ 63 := by
      by_cases h62 : |n| ≤ 2 ^ 62
      · have := round_small h62
        rw [hk, ← Int.cast_abs] at this
        have : |k| ≤ 2 ^ 62 := by exact_mod_cast this
        norm_num at this ⊢
        omega
      · have hr := round_top (n := n) (by omega) (by norm_num at hn ⊢; omega)
        rw [hk] at hr
        have h5 : k = roundEven ((n : ℚ) / 1024) * 1024 := by exact_mod_cast hr
        rw [abs_lt] at hn ⊢
        have g1 := roundEven_lt (x := (n : ℚ) / 1024) (m := 2 ^ 53) (by
          rw [div_lt_iff₀ (by norm_num)]
          have : (n : ℚ) < 9223372036854775296 := by
            have : n < 9223372036854775296 := by norm_num at hn; omega
            exact_mod_cast this
          norm_num; linarith)
        have g2 := roundEven_gt (x := (n : ℚ) / 1024) (m := -(2 ^ 53)) (by
          rw [lt_div_iff₀ (by norm_num)]
          have : (-9223372036854775296 : ℚ) < n := by
            have : -9223372036854775296 < n := by norm_num at hn; omega
            exact_mod_cast this
          norm_num; linarith)
        norm_num at g1 g2 ⊢
        omega
    rw [abs_lt] at hlt
    norm_num at hlt
    exact ⟨k, hl, by norm_num; omega, by norm_num; omega, by norm_num; omega⟩

/-- Which integers a 32 bit field takes. -/
theorem fits32 {l : NumLit} {n : ℤ} (h : l.value = (n : ℚ)) : (∃ k, IntFits 32 l k) ↔ -(2 ^ 31) ≤ n ∧ n < 2 ^ 31 := by
  constructor
  · rintro ⟨k, h1, h2, h3, -⟩
    have h64 : |n| < 2 ^ 63 - 512 := (fits64 h).1 ⟨k, h1, by norm_num at h2 ⊢; omega, by norm_num at h3 ⊢; omega, by norm_num at h2 ⊢; omega⟩
    unfold IsNum at h1
    rw [h] at h1
    by_cases hs : |n| ≤ 2 ^ 53
    · have := isF64_int hs
      unfold IsF64 at this
      rw [this] at h1
      have : n = k := by
        have := Option.some.inj h1
        exact_mod_cast this
      subst this
      exact ⟨h2, h3⟩
    · exfalso
      have hk := fl64_eq h1
      norm_num at h2 h3
      have hna : 2 ^ 53 < n.natAbs := by
        rw [Int.abs_eq_natAbs] at hs
        exact_mod_cast not_le.1 hs
      have hnb : n.natAbs < 2 ^ 63 := by
        rw [Int.abs_eq_natAbs] at h64
        omega
      have habs : |(n : ℚ)| = ((n.natAbs : ℕ) : ℚ) := by
        rw [← Int.cast_abs, Int.abs_eq_natAbs]; rfl
      have hl1 : 53 ≤ Nat.log 2 n.natAbs := (Nat.le_log_iff_pow_le (by norm_num) (by omega)).2 (by omega)
      obtain ⟨u, hu1, hu⟩ : ∃ u : ℕ, 2 ^ (u + 52) ≤ n.natAbs ∧ ulpExp (n : ℚ) = u := by
        refine ⟨Nat.log 2 n.natAbs - 52, ?_, ?_⟩
        · rw [show Nat.log 2 n.natAbs - 52 + 52 = Nat.log 2 n.natAbs by omega]
          exact Nat.pow_log_le_self 2 (by omega)
        · unfold ulpExp
          rw [habs, Int.log_natCast]
          omega
      unfold roundF64 at hk
      rw [hu, zpow_natCast] at hk
      have hk' : roundEven ((n : ℚ) / 2 ^ u) * 2 ^ u = k := by exact_mod_cast hk
      have hp1 : (1 : ℤ) ≤ 2 ^ u := by exact_mod_cast Nat.one_le_two_pow
      have hpq : (0 : ℚ) < 2 ^ u := by positivity
      rcases le_total 0 n with h0 | h0
      · have : (2 : ℤ) ^ 52 ≤ roundEven ((n : ℚ) / 2 ^ u) := by
          refine le_trans ?_ (roundEven_floor _).1
          rw [Int.le_floor, le_div_iff₀ hpq]
          push_cast
          rw [show (4503599627370496 : ℚ) = 2 ^ 52 by norm_num, ← pow_add, show 52 + u = u + 52 by omega]
          have h6 : ((2 ^ (u + 52) : ℕ) : ℚ) ≤ ((n.natAbs : ℕ) : ℚ) := by exact_mod_cast hu1
          rw [← habs, abs_of_nonneg (by exact_mod_cast h0)] at h6
          exact_mod_cast h6
        have : (2 : ℤ) ^ 52 * 1 ≤ roundEven ((n : ℚ) / 2 ^ u) * 2 ^ u := mul_le_mul this hp1 (by norm_num) (le_trans (by norm_num) this)
        norm_num at this
        omega
      · have : roundEven ((n : ℚ) / 2 ^ u) ≤ -(2 ^ 52) := by
          apply roundEven_le (by norm_num)
          have : (n : ℚ) / 2 ^ u ≤ -(2 ^ 52) := by
            rw [div_le_iff₀ hpq, neg_mul, ← pow_add, show 52 + u = u + 52 by omega]
            have h6 : ((2 ^ (u + 52) : ℕ) : ℚ) ≤ ((n.natAbs : ℕ) : ℚ) := by exact_mod_cast hu1
            rw [← habs, abs_of_nonpos (by exact_mod_cast h0)] at h6
            push_cast at h6
            linarith
          push_cast
          norm_num at this
          linarith
        have : roundEven ((n : ℚ) / 2 ^ u) * 2 ^ u ≤ -(2 ^ 52) * 1 := by nlinarith
        norm_num at this
        omega
  · rintro ⟨h2, h3⟩
    refine ⟨n, ?_, h2, h3, by norm_num at h2 ⊢; omega⟩
    unfold IsNum
    rw [h]
    exact isF64_int (by rw [abs_le]; norm_num at h2 h3 ⊢; omega)

end Verif.Ocppj
