import Verif.Spec.JRead
import Verif.Props.Ints
/-! # Reading payloads that are valid against their schema files -/
set_option linter.unusedSimpArgs false
namespace Verif.Ocppj
open Json Codec Decode Encode Trip

/-! ### Numbers -/

theorem roundF64_ge {q : ℚ} (h : 2 ^ 63 ≤ q) : 2 ^ 63 ≤ roundF64 q := by
  have hq0 : (0 : ℚ) < q := lt_of_lt_of_le (by norm_num) h
  have habs : |q| = q := abs_of_pos hq0
  have hlog : (2 : ℚ) ^ (Int.log 2 q) ≤ q := by
    have := Int.zpow_log_le_self (b := 2) (r := q) (by norm_num) hq0
    exact_mod_cast this
  have hl63 : 63 ≤ Int.log 2 q := by
    have h1 : ((2 : ℕ) : ℚ) ^ (63 : ℤ) ≤ q := by
      have : ((2 : ℕ) : ℚ) ^ (63 : ℤ) = 2 ^ 63 := by norm_num
      rw [this]; exact h
    exact (Int.zpow_le_iff_le_log (by norm_num) hq0).1 h1
  have hu : ulpExp q = Int.log 2 q - 52 := by unfold ulpExp; rw [habs]; omega
  unfold roundF64
  rw [hu]
  have hfl : (2 : ℤ) ^ 52 ≤ roundEven (q / 2 ^ (Int.log 2 q - 52)) := by
    refine le_trans ?_ (roundEven_floor _).1
    rw [Int.le_floor, le_div_iff₀ (by positivity)]
    push_cast
    rw [show (4503599627370496 : ℚ) = 2 ^ (52 : ℤ) by norm_num, ← zpow_add₀ (by norm_num)]
    rw [show (52 : ℤ) + (Int.log 2 q - 52) = Int.log 2 q by ring]
    exact hlog
  calc (2 : ℚ) ^ 63 = 2 ^ (52 : ℕ) * 2 ^ (11 : ℤ) := by norm_num
    _ ≤ (roundEven (q / 2 ^ (Int.log 2 q - 52)) : ℚ) * 2 ^ (Int.log 2 q - 52) := by
      apply mul_le_mul
      · exact_mod_cast hfl
      · exact zpow_le_zpow_right₀ (by norm_num) (by omega)
      · positivity
      · have : (0 : ℤ) ≤ roundEven (q / 2 ^ (Int.log 2 q - 52)) := le_trans (by positivity) hfl
        exact_mod_cast this

theorem roundF64_le {q : ℚ} (h : q ≤ -(2 ^ 63)) : roundF64 q ≤ -(2 ^ 63) := by
  have hq0 : q < 0 := lt_of_le_of_lt h (by norm_num)
  have habs : |q| = -q := abs_of_neg hq0
  have hn : (0 : ℚ) < -q := by linarith
  have hlog : (2 : ℚ) ^ (Int.log 2 (-q)) ≤ -q := by
    have := Int.zpow_log_le_self (b := 2) (r := -q) (by norm_num) hn
    exact_mod_cast this
  have hl63 : 63 ≤ Int.log 2 (-q) := by
    have h1 : ((2 : ℕ) : ℚ) ^ (63 : ℤ) ≤ -q := by
      have : ((2 : ℕ) : ℚ) ^ (63 : ℤ) = 2 ^ 63 := by norm_num
      rw [this]; linarith
    exact (Int.zpow_le_iff_le_log (by norm_num) hn).1 h1
  have hu : ulpExp q = Int.log 2 (-q) - 52 := by unfold ulpExp; rw [habs]; omega
  unfold roundF64
  rw [hu]
  have hp : (0 : ℚ) < 2 ^ (Int.log 2 (-q) - 52) := by positivity
  have hx : q / 2 ^ (Int.log 2 (-q) - 52) ≤ ((-(2 ^ 52) : ℤ) : ℚ) := by
    rw [div_le_iff₀ hp]
    push_cast
    rw [neg_mul, show (4503599627370496 : ℚ) = 2 ^ (52 : ℤ) by norm_num, ← zpow_add₀ (by norm_num)]
    rw [show (52 : ℤ) + (Int.log 2 (-q) - 52) = Int.log 2 (-q) by ring]
    linarith
  have hfl : roundEven (q / 2 ^ (Int.log 2 (-q) - 52)) ≤ -(2 ^ 52) := by
    by_cases he : q / 2 ^ (Int.log 2 (-q) - 52) = ((-(2 ^ 52) : ℤ) : ℚ)
    · rw [he, roundEven_int]
    · refine le_trans (roundEven_floor _).2 ?_
      have : ⌊q / 2 ^ (Int.log 2 (-q) - 52)⌋ < -(2 ^ 52) := by
        rw [Int.floor_lt]
        exact lt_of_le_of_ne hx he
      omega
  have hfq : (roundEven (q / 2 ^ (Int.log 2 (-q) - 52)) : ℚ) ≤ -(2 ^ 52) := by exact_mod_cast hfl
  have h11 : (2 : ℚ) ^ (11 : ℤ) ≤ 2 ^ (Int.log 2 (-q) - 52) := zpow_le_zpow_right₀ (by norm_num) (by omega)
  have : (2 : ℚ) ^ 63 = 2 ^ 52 * 2 ^ (11 : ℤ) := by norm_num
  rw [this]
  nlinarith

theorem fl64_eq {q r : ℚ} (h : fl64 q = some r) : roundF64 q = r := by
  unfold fl64 at h
  split at h
  · exact Option.some.inj h
  · cases h

theorem isF64_round {q : ℚ} (h : IsF64 q) : roundF64 q = q := fl64_eq h

/-- Of which numbers an integer field is filled. -/
theorem int_read (F : FloatFmt) {b : Nat} (hb : b = 32 ∨ b = 64) {l : NumLit} {q : ℚ} (hl : IsNum l q) (n : ℤ) :
    ((F.fmt q).isInt = true ∧ -(2 ^ (b - 1)) ≤ (F.fmt q).intVal ∧ (F.fmt q).intVal < 2 ^ (b - 1)) ∧ n = (F.fmt q).intVal ↔
      ∃ k, IntFits b l k ∧ n = onWire F k := by
  have hq : IsF64 q := fl64_isF64 hl
  have hp : (2 : ℤ) ^ (b - 1) ≤ 2 ^ 63 := by rcases hb with rfl | rfl <;> norm_num
  have hc1 : ((-(2 ^ 63) : ℤ) : ℚ) = -(2 ^ 63) := by norm_num
  have hc2 : ((2 ^ 63 : ℤ) : ℚ) = 2 ^ 63 := by norm_num
  constructor
  · rintro ⟨⟨hi, h1, h2⟩, rfl⟩
    have h63 : |(F.fmt q).intVal| ≤ 2 ^ 63 := by rw [abs_le]; constructor <;> linarith
    obtain ⟨k, rfl, h3, h4⟩ := int_of_fmt hq hi h63
    have hw : onWire F k = (F.fmt (k : ℚ)).intVal := by unfold onWire; rw [isF64_round hq]
    obtain ⟨k', hk', hkb, -⟩ := roundF64_intCast _ h63
    have hkk : k' = k := by
      have := fl64_eq h3
      rw [hk'] at this
      exact_mod_cast this
    subst hkk
    have hne : k' ≠ -(2 ^ 63) := by
      rintro rfl
      rw [hc1, F.edge.2, intVal_ofInt] at h1
      have : (-(2 ^ 63) : ℤ) ≤ -9223372036854776000 := by linarith
      norm_num at this
    have hne' : k' ≠ 2 ^ 63 := by
      rintro rfl
      rw [hc2, F.edge.1, intVal_ofInt] at h2
      have : (9223372036854776000 : ℤ) < 2 ^ 63 := by linarith
      norm_num at this
    have hr : -(2 ^ (b - 1)) ≤ k' ∧ k' < 2 ^ (b - 1) := by
      rcases hb with rfl | rfl
      · have hn : |(F.fmt (k' : ℚ)).intVal| ≤ 2 ^ 53 := by
          rw [abs_le]
          norm_num at h1 h2 ⊢
          constructor <;> linarith
        have := isF64_int hn
        unfold IsF64 at this
        rw [this] at h3
        have : (F.fmt (k' : ℚ)).intVal = k' := by
          have := Option.some.inj h3
          exact_mod_cast this
        rw [this] at h1 h2
        exact ⟨h1, h2⟩
      · rw [abs_le] at hkb
        norm_num at hkb hne hne' ⊢
        omega
    exact ⟨k', ⟨hl, hr.1, hr.2, hne⟩, hw.symm⟩
  · rintro ⟨k, ⟨h1, h2, h3, h4⟩, rfl⟩
    have hqk : q = k := by
      unfold IsNum at hl h1
      rw [hl] at h1
      exact Option.some.inj h1
    subst hqk
    have hw : onWire F k = (F.fmt (k : ℚ)).intVal := by unfold onWire; rw [isF64_round hq]
    have hi := F.plain k (by rw [abs_lt]; constructor <;> linarith)
    have hrt := F.roundtrip _ hq
    rw [value_of_isInt hi] at hrt
    refine ⟨⟨hi, ?_⟩, hw⟩
    rcases hb with rfl | rfl
    · rw [F.int k (by rw [abs_le]; norm_num at h2 h3 ⊢; constructor <;> linarith), intVal_ofInt]
      exact ⟨h2, h3⟩
    · have hr := fl64_eq hrt
      norm_num at h2 h3 h4
      constructor
      · by_contra hc
        have : ((F.fmt (k : ℚ)).intVal : ℚ) ≤ -(2 ^ 63) := by
          rw [← hc1]
          norm_num at hc ⊢
          exact_mod_cast hc.le
        have := roundF64_le this
        rw [hr, ← hc1] at this
        have : k ≤ -(2 ^ 63) := by exact_mod_cast this
        norm_num at this
        omega
      · by_contra hc
        have : (2 ^ 63 : ℚ) ≤ ((F.fmt (k : ℚ)).intVal : ℚ) := by
          rw [← hc2]
          norm_num at hc ⊢
          exact_mod_cast hc
        have := roundF64_ge this
        rw [hr, ← hc2] at this
        have : 2 ^ 63 ≤ k := by exact_mod_cast this
        norm_num at this
        omega

end Verif.Ocppj
