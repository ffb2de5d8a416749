import Verif.Lemmas.Stamp
/-! # Time stamps that are written -/
set_option linter.unusedSimpArgs false
namespace Verif.Cal
open GoTime Json

theorem pad_two {n : Nat} (h : n < 100) : pad 2 n = two n := by
  have := takeNum_pad (w := 1) (n := n) (by omega) []
  have := (takeNum_two_inv this).2
  simpa using this

theorem pad_four {n : Nat} (h : n < 10000) : pad 4 n = four n := by
  have := takeNum_pad (w := 3) (n := n) (by omega) []
  have := (takeNum_four_inv this).2
  simpa using this

/-- The zone that is written for an offset. -/
def zoneOf (off : Int) : Option (Bool × Nat × Nat) :=
  if off = 0 then none else some (decide (off ≤ -60), off.natAbs / 3600, off.natAbs / 60 % 60)

theorem zoneText_eq {off : Int} (h : off.natAbs < 360000) : zoneText off = zoneSpelled (zoneOf off) := by
  unfold zoneText zoneOf
  split
  · rfl
  · simp only [zoneSpelled]
    rw [pad_two (by omega), pad_two (by omega), Nat.div_div_eq_div_mul]
    simp

theorem zoneSec_zoneOf (off : Int) : zoneSec (zoneOf off) = 60 * off.tdiv 60 := by
  unfold zoneOf
  split
  · subst off; rfl
  · simp only [zoneSec]
    have e : off < 0 → off.tdiv 60 = -((off.natAbs / 60 : Nat) : Int) := by
      intro hn
      conv_lhs => rw [show off = -(off.natAbs : Int) by omega]
      rw [Int.neg_tdiv, Int.tdiv_eq_ediv_of_nonneg (by omega)]
      push_cast
      rfl
    by_cases h : off ≤ -60
    · simp only [h, decide_true, if_true]
      rw [e (by omega)]
      omega
    · simp only [h, decide_false, Bool.false_eq_true, if_false]
      by_cases h0 : 0 ≤ off
      · rw [Int.tdiv_eq_ediv_of_nonneg h0]; omega
      · rw [e (by omega)]
        omega

/-- The parts of the stamp that is written. -/
def stampOf (t : GoTime) : Stamp :=
  ⟨t.date.1.toNat, t.date.2.1, t.date.2.2, t.secOfDay / 3600, t.secOfDay / 60 % 60, t.secOfDay % 60, [], zoneOf t.off⟩

theorem date_valid (t : GoTime) : (⟨t.date.1, t.date.2.1, t.date.2.2⟩ : Date).Valid ∧
    DayOf ((t.sec + t.off) / 86400) ⟨t.date.1, t.date.2.1, t.date.2.2⟩ := by
  have hc := civil_ok (t.localSec / 86400)
  have hv : (⟨t.date.1, t.date.2.1, t.date.2.2⟩ : Date).Valid :=
    ⟨hc.2.1, hc.2.2.1, hc.2.2.2.1, by
      have := daysIn_eq t.date.1 hc.2.1 hc.2.2.1
      exact le_of_le_of_eq hc.2.2.2.2 this⟩
  exact ⟨hv, (dayOf_iff _ _).2 ⟨hv, hc.1⟩⟩

/-- The text of a time, part by part. -/
theorem format_eq {t : GoTime} (h0 : 0 ≤ t.year) (h1 : t.year ≤ 9999) (ho : t.off.natAbs < 360000) :
    t.format = four (stampOf t).year ++ ['-'] ++ two (stampOf t).month ++ ['-'] ++ two (stampOf t).day ++ ['T'] ++
      two (stampOf t).hour ++ [':'] ++ two (stampOf t).min ++ [':'] ++ two (stampOf t).sec ++ [] ++ zoneSpelled (stampOf t).zone := by
  have hv := (date_valid t).1
  obtain ⟨w1, w2, w3, w4⟩ := hv
  have hd31 : t.date.2.2 ≤ 31 := by
    refine le_trans w4 ?_
    unfold monthDays; repeat' split
    all_goals omega
  have hsod : t.secOfDay < 86400 := by unfold secOfDay; omega
  simp only [format, clockText, stampOf]
  rw [zoneText_eq ho]
  simp only [year] at h0 h1
  simp only at w1 w2 w3 w4
  generalize t.date = c at *
  obtain ⟨y, m, d⟩ := c
  simp only at *
  rw [if_neg (by omega : ¬ y < 0), pad_four (by omega), pad_two (by omega), pad_two (by omega), pad_two (by omega), pad_two (by omega),
    pad_two (by omega), show y.natAbs = y.toNat by omega]
  simp [List.append_assoc]

/-- Years of more than four digits are not read back. -/
theorem takeNum_long : ∀ (k acc : Nat) (ds : List (Fin 10)) (r : Text), k ≤ ds.length →
    ∃ n, takeNum k acc (ds.map digitChar ++ r) = some (n, (ds.drop k).map digitChar ++ r)
  | 0, acc, ds, r, _ => ⟨acc, by simp [takeNum]⟩
  | k + 1, acc, d :: ds, r, h => by
    obtain ⟨n, hn⟩ := takeNum_long k (acc * 10 + d.val) ds r (by simpa using h)
    exact ⟨n, by simp [takeNum, charDigit_digitChar, hn]⟩

theorem natDigits_long {w n : Nat} (h : 10 ^ w ≤ n) : w < (natDigits n).length := by
  induction w generalizing n with
  | zero => exact List.length_pos_iff.2 (natDigits_ne_nil n)
  | succ w ih =>
    rw [natDigits.eq_def]
    rw [pow_succ] at h
    have h10 : ¬ n < 10 := by have : 0 < 10 ^ w := by positivity
                              omega
    rw [dif_neg h10]
    have := ih (n := n / 10) (by omega)
    simp; omega

theorem pad_long {w n : Nat} (h : 10 ^ w ≤ n) (acc : Nat) (r : Text) :
    ∃ a d u, takeNum w acc (pad w n ++ r) = some (a, digitChar d :: u) := by
  have hl := natDigits_long h
  rw [pad_eq, show w - (natDigits n).length = 0 by omega]
  simp only [List.replicate_zero, List.nil_append]
  obtain ⟨a, ha⟩ := takeNum_long w acc (natDigits n) r (by omega)
  have : (natDigits n).drop w ≠ [] := by
    intro e
    have := congrArg List.length e
    simp at this
    omega
  obtain ⟨d, u, hu⟩ := List.exists_cons_of_ne_nil this
  rw [hu] at ha
  exact ⟨a, d, u.map digitChar ++ r, ha⟩

theorem expect_digit {c : Char} (h : ∀ d, digitChar d ≠ c) (d : Fin 10) (u : Text) : expect c (digitChar d :: u) = none := by
  simp only [expect]
  rw [if_neg (fun e => h d e.symm)]

theorem parse_format_year {t : GoTime} (h : ¬ (0 ≤ t.year ∧ t.year ≤ 9999)) : parseTime t.format = none := by
  simp only [year] at h
  have e : ∃ rest, t.format = (if t.date.1 < 0 then ['-'] else []) ++ (pad 4 t.date.1.natAbs ++ rest) := by
    simp only [format, clockText]
    exact ⟨_, by simp only [List.append_assoc]; rfl⟩
  obtain ⟨rest, e⟩ := e
  rw [e]
  by_cases hn : t.date.1 < 0
  · rw [if_pos hn]
    rfl
  · rw [if_neg hn, List.nil_append]
    obtain ⟨a, d, u, h1⟩ := pad_long (w := 4) (n := t.date.1.natAbs) (by omega) 0 rest
    simp only [parseTime, h1, Option.bind_eq_bind, Option.bind_some]
    rw [expect_digit (by decide)]
    rfl

theorem parseZone_far {off : Int} (h : 90000 ≤ off.natAbs) : parseZone (zoneText off) = none := by
  unfold zoneText
  rw [if_neg (by omega)]
  simp only
  have hs : ((if off ≤ -60 then '-' else '+') = '+' ∨ (if off ≤ -60 then '-' else '+') = '-') := by
    split <;> simp
  generalize (if off ≤ -60 then '-' else '+') = c at hs
  have hz : c ≠ 'Z' := by rcases hs with rfl | rfl <;> decide
  have hu : ∀ u, parseZone (c :: u) = match takeNum 2 0 u with
      | none => none
      | some (h, u₁) =>
        match expect ':' u₁ with
        | none => none
        | some u₂ =>
          match takeNum 2 0 u₂ with
          | some (m, []) =>
            if h ≤ 24 ∧ m ≤ 60 then
              some (if c = '-' then -(((h * 60 + m) * 60 : Nat) : Int) else (((h * 60 + m) * 60 : Nat) : Int))
            else none
          | _ => none := by
    intro u
    rcases hs with rfl | rfl <;> rfl
  rw [hu]
  by_cases h100 : off.natAbs / 60 / 60 < 100
  · rw [pad_two h100, takeNum_two h100]
    simp only [expect_cons]
    rw [pad_two (by omega)]
    have := takeNum_two (n := off.natAbs / 60 % 60) (by omega) []
    simp only [List.append_nil] at this
    rw [this]
    simp only
    rw [if_neg (by omega)]
  · obtain ⟨a, d, u, h1⟩ := pad_long (w := 2) (n := off.natAbs / 60 / 60) (by omega) 0 (':' :: pad 2 (off.natAbs / 60 % 60))
    rw [h1]
    simp only
    rw [expect_digit (by decide)]

theorem parse_format_zone {t : GoTime} (h : 90000 ≤ t.off.natAbs) : parseTime t.format = none := by
  by_cases hy : 0 ≤ t.year ∧ t.year ≤ 9999
  · have hc := (date_valid t).1
    obtain ⟨w1, w2, w3, w4⟩ := hc
    have hd31 : t.date.2.2 ≤ 31 := by
      refine le_trans w4 ?_
      unfold monthDays; repeat' split
      all_goals omega
    have hsod : t.secOfDay < 86400 := by unfold secOfDay; omega
    simp only [format, clockText]
    obtain ⟨h0, h1⟩ := hy
    simp only [year] at h0 h1
    simp only at w1 w2 w3 w4
    generalize t.date = c at *
    obtain ⟨y, m, d⟩ := c
    simp only at *
    rw [if_neg (by omega : ¬ y < 0), pad_four (by omega), pad_two (n := m) (by omega), pad_two (n := d) (by omega),
      pad_two (n := t.secOfDay / 3600) (by omega), pad_two (n := t.secOfDay / 60 % 60) (by omega), pad_two (n := t.secOfDay % 60) (by omega)]
    simp only [parseTime, List.append_assoc, List.cons_append, List.nil_append]
    simp only [takeNum_four (show y.natAbs < 10000 by omega), takeNum_two (show m < 100 by omega), takeNum_two (show d < 100 by omega),
      takeHour_text (show t.secOfDay / 3600 < 100 by omega) (.inl rfl), takeNum_two (show t.secOfDay / 60 % 60 < 100 by omega),
      takeNum_two (show t.secOfDay % 60 < 100 by omega), expect_cons, Option.bind_eq_bind, Option.bind_some, parseFraction_zone,
      parseZone_far h, Option.bind_none]
  · exact parse_format_year hy

/-- The time that arrives for a time that is sent: the zone is cut to whole minutes. -/
def arrived (t : GoTime) : GoTime := ⟨t.sec + t.off - 60 * t.off.tdiv 60, 0, 60 * t.off.tdiv 60⟩

theorem parse_format_some {t : GoTime} (h0 : 0 ≤ t.year) (h1 : t.year ≤ 9999) (ho : t.off.natAbs < 90000) :
    parseTime t.format = some (arrived t) := by
  rw [parseTime_iff]
  obtain ⟨hv, hd⟩ := date_valid t
  have hsod : t.secOfDay < 86400 := by unfold secOfDay; omega
  have hy : ((t.date.1.toNat : Nat) : Int) = t.date.1 := by simp only [year] at h0; omega
  refine ⟨stampOf t, ⟨?_, ?_, ?_, ?_, ?_, ?_⟩, ⟨two (stampOf t).hour, [], .inl rfl, .inl ⟨rfl, rfl⟩, format_eq h0 h1 (by omega)⟩,
    (t.sec + t.off) / 86400, ?_, ?_, ?_, ?_⟩
  · simp only [stampOf, year] at *; omega
  · simp only [stampOf]; rw [hy]; exact hv
  · simp only [stampOf]; omega
  · simp only [stampOf]; omega
  · simp only [stampOf]; omega
  · intro neg a b e
    simp only [stampOf, zoneOf] at e
    split at e
    · cases e
    · simp only [Option.some.injEq, Prod.mk.injEq] at e
      omega
  · simp only [stampOf]; rw [hy]; exact hd
  · rw [offset_eq]
    simp only [stampOf, zoneSec_zoneOf, arrived]
    have : (t.secOfDay : Int) = (t.sec + t.off) % 86400 := by unfold secOfDay localSec; omega
    omega
  · simp [stampOf, arrived, fracVal]
  · rw [offset_eq]
    simp only [stampOf, zoneSec_zoneOf, arrived]

/-- What the reader makes of the text written for a time. -/
theorem parse_format_iff (t t' : GoTime) :
    parseTime t.format = some t' ↔ (0 ≤ t.year ∧ t.year ≤ 9999 ∧ t.off.natAbs < 90000) ∧ t' = arrived t := by
  by_cases hy : 0 ≤ t.year ∧ t.year ≤ 9999
  · by_cases ho : t.off.natAbs < 90000
    · rw [parse_format_some hy.1 hy.2 ho]
      simp only [Option.some.injEq, hy.1, hy.2, ho, true_and]
      exact eq_comm
    · rw [parse_format_zone (by omega)]
      simp [ho]
  · rw [parse_format_year hy]
    simp only [reduceCtorEq, false_iff]
    exact fun h => hy ⟨h.1.1, h.1.2.1⟩

end Verif.Cal
