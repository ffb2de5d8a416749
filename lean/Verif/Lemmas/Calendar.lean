import Mathlib.Tactic.IntervalCases
import Mathlib.Algebra.Order.Floor.Ring
import Verif.Spec.Calendar
import Verif.Lemmas.Time
import Verif.Lemmas.Json
/-! # The calendar of the model is the Gregorian calendar; time stamps -/
set_option linter.unusedSimpArgs false
namespace Verif.Cal
open GoTime

theorem leap_iff (y : Int) : isLeap y = true ↔ Leap y := by
  unfold isLeap Leap
  simp only [Bool.and_eq_true, beq_iff_eq, Bool.or_eq_true, bne_iff_ne, ne_eq]
  omega

theorem daysIn_eq (y : Int) {m : Nat} (h1 : 1 ≤ m) (h2 : m ≤ 12) : daysIn y m = monthDays y m := by
  have hl := leap_iff y
  unfold monthDays
  by_cases h : Leap y
  · have := hl.2 h
    interval_cases m <;> simp [daysIn, h, this]
  · have : isLeap y = false := by
      cases e : isLeap y
      · rfl
      · exact absurd (hl.1 e) h
    interval_cases m <;> simp [daysIn, h, this]

/-- The day number of a date. -/
def num (d : Date) : Int := dayNumber d.year d.month d.day

theorem num_epoch : num ⟨1970, 1, 1⟩ = 0 := by decide

theorem next_valid {d : Date} (h : d.Valid) : d.next.Valid := by
  obtain ⟨h1, h2, h3, h4⟩ := h
  unfold Date.next
  split
  · exact ⟨h1, h2, by simp, by simpa using by omega⟩
  · split
    · refine ⟨by simp, by simpa using by omega, by simp, ?_⟩
      simp only [monthDays]
      repeat' split
      all_goals omega
    · refine ⟨by simp, by simp, by simp, ?_⟩
      simp [monthDays]

theorem year_step (y : Int) : dayNumber (y + 1) 1 1 = dayNumber y 12 31 + 1 := by
  have hl := leap_iff y
  unfold dayNumber cumDays
  simp only [show ¬ (2 < 1) by decide, decide_false, Bool.and_false, show (2 < 12) by decide, decide_true, Bool.and_true]
  by_cases h : Leap y
  · rw [hl.2 h]
    unfold Leap at h
    simp only [if_true, Bool.false_eq_true, if_false]
    push_cast
    omega
  · have : isLeap y = false := by
      cases e : isLeap y
      · rfl
      · exact absurd (hl.1 e) h
    rw [this]
    unfold Leap at h
    simp only [Bool.false_eq_true, if_false]
    push_cast
    omega

theorem num_next {d : Date} (h : d.Valid) : num d.next = num d + 1 := by
  obtain ⟨y, m, e⟩ := d
  obtain ⟨h1, h2, h3, h4⟩ := h
  simp only at h1 h2 h3 h4
  have hl := leap_iff y
  unfold Date.next
  simp only
  split
  · simp only [num, dayNumber]; push_cast; omega
  · rename_i hlast
    have he : e = monthDays y m := by omega
    split
    · subst he
      simp only [num]
      by_cases h : Leap y
      · have hh := hl.2 h
        interval_cases m <;> simp [dayNumber, cumDays, monthDays, h, hh] <;> omega
      · have hh : isLeap y = false := by
          cases e : isLeap y
          · rfl
          · exact absurd (hl.1 e) h
        interval_cases m <;> simp [dayNumber, cumDays, monthDays, h, hh] <;> omega
    · have hm : m = 12 := by omega
      subst hm
      have he' : e = 31 := by rw [he]; simp [monthDays]
      subst he'
      exact year_step y

theorem dayOf_spec {n : Int} {d : Date} (h : DayOf n d) : d.Valid ∧ num d = n := by
  induction h with
  | epoch => exact ⟨by decide, num_epoch⟩
  | later _ ih => exact ⟨next_valid ih.1, by rw [num_next ih.1, ih.2]⟩
  | earlier _ hv ih => exact ⟨hv, by have := num_next hv; omega⟩

/-- The day before. -/
def prev (d : Date) : Date :=
  if 1 < d.day then ⟨d.year, d.month, d.day - 1⟩
  else if 1 < d.month then ⟨d.year, d.month - 1, monthDays d.year (d.month - 1)⟩
  else ⟨d.year - 1, 12, 31⟩

theorem prev_spec {d : Date} (h : d.Valid) : (prev d).Valid ∧ (prev d).next = d := by
  obtain ⟨y, m, e⟩ := d
  obtain ⟨h1, h2, h3, h4⟩ := h
  simp only at h1 h2 h3 h4
  unfold prev
  simp only
  split
  · refine ⟨⟨h1, h2, by simp only; omega, by simp only; omega⟩, ?_⟩
    unfold Date.next
    simp only
    rw [if_pos (by omega)]
    simp only [Date.mk.injEq, true_and]; omega
  · have he : e = 1 := by omega
    subst he
    split
    · have hp : 1 ≤ monthDays y (m - 1) := by
        unfold monthDays; repeat' split
        all_goals omega
      refine ⟨⟨by simp only; omega, by simp only; omega, hp, le_rfl⟩, ?_⟩
      unfold Date.next
      simp only [lt_irrefl, if_false]
      rw [if_pos (by omega)]
      simp only [Date.mk.injEq, true_and, and_true]; omega
    · have hm : m = 1 := by omega
      subst hm
      refine ⟨⟨by simp, by simp, by simp, by simp [monthDays]⟩, ?_⟩
      simp [Date.next, monthDays]

theorem num_zero {d : Date} (h : d.Valid) (e : num d = 0) : d = ⟨1970, 1, 1⟩ := by
  obtain ⟨y, m, k⟩ := d
  obtain ⟨h1, h2, h3, h4⟩ := h
  simp only at h1 h2 h3 h4
  have hk : k ≤ 31 := by
    refine le_trans h4 ?_
    unfold monthDays; repeat' split
    all_goals omega
  simp only [num, dayNumber] at e
  have hc : 0 ≤ cumDays m ∧ cumDays m ≤ 334 := by interval_cases m <;> simp [cumDays]
  have hb : (0 : Int) ≤ (if isLeap y && decide (2 < m) then 1 else 0) ∧ (if isLeap y && decide (2 < m) then 1 else 0) ≤ (1 : Int) := by
    split <;> simp
  have hy : y = 1969 ∨ y = 1970 := by omega
  have hl9 : isLeap 1969 = false := by decide
  rcases hy with rfl | rfl
  · simp only [hl9, Bool.false_and, Bool.false_eq_true, if_false] at e
    omega
  have hl : isLeap 1970 = false := by decide
  simp only [hl, Bool.false_and, Bool.false_eq_true, if_false] at e
  have hm : m = 1 := by
    interval_cases m <;> simp [cumDays] at e <;> omega
  subst hm
  simp only [cumDays] at e
  simp only [Date.mk.injEq, true_and]
  omega

theorem dayOf_num (n : Int) : ∀ d : Date, d.Valid → num d = n → DayOf n d := by
  induction n using Int.induction_on with
  | zero => intro d hv e; rw [num_zero hv e]; exact .epoch
  | succ i ih =>
    intro d hv e
    obtain ⟨h1, h2⟩ := prev_spec hv
    have := num_next h1
    rw [h2] at this
    have hd := ih (prev d) h1 (by omega)
    rw [← h2]
    exact .later hd
  | pred i ih =>
    intro d hv e
    have := num_next hv
    refine .earlier ?_ hv
    rw [show -(i : Int) - 1 + 1 = -(i : Int) by omega]
    exact ih d.next (next_valid hv) (by omega)

/-- The model's day number counts the days from 1970-01-01. -/
theorem dayOf_iff (n : Int) (d : Date) : DayOf n d ↔ d.Valid ∧ num d = n :=
  ⟨dayOf_spec, fun h => dayOf_num n d h.1 h.2⟩

end Verif.Cal
