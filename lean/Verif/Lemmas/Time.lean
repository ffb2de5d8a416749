import Verif.Model.Time
import Verif.Lemmas.Json2
/-! Lemmas: RFC 3339 round trip. -/
set_option linter.unusedSimpArgs false
namespace Verif.GoTime
open Json (digitChar natDigits takeDigits charDigit)

theorem leap_count (Y : Int) : (Y + 3) / 4 - (Y + 99) / 100 + (Y + 399) / 400 +
    (if isLeap Y = true then 1 else 0) = Y / 4 - Y / 100 + Y / 400 + 1 := by
  have a4 : (Y + 3) / 4 = Y / 4 + (if Y % 4 = 0 then 0 else 1) := by split <;> omega
  have a100 : (Y + 99) / 100 = Y / 100 + (if Y % 100 = 0 then 0 else 1) := by split <;> omega
  have a400 : (Y + 399) / 400 = Y / 400 + (if Y % 400 = 0 then 0 else 1) := by split <;> omega
  rw [a4, a100, a400]
  by_cases h4 : Y % 4 = 0
  · by_cases h100 : Y % 100 = 0
    · by_cases h400 : Y % 400 = 0
      · simp [isLeap, h4, h100, h400]
      · simp [isLeap, h4, h100, h400]; omega
    · have h400 : ¬ Y % 400 = 0 := by omega
      simp [isLeap, h4, h100, h400]; omega
  · have h100 : ¬ Y % 100 = 0 := by omega
    have h400 : ¬ Y % 400 = 0 := by omega
    simp [isLeap, h4, h100, h400]; omega

theorem leap_next {E : Int} {c q a : Nat} (hc : c ≤ 3) (hq : q ≤ 24) (ha : a ≤ 3) :
    isLeap (400 * E + 100 * (c : Int) + 4 * (q : Int) + (a : Int) + 1) = true ↔ (a = 3 ∧ (q = 24 → c = 3)) := by
  simp only [isLeap, Bool.and_eq_true, Bool.or_eq_true, beq_iff_eq, bne_iff_ne, ne_eq]
  omega

/-- Everything about the month and day, with the year `Y` starting in March. -/
theorem month_ok {Y n : Int} {doy mp : Nat} (hdoy : doy ≤ 365) (hmp : (5 * doy + 2) / 153 = mp)
    (hl : doy = 365 → isLeap (Y + 1) = true)
    (hn : n = 365 * Y + Y / 4 - Y / 100 + Y / 400 + doy - 719468) :
    dayNumber (Y + (if (if mp < 10 then mp + 3 else mp - 9) ≤ 2 then 1 else 0))
      (if mp < 10 then mp + 3 else mp - 9) (doy - (153 * mp + 2) / 5 + 1) = n ∧
    1 ≤ (if mp < 10 then mp + 3 else mp - 9) ∧ (if mp < 10 then mp + 3 else mp - 9) ≤ 12 ∧
    1 ≤ (doy - (153 * mp + 2) / 5 + 1) ∧
    (doy - (153 * mp + 2) / 5 + 1) ≤ daysIn (Y + (if (if mp < 10 then mp + 3 else mp - 9) ≤ 2 then 1 else 0))
      (if mp < 10 then mp + 3 else mp - 9) := by
  have h6 : mp ≤ 11 := by omega
  have cases : mp = 0 ∨ mp = 1 ∨ mp = 2 ∨ mp = 3 ∨ mp = 4 ∨ mp = 5 ∨ mp = 6 ∨ mp = 7 ∨ mp = 8 ∨ mp = 9 ∨
    mp = 10 ∨ mp = 11 := by omega
  have m4 := leap_count Y
  generalize hb : (if isLeap Y = true then (1 : Int) else 0) = b at m4
  have m4' : ∀ x y, x + b + y = n ↔ x + b + y = n := fun _ _ => Iff.rfl
  rcases cases with rfl | rfl | rfl | rfl | rfl | rfl | rfl | rfl | rfl | rfl | rfl | rfl
  all_goals
    simp only [Nat.reduceMul, Nat.reduceAdd, Nat.reduceDiv, Nat.reduceLT, Nat.reduceSub, Nat.reduceLeDiff,
      if_true, if_false, dayNumber, cumDays, daysIn, Int.add_zero, Bool.and_true, Bool.and_false, decide_true,
      decide_false, Bool.false_eq_true, hb]
  iterate 10 refine ⟨by omega, by first | exact True.intro | omega, by first | exact True.intro | omega, by first | exact True.intro | omega, by first | exact True.intro | omega⟩
  · have p4 : (Y + 1 + 3) / 4 = Y / 4 + 1 := by omega
    have p100 : (Y + 1 + 99) / 100 = Y / 100 + 1 := by omega
    have p400 : (Y + 1 + 399) / 400 = Y / 400 + 1 := by omega
    rw [p4, p100, p400]
    exact ⟨by omega, by first | exact True.intro | omega, by first | exact True.intro | omega, by first | exact True.intro | omega, by first | exact True.intro | omega⟩
  · have p4 : (Y + 1 + 3) / 4 = Y / 4 + 1 := by omega
    have p100 : (Y + 1 + 99) / 100 = Y / 100 + 1 := by omega
    have p400 : (Y + 1 + 399) / 400 = Y / 400 + 1 := by omega
    rw [p4, p100, p400]
    refine ⟨by omega, by first | exact True.intro | omega, by first | exact True.intro | omega, by first | exact True.intro | omega, ?_⟩
    by_cases hl' : isLeap (Y + 1) = true
    · simp only [hl', if_true]; omega
    · have : doy ≠ 365 := fun h => hl' (hl h)
      simp only [hl', Bool.false_eq_true, if_false]
      omega

theorem civil_ok (n : Int) : dayNumber (civil n).1 (civil n).2.1 (civil n).2.2 = n ∧
    1 ≤ (civil n).2.1 ∧ (civil n).2.1 ≤ 12 ∧ 1 ≤ (civil n).2.2 ∧
    (civil n).2.2 ≤ daysIn (civil n).1 (civil n).2.1 := by
  unfold civil
  simp only
  generalize hz : n + 719468 = z
  generalize hE : z / 146097 = E
  generalize hdoe : (z % 146097).toNat = doe
  generalize hc : min (doe / 36524) 3 = c
  generalize hr1 : doe - 36524 * c = r1
  generalize hq : r1 / 1461 = q
  generalize hr2 : r1 - 1461 * q = r2
  generalize ha : min (r2 / 365) 3 = a
  generalize hdoy : r2 - 365 * a = doy
  have h1 : z = 146097 * E + doe := by omega
  have h2 : doe < 146097 := by omega
  have h3 : c ≤ 3 ∧ doe = 36524 * c + r1 ∧ r1 ≤ 36524 ∧ (c < 3 → r1 < 36524) := by omega
  have h4 : q ≤ 24 ∧ (r1 = 1461 * q + r2) ∧ r2 < 1461 := by omega
  have h5 : a ≤ 3 ∧ r2 = 365 * a + doy ∧ doy ≤ 365 ∧ (a < 3 → doy < 365) := by omega
  have h7 : doy = 365 → a = 3 ∧ (q = 24 → c = 3) := by omega
  have hl := leap_next (E := E) h3.1 h4.1 h5.1
  generalize hY : 400 * E + 100 * (c : Int) + 4 * (q : Int) + (a : Int) = Y at *
  have y4 : Y / 4 = 100 * E + 25 * c + q := by omega
  have y100 : Y / 100 = 4 * E + c := by omega
  have y400 : Y / 400 = E := by omega
  refine month_ok h5.2.2.1 rfl (fun h => hl.2 (h7 h)) ?_
  rw [y4, y100, y400]
  omega

/-! ### Digits -/

theorem takeNum_digits (ds : List (Fin 10)) (acc : Nat) (r : Text) :
    takeNum ds.length acc (ds.map digitChar ++ r) = some (Json.digitsVal acc ds, r) := by
  induction ds generalizing acc with
  | nil => rfl
  | cons d ds ih => simp [takeNum, Json.charDigit_digitChar, Json.digitsVal, ih]

theorem digitsVal_zeros (k : Nat) (ds : List (Fin 10)) :
    Json.digitsVal 0 (List.replicate k 0 ++ ds) = Json.digitsVal 0 ds := by
  induction k with
  | zero => rfl
  | succ k ih => simp [List.replicate_succ, Json.digitsVal, ih]

theorem natDigits_length (n w : Nat) (h : n < 10 ^ (w + 1)) : (natDigits n).length ≤ w + 1 := by
  induction w generalizing n with
  | zero =>
    rw [natDigits.eq_def]
    have : n < 10 := by simpa using h
    simp [this]
  | succ w ih =>
    rw [natDigits.eq_def]
    split
    · simp
    · have := ih (n / 10) (by rw [Nat.div_lt_iff_lt_mul (by norm_num)]; rw [← pow_succ]; exact h)
      simp
      omega

theorem pad_eq (w n : Nat) : pad w n = (List.replicate (w - (natDigits n).length) 0 ++ natDigits n).map digitChar := by
  simp only [pad, List.map_append, List.map_replicate]
  rfl

theorem takeNum_pad {w n : Nat} (h : n < 10 ^ (w + 1)) (r : Text) :
    takeNum (w + 1) 0 (pad (w + 1) n ++ r) = some (n, r) := by
  have hl := natDigits_length n w h
  have := takeNum_digits (List.replicate (w + 1 - (natDigits n).length) 0 ++ natDigits n) 0 r
  rw [digitsVal_zeros, Json.digitsVal_natDigits] at this
  rw [pad_eq]
  have hlen : (List.replicate (w + 1 - (natDigits n).length) (0 : Fin 10) ++ natDigits n).length = w + 1 := by
    simp; omega
  rw [hlen] at this
  exact this

theorem expect_cons (c : Char) (t : Text) : expect c (c :: t) = some t := by simp [expect]

theorem pad2_start (n : Nat) : ∃ d u, pad 2 n = digitChar d :: u := by
  rw [pad_eq]
  have : (List.replicate (2 - (natDigits n).length) (0 : Fin 10) ++ natDigits n) ≠ [] := by
    simp [Json.natDigits_ne_nil]
  obtain ⟨d, u, h⟩ := List.exists_cons_of_ne_nil this
  exact ⟨d, u.map digitChar, by rw [h]; rfl⟩

theorem parseZone_ok {off : Int} (h1 : off % 60 = 0) (h2 : off.natAbs < 86400) :
    parseZone (zoneText off) = some off := by
  unfold zoneText
  split
  · subst off; rfl
  · simp only
    have ha : off.natAbs / 60 / 60 < 10 ^ 2 := by omega
    have hb : off.natAbs / 60 % 60 < 10 ^ 2 := by omega
    have e1 := takeNum_pad (w := 1) (n := off.natAbs / 60 / 60) ha (':' :: pad 2 (off.natAbs / 60 % 60))
    have e2 := takeNum_pad (w := 1) (n := off.natAbs / 60 % 60) hb []
    simp only [Nat.reduceAdd, List.append_nil] at e1 e2
    have hs : ((if off ≤ -60 then '-' else '+') = '+' ∨ (if off ≤ -60 then '-' else '+') = '-') := by
      split <;> simp
    generalize hc : (if off ≤ -60 then '-' else '+') = c at hs
    have hz : c ≠ 'Z' := by rcases hs with rfl | rfl <;> decide
    unfold parseZone
    split
    · rename_i heq; exact absurd (List.cons.inj heq).1 hz
    · rename_i heq
      obtain ⟨rfl, rfl⟩ := List.cons.inj heq
      simp only [hs, if_true, e1, expect_cons, e2]
      rw [if_pos (by omega)]
      simp only [Option.some.injEq]
      split at hc
      · subst hc
        simp only [if_true]
        omega
      · subst hc
        simp only [show ('+' : Char) ≠ '-' by decide, if_false]
        omega
    · rename_i heq; simp at heq

theorem parseFraction_none {c : Char} {u : Text} (h1 : c ≠ '.') (h2 : c ≠ ',') : parseFraction (c :: u) = (0, c :: u) := by
  simp [parseFraction, h1, h2]

theorem parseFraction_zone (off : Int) : parseFraction (zoneText off) = (0, zoneText off) := by
  unfold zoneText
  split
  · exact parseFraction_none (by decide) (by decide)
  · simp only
    split <;> exact parseFraction_none (by decide) (by decide)

theorem takeHour_pad {n : Nat} (h : n < 100) (r : Text) : takeHour (pad 2 n ++ r) = some (n, r) := by
  have := takeNum_pad (w := 1) (n := n) (by omega) r
  obtain ⟨d, u, hu⟩ := pad2_start n
  simp only [Nat.reduceAdd, hu, List.cons_append, takeNum, Json.charDigit_digitChar] at this
  rw [hu]
  simp only [List.cons_append, takeHour, Json.charDigit_digitChar]
  cases hr : u ++ r with
  | nil => rw [hr] at this; simp [takeNum] at this
  | cons c t =>
    rw [hr] at this
    simp only [takeNum] at this
    cases hc : charDigit c with
    | none => rw [hc] at this; simp at this
    | some e =>
      rw [hc] at this
      simp only [takeNum, Option.some.injEq, Prod.mk.injEq, zero_mul, zero_add] at this
      simp only [hc, ← this.1, ← this.2, Nat.mul_comm]

/-- Parsing the RFC 3339 text of a time gives the time cut to seconds. -/
theorem parse_format {t : GoTime} (h : t.Plain) : parseTime t.format = some t.cut := by
  obtain ⟨hy0, hy1, ho, ho'⟩ := h
  have hc := civil_ok (t.localSec / 86400)
  unfold year date at hy0 hy1
  unfold format clockText date
  generalize civil (t.localSec / 86400) = c at *
  obtain ⟨y, m, d⟩ := c
  simp only at hy0 hy1 hc ⊢
  obtain ⟨hday, hm1, hm2, hd1, hd2⟩ := hc
  have hd31 : d ≤ 31 := by
    refine le_trans hd2 ?_
    unfold daysIn
    split <;> first | omega | (split <;> omega)
  have hsod : t.secOfDay < 86400 := by unfold secOfDay; omega
  generalize hs : t.secOfDay = s at *
  rw [if_neg (by omega : ¬ y < 0)]
  unfold parseTime
  simp only [List.nil_append, List.append_assoc, List.cons_append]
  have e4 : ∀ r, takeNum 4 0 (pad 4 y.natAbs ++ r) = some (y.natAbs, r) := takeNum_pad (w := 3) (by omega)
  have em : ∀ r, takeNum 2 0 (pad 2 m ++ r) = some (m, r) := takeNum_pad (w := 1) (by omega)
  have ed : ∀ r, takeNum 2 0 (pad 2 d ++ r) = some (d, r) := takeNum_pad (w := 1) (by omega)
  have eh : ∀ r, takeHour (pad 2 (s / 3600) ++ r) = some (s / 3600, r) := takeHour_pad (by omega)
  have emi : ∀ r, takeNum 2 0 (pad 2 (s / 60 % 60) ++ r) = some (s / 60 % 60, r) := takeNum_pad (w := 1) (by omega)
  have es : ∀ r, takeNum 2 0 (pad 2 (s % 60) ++ r) = some (s % 60, r) := takeNum_pad (w := 1) (by omega)
  have hyy : ((y.natAbs : Nat) : Int) = y := by omega
  simp only [e4, em, ed, eh, emi, es, expect_cons, parseFraction_zone, parseZone_ok ho ho', hyy,
    Option.bind_eq_bind, Option.bind_some]
  rw [if_pos ⟨hm1, hm2, hd1, hd2, by omega, by omega, by omega⟩, hday]
  simp only [cut, Option.some.injEq]
  have : t.localSec = t.localSec / 86400 * 86400 + s := by
    have : (s : Int) = t.localSec % 86400 := by
      rw [← hs]; unfold secOfDay; omega
    omega
  have hl : t.localSec = t.sec + t.off := rfl
  rcases t with ⟨sec, nano, off⟩
  simp only [GoTime.mk.injEq, true_and, and_true]
  simp only at hl this ⊢
  omega

end Verif.GoTime
