import Verif.Spec.Xsd
import Verif.Lemmas.Stamp2
import Verif.Lemmas.XmlNum
/-! # Times as values of `dateTime` -/
set_option linter.unusedSimpArgs false
namespace Verif.Xml
open Json Cal GoTime

theorem digitChar_inj : ∀ {a b : Fin 10}, digitChar a = digitChar b → a = b := by decide

theorem digitChar_ne (c : Char) (h : charDigit c = none) : ∀ d : Fin 10, digitChar d ≠ c := by
  intro d e
  subst e
  revert h
  revert d
  decide

theorem dig_digit (n : Nat) : dig n = digitChar ⟨n % 10, Nat.mod_lt _ (by decide)⟩ := rfl

theorem two_inj {a b : Nat} (ha : a < 100) (hb : b < 100) (h : two a = two b) : a = b := by
  unfold two at h
  simp only [List.cons.injEq, and_true, dig_digit] at h
  have h1 := congrArg Fin.val (digitChar_inj h.1)
  have h2 := congrArg Fin.val (digitChar_inj h.2)
  simp only at h1 h2
  omega

/-- The four digits of a year. -/
def fourDigits (y : Nat) : List (Fin 10) :=
  [⟨y / 1000 % 10, Nat.mod_lt _ (by decide)⟩, ⟨y / 100 % 10, Nat.mod_lt _ (by decide)⟩, ⟨y / 10 % 10, Nat.mod_lt _ (by decide)⟩,
    ⟨y % 10, Nat.mod_lt _ (by decide)⟩]

theorem four_eq (y : Nat) : four y = (fourDigits y).map digitChar := rfl

theorem fourDigits_val {y : Nat} (h : y ≤ 9999) : digitsVal 0 (fourDigits y) = y := by
  simp only [fourDigits, digitsVal]
  omega

theorem map_digit_inj {a b : List (Fin 10)} (h : a.map digitChar = b.map digitChar) : a = b :=
  List.map_injective_iff.2 (fun _ _ => digitChar_inj) h

/-- Digits up to a character that is none. -/
theorem digits_split {a b : List (Fin 10)} {s t : Text} (hs : NoDigit s) (ht : NoDigit t)
    (h : a.map digitChar ++ s = b.map digitChar ++ t) : a = b ∧ s = t := by
  have h1 := takeDigits_append a hs
  have h2 := takeDigits_append b ht
  rw [h, h2] at h1
  simp only [Prod.mk.injEq] at h1
  exact ⟨h1.1.symm, h1.2.symm⟩

theorem noDigit_cons {c : Char} (h : charDigit c = none) (t : Text) : NoDigit (c :: t) := by
  intro c' u e
  simp only [List.cons.injEq] at e
  rw [← e.1]; exact h

theorem two_len (n : Nat) : (two n).length = 2 := rfl

theorem app_inj {a b s t : Text} (hl : a.length = b.length) (h : a ++ s = b ++ t) : a = b ∧ s = t := List.append_inj h hl

/-- The parts of the nanoseconds. -/
theorem nanoText_digits (n : Nat) : ∃ ds : List (Fin 10), nanoText n = if ds = [] then [] else '.' :: ds.map digitChar := by
  unfold nanoText
  by_cases h : n = 0
  · exact ⟨[], by simp [h]⟩
  · refine ⟨trimZeros (List.replicate (9 - (natDigits n).length) 0 ++ natDigits n), ?_⟩
    rw [if_neg h, if_neg (trimZeros_ne_nil h)]

theorem zoneSpelled_start (z : Option (Bool × Nat × Nat)) : ∃ c u, zoneSpelled z = c :: u ∧ (c = 'Z' ∨ c = '+' ∨ c = '-') := by
  unfold zoneSpelled
  split
  · exact ⟨_, _, rfl, by simp⟩
  · refine ⟨_, _, rfl, ?_⟩
    split <;> simp

theorem zoneSpelled_noDigit (z : Option (Bool × Nat × Nat)) : NoDigit (zoneSpelled z) := by
  obtain ⟨c, u, h, hc⟩ := zoneSpelled_start z
  rw [h]
  exact noDigit_cons (by rcases hc with rfl | rfl | rfl <;> decide) _

theorem frac_split {a b : List (Fin 10)} {s t : Text} (hs : ∀ u, s ≠ '.' :: u) (ht : ∀ u, t ≠ '.' :: u) (hs' : NoDigit s) (ht' : NoDigit t)
    (h : (if a = [] then [] else '.' :: a.map digitChar) ++ s = (if b = [] then [] else '.' :: b.map digitChar) ++ t) : a = b ∧ s = t := by
  by_cases ha : a = [] <;> by_cases hb : b = []
  · subst ha hb; simpa using h
  · rw [if_pos ha, if_neg hb] at h
    exact absurd h (hs _)
  · rw [if_neg ha, if_pos hb] at h
    exact absurd h.symm (ht _)
  · rw [if_neg ha, if_neg hb] at h
    simp only [List.cons_append, List.cons.injEq, true_and] at h
    exact digits_split hs' ht' h

/-- What is written for a time, part by part. -/
theorem formatNano_eq {t : GoTime} (h : t.Plain) : ∃ ds : List (Fin 10),
    t.formatNano = (fourDigits (stampOf t).year).map digitChar ++ ('-' :: (two (stampOf t).month ++ ('-' :: (two (stampOf t).day ++ ('T' ::
      (two (stampOf t).hour ++ (':' :: (two (stampOf t).min ++ (':' :: (two (stampOf t).sec ++
        ((if ds = [] then [] else '.' :: ds.map digitChar) ++ zoneSpelled (zoneOf t.off)))))))))))) := by
  obtain ⟨h0, h1, -, h2⟩ := h
  have hf := format_eq h0 h1 (by omega : t.off.natAbs < 360000)
  have hz := zoneText_eq (off := t.off) (by omega)
  obtain ⟨ds, hds⟩ := nanoText_digits t.nano
  refine ⟨ds, ?_⟩
  have hc : t.clockText = four (stampOf t).year ++ ['-'] ++ two (stampOf t).month ++ ['-'] ++ two (stampOf t).day ++ ['T'] ++
      two (stampOf t).hour ++ [':'] ++ two (stampOf t).min ++ [':'] ++ two (stampOf t).sec := by
    unfold format at hf
    rw [hz] at hf
    have hzz : (stampOf t).zone = zoneOf t.off := rfl
    rw [hzz, List.append_nil] at hf
    exact List.append_cancel_right hf
  unfold formatNano
  rw [hc, hds, hz, ← four_eq]
  simp only [List.append_assoc, List.cons_append, List.nil_append]

theorem text_eq (d : DateTime) (hn : d.neg = false) (hf : ∃ z, d.zone = some z) : ∃ z, d.zone = some z ∧
    d.text = d.year.map digitChar ++ ('-' :: (two d.month ++ ('-' :: (two d.day ++ ('T' ::
      (two d.hour ++ (':' :: (two d.min ++ (':' :: (two d.sec ++
        ((if d.frac = [] then [] else '.' :: d.frac.map digitChar) ++ zoneSpelled z))))))))))) := by
  obtain ⟨z, hz⟩ := hf
  refine ⟨z, hz, ?_⟩
  unfold DateTime.text
  simp only [hn, hz, List.append_assoc, List.cons_append, List.nil_append, Bool.false_eq_true, if_false]

theorem zone_no_point (z : Option (Bool × Nat × Nat)) (u : Text) : zoneSpelled z ≠ '.' :: u := by
  obtain ⟨c, w, h, hc⟩ := zoneSpelled_start z
  rw [h]
  intro e
  simp only [List.cons.injEq] at e
  rcases hc with rfl | rfl | rfl <;> exact absurd e.1 (by decide)

/-- The zone that is written is within 14 hours exactly if the offset is. -/
theorem zoneOf_le {off : Int} (h0 : off % 60 = 0) (h1 : off.natAbs < 86400) :
    (∀ neg h m, zoneOf off = some (neg, h, m) → m < 60 ∧ h * 60 + m ≤ 14 * 60) ↔ off.natAbs ≤ 14 * 3600 := by
  unfold zoneOf
  by_cases hz : off = 0
  · simp [hz]
  · simp only [hz, if_false, Option.some.injEq, Prod.mk.injEq]
    constructor
    · intro h
      have := (h _ _ _ ⟨rfl, rfl, rfl⟩).2
      omega
    · rintro h neg hh m ⟨-, rfl, rfl⟩
      omega

theorem zoneSpelled_inj {a b : Option (Bool × Nat × Nat)} (ha : ∀ neg h m, a = some (neg, h, m) → h < 100 ∧ m < 100)
    (hb : ∀ neg h m, b = some (neg, h, m) → h < 100 ∧ m < 100) (h : zoneSpelled a = zoneSpelled b) : a = b := by
  rcases a with _ | ⟨n1, h1, m1⟩ <;> rcases b with _ | ⟨n2, h2, m2⟩
  · rfl
  · simp only [zoneSpelled, List.cons.injEq] at h
    cases n2 <;> exact absurd h.1 (by decide)
  · simp only [zoneSpelled, List.cons.injEq] at h
    cases n1 <;> exact absurd h.1 (by decide)
  · have ha := ha _ _ _ rfl
    have hb := hb _ _ _ rfl
    simp only [zoneSpelled, List.cons.injEq, List.append_assoc, List.cons_append, List.nil_append] at h
    obtain ⟨h3, h4⟩ := h
    obtain ⟨h5, h6⟩ := app_inj (by rw [two_len, two_len]) h4
    simp only [List.cons.injEq, true_and] at h6
    have e1 := two_inj ha.1 hb.1 h5
    have e2 := two_inj ha.2 hb.2 h6
    subst e1 e2
    cases n1 <;> cases n2 <;> first | rfl | exact absurd h3 (by decide)

theorem space_not_mem {t u a b : Text} (h : Around a u b t) (ht : ∀ c ∈ t, c ≠ ' ' ∧ c ≠ '\t' ∧ c ≠ '\n' ∧ c ≠ '\r') : a = [] ∧ b = [] ∧ u = t := by
  obtain ⟨h1, h2, rfl⟩ := h
  have ha : a = [] := by
    cases a with
    | nil => rfl
    | cons c a =>
      have := h1 c (by simp)
      have := ht c (by simp)
      simp_all
  have hb : b = [] := by
    cases b with
    | nil => rfl
    | cons c b =>
      have := h2 c (by simp)
      have := ht c (by simp)
      simp_all
  subst ha hb
  simp

/-- The characters of a time, without a space. -/
theorem formatNano_noSpace {t : GoTime} (h : t.Plain) : ∀ c ∈ t.formatNano, c ≠ ' ' ∧ c ≠ '\t' ∧ c ≠ '\n' ∧ c ≠ '\r' := by
  obtain ⟨ds, e⟩ := formatNano_eq h
  have hd : ∀ d : Fin 10, digitChar d ≠ ' ' ∧ digitChar d ≠ '\t' ∧ digitChar d ≠ '\n' ∧ digitChar d ≠ '\r' := by decide
  have h2 : ∀ n, ∀ c ∈ two n, c ≠ ' ' ∧ c ≠ '\t' ∧ c ≠ '\n' ∧ c ≠ '\r' := by
    intro n c hc
    simp only [two, List.mem_cons, List.not_mem_nil, or_false] at hc
    rcases hc with rfl | rfl <;> exact hd _
  have hm : ∀ (ds : List (Fin 10)), ∀ c ∈ ds.map digitChar, c ≠ ' ' ∧ c ≠ '\t' ∧ c ≠ '\n' ∧ c ≠ '\r' := by
    intro ds c hc
    obtain ⟨d, -, rfl⟩ := List.mem_map.1 hc
    exact hd d
  have hz : ∀ z, ∀ c ∈ zoneSpelled z, c ≠ ' ' ∧ c ≠ '\t' ∧ c ≠ '\n' ∧ c ≠ '\r' := by
    intro z c hc
    unfold zoneSpelled at hc
    split at hc
    · simp only [List.mem_cons, List.not_mem_nil, or_false] at hc; subst hc; decide
    · simp only [List.mem_cons, List.mem_append, List.not_mem_nil, or_false] at hc
      rcases hc with rfl | (hc | rfl) | hc
      · split <;> decide
      · exact h2 _ _ hc
      · decide
      · exact h2 _ _ hc
  rw [e]
  intro c hc
  simp only [List.mem_append, List.mem_cons] at hc
  rcases hc with hc | rfl | hc | rfl | hc | rfl | hc | rfl | hc | rfl | hc | hc | hc
  · exact hm _ _ hc
  · decide
  · exact h2 _ _ hc
  · decide
  · exact h2 _ _ hc
  · decide
  · exact h2 _ _ hc
  · decide
  · exact h2 _ _ hc
  · decide
  · exact h2 _ _ hc
  · split at hc
    · cases hc
    · simp only [List.mem_cons] at hc
      rcases hc with rfl | hc
      · decide
      · exact hm _ _ hc
  · exact hz _ _ hc

/-- A time that can be written is a `dateTime` exactly if its year is not 0 and its zone is at most 14 hours away from UTC. -/
theorem dateTime_iff {t : GoTime} (h : t.Plain) :
    XSimple.dateTime.Lexical t.formatNano ↔ 1 ≤ t.year ∧ t.off.natAbs ≤ 14 * 3600 := by
  obtain ⟨ds, e⟩ := formatNano_eq h
  have hns := formatNano_noSpace h
  obtain ⟨h0, h1, h2, h3⟩ := h
  have hval := (date_valid t).1
  have hyear : ((stampOf t).year : Int) = t.year := by
    have : (stampOf t).year = t.date.1.toNat := rfl
    rw [this]
    unfold year at *
    omega
  have hsod : t.secOfDay < 86400 := by unfold secOfDay; omega
  constructor
  · rintro ⟨a, b, d, hd, hv⟩
    obtain ⟨rfl, rfl, ht⟩ := space_not_mem hd hns
    obtain ⟨v1, v2, v3, v4, v5, v6, v7, v8⟩ := hv
    have hneg : d.neg = false := by
      by_contra hn
      simp only [Bool.not_eq_false] at hn
      have : d.text = '-' :: (d.text.tail) := by unfold DateTime.text; simp [hn]
      rw [ht, e] at this
      simp only [fourDigits, List.map_cons, List.cons_append, List.cons.injEq] at this
      exact digitChar_ne '-' (by decide) _ this.1
    have hz : ∃ z, d.zone = some z := by
      cases hz : d.zone with
      | some z => exact ⟨z, rfl⟩
      | none =>
        exfalso
        unfold DateTime.text at ht
        rw [e] at ht
        simp only [hneg, hz, List.append_assoc, List.cons_append, List.nil_append, Bool.false_eq_true, if_false, List.append_nil] at ht
        have k1 := (digits_split (noDigit_cons (by decide) _) (noDigit_cons (by decide) _) ht).2
        simp only [List.cons.injEq, true_and] at k1
        have k2 := (app_inj (by rw [two_len, two_len]) k1).2
        simp only [List.cons.injEq, true_and] at k2
        have k3 := (app_inj (by rw [two_len, two_len]) k2).2
        simp only [List.cons.injEq, true_and] at k3
        have k4 := (app_inj (by rw [two_len, two_len]) k3).2
        simp only [List.cons.injEq, true_and] at k4
        have k5 := (app_inj (by rw [two_len, two_len]) k4).2
        simp only [List.cons.injEq, true_and] at k5
        have k6 := (app_inj (by rw [two_len, two_len]) k5).2
        have k7 := (frac_split (s := []) (t := zoneSpelled (zoneOf t.off)) (by simp) (zone_no_point _)
          (by intro c u e; cases e) (zoneSpelled_noDigit _) (by simpa using k6)).2
        obtain ⟨c, u, hc, -⟩ := zoneSpelled_start (zoneOf t.off)
        rw [hc] at k7
        cases k7
    obtain ⟨z, hz, htx⟩ := text_eq d hneg hz
    rw [htx, e] at ht
    have k0 := digits_split (noDigit_cons (by decide) _) (noDigit_cons (by decide) _) ht
    obtain ⟨k0, k1⟩ := k0
    simp only [List.cons.injEq, true_and] at k1
    have k2 := (app_inj (by rw [two_len, two_len]) k1).2
    simp only [List.cons.injEq, true_and] at k2
    have k3 := (app_inj (by rw [two_len, two_len]) k2).2
    simp only [List.cons.injEq, true_and] at k3
    have k4 := (app_inj (by rw [two_len, two_len]) k3).2
    simp only [List.cons.injEq, true_and] at k4
    have k5 := (app_inj (by rw [two_len, two_len]) k4).2
    simp only [List.cons.injEq, true_and] at k5
    have k6 := (app_inj (by rw [two_len, two_len]) k5).2
    have k7 := (frac_split (zone_no_point _) (zone_no_point _) (zoneSpelled_noDigit _) (zoneSpelled_noDigit _) k6).2
    have hzz : z = zoneOf t.off := by
      refine zoneSpelled_inj ?_ ?_ k7
      · intro neg h m e
        have := v8 neg h m (by rw [hz, e])
        omega
      · intro neg h m e
        unfold zoneOf at e
        split at e
        · cases e
        · simp only [Option.some.injEq, Prod.mk.injEq] at e
          omega
    have hy : digitsVal 0 (fourDigits (stampOf t).year) = (stampOf t).year := fourDigits_val (by omega)
    rw [k0, hy] at v3
    refine ⟨by omega, (zoneOf_le h2 h3).1 fun neg h m e => v8 neg h m (by rw [hz, hzz, e])⟩
  · rintro ⟨g1, g2⟩
    have hy : digitsVal 0 (fourDigits (stampOf t).year) = (stampOf t).year := fourDigits_val (by omega)
    let d : DateTime := ⟨false, fourDigits (stampOf t).year, (stampOf t).month, (stampOf t).day, (stampOf t).hour, (stampOf t).min,
      (stampOf t).sec, ds, some (zoneOf t.off)⟩
    have hsp : Space [] := fun c hc => by cases hc
    refine ⟨[], [], d, ⟨hsp, hsp, ?_⟩, ?_⟩
    · obtain ⟨z, hz, htx⟩ := text_eq d rfl ⟨_, rfl⟩
      have : z = zoneOf t.off := (Option.some.inj hz).symm
      subst this
      rw [List.nil_append, List.append_nil, htx, e]
    · refine ⟨by simp [d, fourDigits], by simp [d, fourDigits], by simp only [d, hy]; omega, ?_, Or.inl ?_, ?_, ?_, ?_⟩
      · simp only [d, hy, Bool.false_eq_true, if_false]
        rw [hyear]
        exact hval
      · simp only [d, stampOf]; omega
      · simp only [d, stampOf]; omega
      · simp only [d, stampOf]; omega
      · intro neg h m e
        exact (zoneOf_le h2 h3).2 g2 neg h m (Option.some.inj e)

end Verif.Xml
