import Verif.Lemmas.WsdlRead
/-! # Which values of `dateTime` can be read as time stamps -/
set_option linter.unusedSimpArgs false
namespace Verif.Soap
open Xml Cal Json

def NoSpace (t : Text) : Prop := ∀ c ∈ t, c ≠ ' ' ∧ c ≠ '\t' ∧ c ≠ '\n' ∧ c ≠ '\r'

theorem noSpace_append {a b : Text} (ha : NoSpace a) (hb : NoSpace b) : NoSpace (a ++ b) := by
  intro c hc
  rcases List.mem_append.1 hc with h | h
  · exact ha c h
  · exact hb c h

theorem noSpace_digits (ds : List (Fin 10)) : NoSpace (ds.map digitChar) := by
  intro c hc
  obtain ⟨d, -, rfl⟩ := List.mem_map.1 hc
  exact (by decide : ∀ d : Fin 10, digitChar d ≠ ' ' ∧ digitChar d ≠ '\t' ∧ digitChar d ≠ '\n' ∧ digitChar d ≠ '\r') d

theorem two_digits (n : Nat) : two n = ([⟨n / 10 % 10, Nat.mod_lt _ (by decide)⟩, ⟨n % 10, Nat.mod_lt _ (by decide)⟩] : List (Fin 10)).map digitChar := rfl

theorem noSpace_two (n : Nat) : NoSpace (two n) := by rw [two_digits]; exact noSpace_digits _

theorem noSpace_one {c : Char} (h : c ≠ ' ' ∧ c ≠ '\t' ∧ c ≠ '\n' ∧ c ≠ '\r') : NoSpace [c] := by
  intro c' hc
  simp only [List.mem_singleton] at hc
  subst hc; exact h

theorem noSpace_zone (z : Option (Bool × Nat × Nat)) : NoSpace (zoneSpelled z) := by
  unfold zoneSpelled
  split
  · exact noSpace_one (by decide)
  · rw [← List.singleton_append]
    refine noSpace_append (noSpace_one ?_) (noSpace_append (noSpace_append (noSpace_two _) (noSpace_one (by decide))) (noSpace_two _))
    split <;> decide

theorem hour_digits {h : Nat} {hh : Text} (e : HourText h hh) : ∃ ds : List (Fin 10), hh = ds.map digitChar ∧ (ds.length = 2 → hh = two h) := by
  rcases e with rfl | ⟨-, rfl⟩
  · exact ⟨_, two_digits h, fun _ => rfl⟩
  · exact ⟨[⟨h % 10, Nat.mod_lt _ (by decide)⟩], rfl, fun h => by cases h⟩

theorem noSpace_frac {ds : List (Fin 10)} {ff : Text} (h : FracText ds ff) : NoSpace ff := by
  rcases h with ⟨-, rfl⟩ | ⟨-, c, hc, rfl⟩
  · intro c hc; cases hc
  · rw [← List.singleton_append]
    refine noSpace_append (noSpace_one ?_) (noSpace_digits _)
    rcases hc with rfl | rfl <;> decide

theorem denotes_ex {st : Stamp} (h : st.Valid) : ∃ t, st.Denotes t := by
  have h1 := (dayOf_iff (num ⟨st.year, st.month, st.day⟩) ⟨st.year, st.month, st.day⟩).2 ⟨h.2.1, rfl⟩
  have h2 : 0 ≤ ⌊fracVal st.frac * 10 ^ 9⌋ := Int.floor_nonneg.2 (mul_nonneg (fracVal_bounds _).1 (by norm_num))
  exact ⟨⟨_, (⌊fracVal st.frac * 10 ^ 9⌋).toNat, st.offset⟩, _, h1, rfl, by simpa using h2, rfl⟩

/-- A value of `dateTime` can be read as a time stamp exactly if there is no white space around it, its year has four digits and no
sign, its hour is not 24 and its zone is given. -/
theorem readable_iff {a b s : Text} {d : DateTime} (h : Around a d.text b s) (hv : d.Valid) :
    Readable s ↔ a = [] ∧ b = [] ∧ d.neg = false ∧ d.year.length = 4 ∧ d.hour < 24 ∧ ∃ z, d.zone = some z := by
  obtain ⟨v1, v2, v3, v4, v5, v6, v7, v8⟩ := hv
  constructor
  · rintro ⟨st, t, hst, ⟨hh, ff, e1, e2, e3⟩, -⟩
    obtain ⟨hd, ehd, elen⟩ := hour_digits e1
    have hns : NoSpace s := by
      rw [e3, ehd, four_eq]
      refine noSpace_append (noSpace_append (noSpace_append (noSpace_append (noSpace_append (noSpace_append (noSpace_append
        (noSpace_append (noSpace_append (noSpace_append (noSpace_append (noSpace_append (noSpace_digits _) ?_)
        (noSpace_two _)) ?_) (noSpace_two _)) ?_) (noSpace_digits _)) ?_) (noSpace_two _)) ?_) (noSpace_two _)) (noSpace_frac e2)) (noSpace_zone _) <;>
        exact noSpace_one (by decide)
    obtain ⟨rfl, rfl, ht⟩ := space_not_mem h hns
    rw [e3, four_eq] at ht
    have hneg : d.neg = false := by
      by_contra hn
      simp only [Bool.not_eq_false] at hn
      unfold DateTime.text at ht
      simp only [hn, if_true, fourDigits, List.map_cons, List.cons_append, List.nil_append, List.append_assoc, List.cons.injEq] at ht
      exact digitChar_ne '-' (by decide) _ ht.1.symm
    unfold DateTime.text at ht
    simp only [hneg, List.append_assoc, List.cons_append, List.nil_append, Bool.false_eq_true, if_false] at ht
    obtain ⟨k0, k1⟩ := digits_split (noDigit_cons (by decide) _) (noDigit_cons (by decide) _) ht
    simp only [List.cons.injEq, true_and] at k1
    have k2 := (app_inj (by rw [two_len, two_len]) k1).2
    simp only [List.cons.injEq, true_and] at k2
    have k3 := (app_inj (by rw [two_len, two_len]) k2).2
    simp only [List.cons.injEq, true_and] at k3
    rw [two_digits d.hour, ehd] at k3
    obtain ⟨k4, k5⟩ := digits_split (noDigit_cons (by decide) _) (noDigit_cons (by decide) _) k3
    have hhour : d.hour = st.hour := by
      have := elen (by rw [← k4]; rfl)
      rw [ehd, ← k4, ← two_digits] at this
      refine two_inj ?_ ?_ this
      · rcases v5 with h | ⟨h, -⟩ <;> omega
      · have := hst.2.2.1; omega
    simp only [List.cons.injEq, true_and] at k5
    have k6 := (app_inj (by rw [two_len, two_len]) k5).2
    simp only [List.cons.injEq, true_and] at k6
    have k7 := (app_inj (by rw [two_len, two_len]) k6).2
    refine ⟨rfl, rfl, hneg, by rw [k0]; rfl, by rw [hhour]; exact hst.2.2.1, ?_⟩
    cases hz : d.zone with
    | some z => exact ⟨z, rfl⟩
    | none =>
      exfalso
      simp only [hz, List.append_nil] at k7
      -- what is left consists of digits and a point
      have hL : ∀ c ∈ (if d.frac = [] then [] else '.' :: d.frac.map digitChar), c ≠ 'Z' ∧ c ≠ '+' ∧ c ≠ '-' := by
        intro c hc
        split at hc
        · cases hc
        · rcases List.mem_cons.1 hc with rfl | hc
          · decide
          · obtain ⟨x, -, rfl⟩ := List.mem_map.1 hc
            exact (by decide : ∀ d : Fin 10, digitChar d ≠ 'Z' ∧ digitChar d ≠ '+' ∧ digitChar d ≠ '-') x
      obtain ⟨c, u, hc, hc'⟩ := zoneSpelled_start st.zone
      have := hL c (by rw [k7, hc]; simp)
      rcases hc' with rfl | rfl | rfl
      · exact this.1 rfl
      · exact this.2.1 rfl
      · exact this.2.2 rfl
  · rintro ⟨rfl, rfl, h3, h4, h5, z, hz⟩
    obtain ⟨-, -, hs⟩ := h
    obtain ⟨z', hz', htx⟩ := text_eq d h3 ⟨z, hz⟩
    rw [hz] at hz'
    cases hz'
    have hy : ∃ y : Nat, y ≤ 9999 ∧ d.year = fourDigits y := by
      match d.year, h4 with
      | [a, b, c, e], _ =>
        refine ⟨a.val * 1000 + b.val * 100 + c.val * 10 + e.val, by omega, ?_⟩
        unfold fourDigits
        simp only [List.cons.injEq, and_true]
        refine ⟨?_, ?_, ?_, ?_⟩ <;> (apply Fin.ext; simp only; omega)
    obtain ⟨y, hy, ey⟩ := hy
    have ev : digitsVal 0 d.year = y := by rw [ey, fourDigits_val hy]
    let st : Stamp := ⟨y, d.month, d.day, d.hour, d.min, d.sec, d.frac, z⟩
    have hst : st.Valid := by
      refine ⟨hy, ?_, h5, v6, v7, ?_⟩
      · simp only [h3, ev, Bool.false_eq_true, if_false] at v4
        exact v4
      · intro neg h m e
        have := v8 neg h m (by rw [hz]; exact congrArg some e)
        omega
    obtain ⟨t, ht⟩ := denotes_ex hst
    refine ⟨st, t, hst, ⟨two d.hour, if d.frac = [] then [] else '.' :: d.frac.map digitChar, Or.inl rfl, ?_, ?_⟩, ht⟩
    · by_cases hf : d.frac = []
      · exact Or.inl ⟨hf, by simp [hf]⟩
      · exact Or.inr ⟨hf, '.', Or.inl rfl, by simp [hf, st]⟩
    · rw [hs, htx, ey, ← four_eq]
      simp only [st, List.append_assoc, List.cons_append, List.nil_append, List.append_nil]

end Verif.Soap
