import Verif.Model.XmlText
import Verif.Lemmas.GoFloat
import Verif.Spec.XmlText
import Verif.Lemmas.Time
import Verif.Lemmas.Num
import Verif.Lemmas.Ocppj
/-!
# Numbers and times in XML
-/
set_option linter.unusedSimpArgs false
namespace Verif.Xml
open Json

/-! ### Digits -/

theorem noDigit_nil : NoDigit [] := fun c u h => by simp at h

theorem takeDigits_all (ds : List (Fin 10)) : takeDigits (ds.map digitChar) = (ds, []) := by
  have := takeDigits_append ds noDigit_nil
  simpa using this

theorem digitsOf_ok {ds : List (Fin 10)} (h : ds ≠ []) : digitsOf (ds.map digitChar) = some ds := by
  unfold digitsOf
  rw [takeDigits_all]
  cases ds with
  | nil => exact absurd rfl h
  | cons d ds => rfl

theorem digitChar_isDigit (d : Fin 10) : (digitChar d).isDigit = true := by revert d; decide

theorem isSpace_digit (d : Fin 10) : Ocppj.isSpace (digitChar d) = false := by revert d; decide

theorem trimSpace_id {c : Char} {t : Text} (h : ∀ x ∈ c :: t, Ocppj.isSpace x = false) : Ocppj.trimSpace (c :: t) = c :: t := by
  unfold Ocppj.trimSpace
  have h1 : (c :: t).dropWhile Ocppj.isSpace = c :: t := by
    simp [List.dropWhile_cons, h c (by simp)]
  rw [h1]
  have h2 : ((c :: t).reverse).dropWhile Ocppj.isSpace = (c :: t).reverse := by
    cases hr : (c :: t).reverse with
    | nil => rfl
    | cons x r =>
      have : x ∈ c :: t := by rw [← List.mem_reverse, hr]; simp
      simp [List.dropWhile_cons, h x this]
  rw [h2, List.reverse_reverse]

theorem intText_eq (n : Int) : Codec.intText n = (if n < 0 then ['-'] else []) ++ (natDigits n.natAbs).map digitChar := by
  simp [Codec.intText, rawOfLit, RawNum.text, NumLit.ofInt]

theorem natDigits_cons (n : Nat) : ∃ d ds, natDigits n = d :: ds := List.exists_cons_of_ne_nil (natDigits_ne_nil n)

/-- `ParseInt` reads what `FormatInt` writes. -/
theorem parseInt_intText {b : Nat} {n : Int} (h1 : -(2 ^ (b - 1)) ≤ n) (h2 : n < 2 ^ (b - 1)) :
    Xml.parseInt b (Codec.intText n) = some n := by
  obtain ⟨d, ds, hd⟩ := natDigits_cons n.natAbs
  have hv : digitsVal 0 (natDigits n.natAbs) = n.natAbs := digitsVal_natDigits _
  have hdo := digitsOf_ok (natDigits_ne_nil n.natAbs)
  unfold Xml.parseInt
  rw [intText_eq]
  by_cases hneg : n < 0
  · simp only [hneg, if_true, List.cons_append, List.nil_append, hdo, hv]
    rw [if_pos (by omega)]
    congr 1; omega
  · have hne := digitChar_facts d
    have hm : (if n < 0 then ['-'] else []) ++ (natDigits n.natAbs).map digitChar = digitChar d :: ds.map digitChar := by
      simp [hneg, hd]
    have hdo' : digitsOf (digitChar d :: ds.map digitChar) = some (natDigits n.natAbs) := by
      have : (natDigits n.natAbs).map digitChar = digitChar d :: ds.map digitChar := by rw [hd]; rfl
      rw [← this]; exact hdo
    rw [hm]
    split
    rename_i x neg u heq
    split at heq
    · rename_i h; simp at h; exact absurd h.1 hne.1
    · rename_i h; simp at h; exact absurd h.1 hne.2.1
    · cases heq
      simp only [hdo', hv, Bool.false_eq_true, if_false]
      rw [if_pos (by omega)]
      congr 1; omega

theorem intText_chars (n : Int) : ∀ c ∈ Codec.intText n, c.isDigit = true ∨ c = '+' ∨ c = '-' ∨ c = '.' ∨ c = 'e' := by
  intro c hc
  rw [intText_eq] at hc
  simp only [List.mem_append, List.mem_map] at hc
  rcases hc with h | ⟨d, -, rfl⟩
  · split at h
    · simp at h; simp [h]
    · simp at h
  · exact Or.inl (digitChar_isDigit d)

theorem intText_ne_nil (n : Int) : Codec.intText n ≠ [] := by
  rw [intText_eq]
  obtain ⟨d, ds, hd⟩ := natDigits_cons n.natAbs
  rw [hd]; simp

/-! ### Characters of numbers -/

theorem numChar_facts {c : Char} (h : c.isDigit = true ∨ c = '+' ∨ c = '-' ∨ c = '.' ∨ c = 'e') :
    Ocppj.isSpace c = false ∧ IsXmlChar c := by
  rcases h with h | rfl | rfl | rfl | rfl
  · simp only [Char.isDigit, Bool.and_eq_true, decide_eq_true_eq] at h
    obtain ⟨h1, h2⟩ := h
    have h1' : 48 ≤ c.toNat := by
      have := UInt32.le_iff_toNat_le.1 h1
      simpa using this
    have h2' : c.toNat ≤ 57 := by
      have := UInt32.le_iff_toNat_le.1 h2
      simpa using this
    constructor
    · by_contra hs
      simp only [Bool.not_eq_false] at hs
      unfold Ocppj.isSpace at hs
      simp only [Bool.or_eq_true, beq_iff_eq, decide_eq_true_eq] at hs
      simp only [Bool.and_eq_true, decide_eq_true_eq] at hs
      omega
    · unfold IsXmlChar; omega
  all_goals exact ⟨by decide, by decide⟩

theorem cleanText_id {s : Text} (h : ∀ c ∈ s, IsXmlChar c) : cleanText s = s := by
  induction s with
  | nil => rfl
  | cons c s ih =>
    have h1 := h c (by simp)
    have h2 := ih fun x hx => h x (by simp [hx])
    simp only [cleanText, List.map_cons] at h2 ⊢
    rw [h2]
    simp [cleanChar, h1]

/-! ### Floats -/

theorem splitSign_digit (neg : Bool) (d : Fin 10) (t : Text) :
    splitSign ((if neg then ['-'] else []) ++ digitChar d :: t) = (neg, neg, digitChar d :: t) := by
  have hd := digitChar_facts d
  cases neg
  · simp only [Bool.false_eq_true, if_false, List.nil_append]
    unfold splitSign
    split
    · rename_i h; simp at h; exact absurd h.1 hd.1
    · rename_i h; simp at h; exact absurd h.1 hd.2.1
    · rfl
  · rfl

theorem toLower_digit (d : Fin 10) : (digitChar d).toLower = digitChar d := by revert d; decide

/-- Texts that start with a digit are not special values. -/
theorem parseFloat_digit (neg : Bool) (d : Fin 10) (t : Text) :
    parseFloat ((if neg then ['-'] else []) ++ digitChar d :: t) =
      match readFloat (digitChar d :: t) with
      | none => none
      | some m => (fl64 ((if neg then -1 else 1) * m)).map .fin := by
  have h1 : digitChar d ≠ 'i' := by revert d; decide
  have h2 : digitChar d ≠ 'n' := by revert d; decide
  unfold parseFloat
  rw [splitSign_digit]
  simp only [List.map_cons, toLower_digit]
  rw [if_neg (by simp [h1]), if_neg (by simp [h2])]
  cases readFloat (digitChar d :: t) <;> rfl

/-- The text of a literal without fraction. -/
theorem parseFloat_lit {l : NumLit} (hf : l.frac = []) : parseFloat (rawOfLit l).text = (fl64 l.value).map .fin := by
  obtain ⟨d, ds, hd⟩ := natDigits_cons l.ip
  have hv : digitsVal 0 (natDigits l.ip) = l.ip := digitsVal_natDigits _
  have key : ∀ (e : Text) (x : Int), NoDigit e → (∀ r, e ≠ '.' :: r) → (∀ c ∈ e, c ≠ '_' ∧ c ≠ 'x' ∧ c ≠ 'X') → floatExp e = some x → l.exp.getD 0 = x →
      parseFloat ((if l.neg then ['-'] else []) ++ ((natDigits l.ip).map digitChar ++ e)) = (fl64 l.value).map .fin := by
    intro e x h1 h2 h5 h3 h4
    have ht := takeDigits_append (natDigits l.ip) h1
    have hfd : fracDigits e = ([], e) := by
      unfold fracDigits
      split
      · rename_i h; exact absurd rfl (h2 _)
      · rfl
    have hdec : decFloat ((natDigits l.ip).map digitChar ++ e) = some ((l.ip : ℚ) * 10 ^ x) := by
      unfold decFloat
      rw [ht]
      simp only [hfd, natDigits_ne_nil, false_and, if_false, h3, hv]
      simp [fracVal]
    have hch : ∀ c ∈ (natDigits l.ip).map digitChar ++ e, c ≠ '_' ∧ c ≠ 'x' ∧ c ≠ 'X' := by
      intro c hc
      rcases List.mem_append.1 hc with hc | hc
      · obtain ⟨y, -, hy⟩ := List.mem_map.1 hc
        have : ∀ y : Fin 10, digitChar y ≠ '_' ∧ digitChar y ≠ 'x' ∧ digitChar y ≠ 'X' := by decide
        exact hy ▸ this y
      · exact h5 c hc
    have hdec : readFloat ((natDigits l.ip).map digitChar ++ e) = some ((l.ip : ℚ) * 10 ^ x) := by
      rw [readFloat_plain (fun h => (hch _ h).1 rfl) (fun y v h => (hch y (by rw [h]; simp)).2)]
      exact hdec
    have hcons : (natDigits l.ip).map digitChar ++ e = digitChar d :: (ds.map digitChar ++ e) := by rw [hd]; rfl
    rw [hcons] at hdec ⊢
    rw [parseFloat_digit, hdec]
    simp only [NumLit.value, hf, h4, fracVal, add_zero, mul_assoc]
  have htext : (rawOfLit l).text = (if l.neg then ['-'] else []) ++ ((natDigits l.ip).map digitChar ++
      (match l.exp with
        | none => []
        | some e => 'e' :: ((if e < 0 then ['-'] else ['+']) ++ (natDigits e.natAbs).map digitChar))) := by
    unfold rawOfLit RawNum.text
    simp only [hf, if_true, List.append_nil, List.append_assoc]
    cases hexp : l.exp with
    | none => simp
    | some e => by_cases he : e < 0 <;> simp [he]
  rw [htext]
  cases hexp : l.exp with
  | none =>
    simp only
    exact key [] 0 noDigit_nil (by simp) (by simp) rfl (by simp [hexp])
  | some e =>
    simp only
    refine key _ e ?_ (by simp) ?_ ?_ (by simp [hexp])
    · intro c u h; simp at h; rw [← h.1]; decide
    · intro c hc
      simp only [List.mem_cons, List.mem_append, List.mem_map] at hc
      rcases hc with rfl | hc | ⟨y, -, rfl⟩
      · decide
      · split at hc <;> simp at hc <;> subst hc <;> decide
      · revert y; decide
    · have hdo := digitsOf_ok (natDigits_ne_nil e.natAbs)
      have hve : digitsVal 0 (natDigits e.natAbs) = e.natAbs := digitsVal_natDigits _
      by_cases he : e < 0
      · simp only [he, if_true, floatExp, true_or, List.cons_append, List.nil_append, hdo, Option.map_some, hve]
        congr 1; omega
      · simp only [he, if_false, floatExp, true_or, if_true, List.cons_append, List.nil_append, hdo, Option.map_some, hve,
          Bool.false_eq_true]
        congr 1; omega

theorem exactLit_frac (q : ℚ) : (exactLit q).frac = [] := by
  unfold exactLit NumLit.ofInt
  split <;> rfl

theorem litText_chars {l : NumLit} (hf : l.frac = []) : ∀ c ∈ (rawOfLit l).text,
    c.isDigit = true ∨ c = '+' ∨ c = '-' ∨ c = '.' ∨ c = 'e' := by
  intro c hc
  unfold rawOfLit RawNum.text at hc
  simp only [hf, if_true, List.append_nil, List.mem_append, List.mem_map] at hc
  rcases hc with (h | ⟨d, -, rfl⟩) | h
  · split at h
    · simp at h; simp [h]
    · simp at h
  · exact Or.inl (digitChar_isDigit d)
  · cases hexp : l.exp with
    | none => simp [hexp] at h
    | some e =>
      simp only [hexp, Option.map_some, Bool.false_eq_true, if_false, List.mem_cons, List.mem_append, List.mem_map] at h
      rcases h with rfl | h | ⟨d, -, rfl⟩
      · simp
      · by_cases he : e < 0 <;> simp [he] at h <;> simp [h]
      · exact Or.inl (digitChar_isDigit d)

/-- The contract on float text can be met. -/
def exactText : FloatText where
  fmt q := (rawOfLit (exactLit q)).text
  chars q := litText_chars (exactLit_frac q)
  roundtrip q h := by
    rw [parseFloat_lit (exactLit_frac q), exactLit_value h.den]
    rw [show fl64 q = some q from h]
    rfl

end Verif.Xml

/-! ### Times with nanoseconds -/

namespace Verif.GoTime
open Json

theorem fracNano_zeros (k j : Nat) : fracNano k (List.replicate j 0) = 0 := by
  induction j generalizing k with
  | zero => rfl
  | succ j ih => simp [List.replicate_succ, fracNano, ih]

theorem fracNano_app_zeros (k j : Nat) (ds : List (Fin 10)) : fracNano k (ds ++ List.replicate j 0) = fracNano k ds := by
  induction ds generalizing k with
  | nil => simp [fracNano_zeros, fracNano]
  | cons d ds ih => simp [fracNano, ih]

theorem trimZeros_spec (ds : List (Fin 10)) : ∃ j, ds = trimZeros ds ++ List.replicate j 0 := by
  unfold trimZeros
  have h := List.takeWhile_append_dropWhile (p := (· == (0 : Fin 10))) (l := ds.reverse)
  refine ⟨(ds.reverse.takeWhile (· == 0)).length, ?_⟩
  have hz : ds.reverse.takeWhile (· == 0) = List.replicate (ds.reverse.takeWhile (· == 0)).length (0 : Fin 10) := by
    rw [List.eq_replicate_iff]
    refine ⟨rfl, fun b hb => ?_⟩
    have := List.all_takeWhile (p := (· == (0 : Fin 10))) (l := ds.reverse)
    simpa using List.all_eq_true.1 this b hb
  calc ds = ds.reverse.reverse := (List.reverse_reverse ds).symm
    _ = (ds.reverse.takeWhile (· == 0) ++ ds.reverse.dropWhile (· == 0)).reverse := by rw [h]
    _ = (ds.reverse.dropWhile (· == 0)).reverse ++ (ds.reverse.takeWhile (· == 0)).reverse := by rw [List.reverse_append]
    _ = _ := by
      congr 1
      conv_lhs => rw [hz]
      rw [List.reverse_replicate]

/-- Nine digits after the point are the nanoseconds. -/
theorem fracNano_digits (ds : List (Fin 10)) (k : Nat) (h : ds.length ≤ k) :
    fracNano k ds = digitsVal 0 ds * 10 ^ (k - ds.length) := by
  have key : ∀ (ds : List (Fin 10)) (k acc : Nat), ds.length ≤ k →
      digitsVal acc ds * 10 ^ (k - ds.length) = acc * 10 ^ k + fracNano k ds := by
    intro ds
    induction ds with
    | nil => intro k acc _; simp [digitsVal, fracNano]
    | cons d ds ih =>
      intro k acc hk
      simp only [List.length_cons] at hk
      obtain ⟨k, rfl⟩ : ∃ k', k = k' + 1 := ⟨k - 1, by omega⟩
      have := ih k (acc * 10 + d.val) (by omega)
      simp only [digitsVal, List.length_cons, fracNano]
      rw [show k + 1 - (ds.length + 1) = k - ds.length by omega, this]
      rw [if_neg (by omega), show k + 1 - 1 = k by omega, pow_succ]
      ring
  have := key ds k 0 h
  omega

theorem trimZeros_ne_nil {n : Nat} (h : n ≠ 0) :
    trimZeros (List.replicate (9 - (natDigits n).length) 0 ++ natDigits n) ≠ [] := by
  intro hnil
  obtain ⟨j, hj⟩ := trimZeros_spec (List.replicate (9 - (natDigits n).length) 0 ++ natDigits n)
  rw [hnil, List.nil_append] at hj
  have hv := digitsVal_natDigits n
  rw [← digitsVal_zeros (9 - (natDigits n).length), hj] at hv
  have : digitsVal 0 (List.replicate j (0 : Fin 10)) = 0 := by
    have := digitsVal_zeros j []
    simpa [digitsVal] using this
  omega

theorem zone_noDigit (off : Int) : NoDigit (zoneText off) := by
  intro c u h
  unfold zoneText at h
  split at h
  · simp at h; rw [← h.1]; decide
  · simp only [List.cons.injEq] at h
    rw [← h.1]
    split <;> decide

theorem parseFraction_nano {n : Nat} (h : n < 10 ^ 9) (off : Int) :
    parseFraction (nanoText n ++ zoneText off) = (n, zoneText off) := by
  unfold nanoText
  by_cases h0 : n = 0
  · subst h0; simp only [if_true, List.nil_append]; exact parseFraction_zone off
  · simp only [h0, if_false, List.cons_append]
    unfold parseFraction
    simp only [true_or, if_true]
    rw [takeDigits_append _ (zone_noDigit off)]
    have hlen := natDigits_length n 8 h
    obtain ⟨j, hj⟩ := trimZeros_spec (List.replicate (9 - (natDigits n).length) 0 ++ natDigits n)
    have hf : fracNano 9 (trimZeros (List.replicate (9 - (natDigits n).length) 0 ++ natDigits n)) = n := by
      rw [← fracNano_app_zeros 9 j, ← hj, fracNano_digits _ 9 (by simp; omega), digitsVal_zeros, digitsVal_natDigits]
      simp only [List.length_append, List.length_replicate]
      rw [show 9 - (9 - (natDigits n).length + (natDigits n).length) = 0 by omega]
      simp
    cases hc : trimZeros (List.replicate (9 - (natDigits n).length) 0 ++ natDigits n) with
    | nil => exact absurd hc (trimZeros_ne_nil h0)
    | cons d ds =>
      rw [hc] at hf
      simp [hf]

/-- Parsing the RFC 3339 text with nanoseconds of a time gives the time. -/
theorem parse_formatNano {t : GoTime} (h : t.Plain) (hn : t.nano < 10 ^ 9) : parseTime t.formatNano = some t := by
  obtain ⟨hy0, hy1, ho, ho'⟩ := h
  have hc := civil_ok (t.localSec / 86400)
  unfold year date at hy0 hy1
  unfold formatNano clockText date
  generalize civil (t.localSec / 86400) = c at *
  obtain ⟨y, m, d⟩ := c
  simp only at hy0 hy1 hc ⊢
  obtain ⟨hday, hm1, hm2, hd1, hd2⟩ := hc
  have hd31 : d ≤ 31 := by
    refine le_trans hd2 ?_
    unfold daysIn
    split <;> first | omega | (split <;> omega)
  have hsod : t.secOfDay < 86400 := by unfold secOfDay; omega
  generalize hs : t.secOfDay = s at *
  rw [if_neg (by omega : ¬ y < 0)]
  unfold parseTime
  simp only [List.nil_append, List.append_assoc, List.cons_append]
  have e4 : ∀ r, takeNum 4 0 (pad 4 y.natAbs ++ r) = some (y.natAbs, r) := takeNum_pad (w := 3) (by omega)
  have em : ∀ r, takeNum 2 0 (pad 2 m ++ r) = some (m, r) := takeNum_pad (w := 1) (by omega)
  have ed : ∀ r, takeNum 2 0 (pad 2 d ++ r) = some (d, r) := takeNum_pad (w := 1) (by omega)
  have eh : ∀ r, takeHour (pad 2 (s / 3600) ++ r) = some (s / 3600, r) := takeHour_pad (by omega)
  have emi : ∀ r, takeNum 2 0 (pad 2 (s / 60 % 60) ++ r) = some (s / 60 % 60, r) := takeNum_pad (w := 1) (by omega)
  have es : ∀ r, takeNum 2 0 (pad 2 (s % 60) ++ r) = some (s % 60, r) := takeNum_pad (w := 1) (by omega)
  have hyy : ((y.natAbs : Nat) : Int) = y := by omega
  simp only [e4, em, ed, eh, emi, es, expect_cons, parseFraction_nano hn, parseZone_ok ho ho', hyy,
    Option.bind_eq_bind, Option.bind_some]
  rw [if_pos ⟨hm1, hm2, hd1, hd2, by omega, by omega, by omega⟩, hday]
  simp only [Option.some.injEq]
  have : t.localSec = t.localSec / 86400 * 86400 + s := by
    have : (s : Int) = t.localSec % 86400 := by
      rw [← hs]; unfold secOfDay; omega
    omega
  have hl : t.localSec = t.sec + t.off := rfl
  rcases t with ⟨sec, nano, off⟩
  simp only [GoTime.mk.injEq, true_and, and_true]
  simp only at hl this ⊢
  omega

/-- The characters of a time. -/
theorem formatNano_chars (t : GoTime) : ∀ c ∈ t.formatNano, Xml.IsXmlChar c := by
  have hd : ∀ d : Fin 10, Xml.IsXmlChar (digitChar d) := by decide
  have hpad : ∀ w n, ∀ c ∈ pad w n, Xml.IsXmlChar c := by
    intro w n c hc
    rw [pad_eq] at hc
    obtain ⟨d, -, rfl⟩ := List.mem_map.1 hc
    exact hd d
  intro c hc
  unfold formatNano at hc
  simp only [List.mem_append] at hc
  rcases hc with (hc | hc) | hc
  · unfold clockText at hc
    simp only [List.mem_append, List.mem_cons] at hc
    rcases hc with h | h | rfl | h | rfl | h | rfl | h | rfl | h | rfl | h
    · split at h
      · simp at h; subst h; decide
      · simp at h
    all_goals first | exact hpad _ _ _ h | decide
  · unfold nanoText at hc
    split at hc
    · simp at hc
    · simp only [List.mem_cons, List.mem_map] at hc
      rcases hc with rfl | ⟨d, -, rfl⟩
      · decide
      · exact hd d
  · unfold zoneText at hc
    split at hc
    · simp at hc; subst hc; decide
    · simp only [List.mem_append, List.mem_cons] at hc
      rcases hc with h | h | rfl | h
      · subst h; split <;> decide
      · exact hpad _ _ _ h
      · decide
      · exact hpad _ _ _ h

end Verif.GoTime
