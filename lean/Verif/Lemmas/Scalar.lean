import Verif.Spec.SoapMeans
import Verif.Lemmas.Xml
import Verif.Lemmas.Stamp
import Mathlib.Tactic.FinCases
/-!
# Texts of simple values: what is read is what they stand for
-/
set_option linter.unusedSimpArgs false
namespace Verif.Xml
open Json

/-! ### White space -/

theorem isSpace_iff (c : Char) : Ocppj.isSpace c = true ↔ WhiteSpace c := by
  unfold Ocppj.isSpace WhiteSpace
  simp only [Bool.or_eq_true, Bool.and_eq_true, decide_eq_true_eq, beq_iff_eq, List.mem_cons, List.not_mem_nil, or_false]
  constructor
  · intro h; omega
  · intro h; omega

theorem dropWhile_all {p : Char → Bool} {a : Text} (h : ∀ c ∈ a, p c = true) (t : Text) : (a ++ t).dropWhile p = t.dropWhile p := by
  induction a with
  | nil => rfl
  | cons c a ih =>
    simp only [List.cons_append, List.dropWhile_cons, h c (by simp), if_true]
    exact ih fun x hx => h x (by simp [hx])

theorem dropWhile_split (p : Char → Bool) (t : Text) : ∃ a, (∀ c ∈ a, p c = true) ∧ t = a ++ t.dropWhile p := by
  refine ⟨t.takeWhile p, ?_, (List.takeWhile_append_dropWhile).symm⟩
  intro c hc
  have := List.all_takeWhile (p := p) (l := t)
  rw [List.all_eq_true] at this
  exact this c hc

theorem dropWhile_id {p : Char → Bool} {u : Text} (h : ∀ c ∈ u, p c = false) : u.dropWhile p = u := by
  cases u with
  | nil => rfl
  | cons c u => simp [List.dropWhile_cons, h c (by simp)]

theorem trim_padded (s : Text) : Padded s (Ocppj.trimSpace s) := by
  obtain ⟨a, ha, hs⟩ := dropWhile_split Ocppj.isSpace s
  obtain ⟨b, hb, hr⟩ := dropWhile_split Ocppj.isSpace (s.dropWhile Ocppj.isSpace).reverse
  refine ⟨a, b.reverse, fun c hc => (isSpace_iff c).1 (ha c hc), fun c hc => (isSpace_iff c).1 (hb c (by simpa using hc)), ?_⟩
  have h2 : s.dropWhile Ocppj.isSpace = Ocppj.trimSpace s ++ b.reverse := by
    have := congrArg List.reverse hr
    simpa [Ocppj.trimSpace] using this
  rw [← h2]; exact hs

theorem padded_trim {s u : Text} (h : Padded s u) (hu : ∀ c ∈ u, Ocppj.isSpace c = false) (hne : u ≠ []) :
    Ocppj.trimSpace s = u := by
  obtain ⟨a, b, ha, hb, rfl⟩ := h
  unfold Ocppj.trimSpace
  rw [dropWhile_all fun c hc => (isSpace_iff c).2 (ha c hc)]
  have h1 : (u ++ b).dropWhile Ocppj.isSpace = u ++ b := by
    cases u with
    | nil => exact absurd rfl hne
    | cons c u => simp [List.dropWhile_cons, hu c (by simp)]
  rw [h1, List.reverse_append, dropWhile_all fun c hc => (isSpace_iff c).2 (hb c (by simpa using hc)),
    dropWhile_id fun c hc => hu c (by simpa using hc), List.reverse_reverse]

/-- A parser of the trimmed text. -/
theorem padded_iff {α : Type} {parse : Text → Option α} {P : Text → α → Prop} (h : ∀ u x, parse u = some x ↔ P u x)
    (hP : ∀ u x, P u x → u ≠ [] ∧ ∀ c ∈ u, Ocppj.isSpace c = false) (s : Text) (x : α) :
    parse (Ocppj.trimSpace s) = some x ↔ ∃ u, Padded s u ∧ P u x := by
  constructor
  · intro hx
    exact ⟨_, trim_padded s, (h _ _).1 hx⟩
  · rintro ⟨u, hp, hx⟩
    rw [padded_trim hp (hP u x hx).2 (hP u x hx).1]
    exact (h _ _).2 hx

/-! ### Integers -/

theorem digitsOf_iff (t : Text) (ds : List (Fin 10)) : digitsOf t = some ds ↔ ds ≠ [] ∧ t = ds.map digitChar := by
  constructor
  · intro h
    unfold digitsOf at h
    split at h
    · rename_i d r he
      simp only [Option.some.injEq] at h
      subst h
      refine ⟨by simp, ?_⟩
      have := takeDigits_sound' he
      simpa using this
    · simp at h
  · rintro ⟨h, rfl⟩; exact digitsOf_ok h

theorem digits_head {ds : List (Fin 10)} {c : Char} {u : Text} (h : ds.map digitChar = c :: u) : c ≠ '-' ∧ c ≠ '+' ∧ c ≠ '.' ∧ c ≠ 'e' ∧ c ≠ 'E' := by
  cases ds with
  | nil => simp at h
  | cons d ds =>
    simp only [List.map_cons, List.cons.injEq] at h
    obtain ⟨rfl, -⟩ := h
    revert d; decide

/-- A sign and the rest. -/
def sgn (t : Text) : Bool × Text :=
  match t with
  | '-' :: u => (true, u)
  | '+' :: u => (false, u)
  | u => (false, u)

theorem sgn_signed (t : Text) : Signed (sgn t).1 t (sgn t).2 := by
  unfold sgn
  split
  · exact Or.inr ⟨rfl, rfl⟩
  · exact Or.inl ⟨rfl, Or.inr rfl⟩
  · exact Or.inl ⟨rfl, Or.inl rfl⟩

theorem signed_sgn {neg : Bool} {t : Text} {ds : List (Fin 10)} (h : Signed neg t (ds.map digitChar)) (hd : ds ≠ []) :
    sgn t = (neg, ds.map digitChar) := by
  obtain ⟨d, ds, rfl⟩ := List.exists_cons_of_ne_nil hd
  rcases h with ⟨rfl, rfl | rfl⟩ | ⟨rfl, rfl⟩
  · unfold sgn
    split
    · rename_i u he
      exact absurd rfl (digits_head he).1
    · rename_i u he
      exact absurd rfl (digits_head he).2.1
    · rfl
  · rfl
  · rfl

theorem parseInt_sgn (b : Nat) (t : Text) : Xml.parseInt b t =
    match digitsOf (sgn t).2 with
    | none => none
    | some ds =>
      if -(2 ^ (b - 1)) ≤ (if (sgn t).1 then -(digitsVal 0 ds : Int) else (digitsVal 0 ds : Int)) ∧
          (if (sgn t).1 then -(digitsVal 0 ds : Int) else (digitsVal 0 ds : Int)) < 2 ^ (b - 1)
      then some (if (sgn t).1 then -(digitsVal 0 ds : Int) else (digitsVal 0 ds : Int)) else none := rfl

theorem parseInt_iff (b : Nat) (t : Text) (n : Int) :
    Xml.parseInt b t = some n ↔ IntText t n ∧ -(2 ^ (b - 1)) ≤ n ∧ n < 2 ^ (b - 1) := by
  have hs := sgn_signed t
  rw [parseInt_sgn]
  constructor
  · intro h
    split at h
    · simp at h
    · rename_i ds hds
      obtain ⟨hne, hu⟩ := (digitsOf_iff _ _).1 hds
      rw [hu] at hs
      generalize hq : (if (sgn t).1 then -(digitsVal 0 ds : Int) else (digitsVal 0 ds : Int)) = q at h
      by_cases hb : -(2 ^ (b - 1)) ≤ q ∧ q < 2 ^ (b - 1)
      · rw [if_pos hb, Option.some.injEq] at h
        subst h
        exact ⟨⟨_, ds, hne, hs, hq.symm⟩, hb⟩
      · rw [if_neg hb] at h
        simp at h
  · rintro ⟨⟨neg', ds, hne, hsg, rfl⟩, hb⟩
    rw [signed_sgn hsg hne]
    simp only
    rw [digitsOf_ok hne]
    simp only
    rw [if_pos hb]

theorem digit_notSpace {ds : List (Fin 10)} {c : Char} (h : c ∈ ds.map digitChar) : Ocppj.isSpace c = false := by
  obtain ⟨d, -, rfl⟩ := List.mem_map.1 h
  exact isSpace_digit d

theorem signed_plain {neg : Bool} {t u : Text} (h : Signed neg t u) (hu : u ≠ [] ∧ ∀ c ∈ u, Ocppj.isSpace c = false) :
    t ≠ [] ∧ ∀ c ∈ t, Ocppj.isSpace c = false := by
  rcases h with ⟨-, rfl | rfl⟩ | ⟨-, rfl⟩
  · exact hu
  · refine ⟨by simp, ?_⟩
    intro c hc
    rcases List.mem_cons.1 hc with rfl | hc
    · decide
    · exact hu.2 c hc
  · refine ⟨by simp, ?_⟩
    intro c hc
    rcases List.mem_cons.1 hc with rfl | hc
    · decide
    · exact hu.2 c hc

theorem intText_plain {t : Text} {n : Int} (h : IntText t n) : t ≠ [] ∧ ∀ c ∈ t, Ocppj.isSpace c = false := by
  obtain ⟨neg, ds, hne, hs, -⟩ := h
  exact signed_plain hs ⟨by simpa using hne, fun c hc => digit_notSpace hc⟩

/-! ### Floats -/

theorem floatExp_sgn (c : Char) (u : Text) : floatExp (c :: u) =
    if c = 'e' ∨ c = 'E' then (digitsOf (sgn u).2).map fun ds => if (sgn u).1 then -(digitsVal 0 ds : Int) else (digitsVal 0 ds : Int)
    else none := rfl

theorem floatExp_iff (t : Text) (e : Int) : floatExp t = some e ↔ ExpText t e := by
  cases t with
  | nil => simp [floatExp, ExpText, eq_comm]
  | cons c u =>
    rw [floatExp_sgn]
    unfold ExpText
    simp only [reduceCtorEq, false_and, List.cons.injEq, false_or]
    by_cases hc : c = 'e' ∨ c = 'E'
    · rw [if_pos hc]
      have hs := sgn_signed u
      simp only [Option.map_eq_some_iff]
      constructor
      · rintro ⟨ds, hds, rfl⟩
        obtain ⟨hne, hu⟩ := (digitsOf_iff _ _).1 hds
        rw [hu] at hs
        exact ⟨c, u, hc, ⟨rfl, rfl⟩, _, ds, hne, hs, rfl⟩
      · rintro ⟨c', u', -, ⟨rfl, rfl⟩, neg', ds, hne, hsg, rfl⟩
        rw [signed_sgn hsg hne]
        exact ⟨ds, digitsOf_ok hne, rfl⟩
    · rw [if_neg hc]
      simp only [reduceCtorEq, false_iff]
      rintro ⟨c', u', hc', ⟨rfl, rfl⟩, -⟩
      exact hc hc'

/-- A point and digits, or nothing. -/
theorem fracDigits_part (t : Text) : ∃ ft, FracPart ft (fracDigits t).1 ∧ t = ft ++ (fracDigits t).2 := by
  unfold fracDigits
  split
  · rename_i r
    refine ⟨_, Or.inr rfl, ?_⟩
    simp only [List.cons_append]
    rw [← takeDigits_sound]
  · exact ⟨[], Or.inl ⟨rfl, rfl⟩, rfl⟩

theorem expText_noDigit {t : Text} {e : Int} (h : ExpText t e) : NoDigit t ∧ ∀ r, t ≠ '.' :: r := by
  rcases h with ⟨rfl, -⟩ | ⟨c, u, hc, rfl, -⟩
  · exact ⟨noDigit_nil, by simp⟩
  · constructor
    · intro c' u' he
      simp only [List.cons.injEq] at he
      obtain ⟨rfl, rfl⟩ := he
      rcases hc with rfl | rfl <;> decide
    · rintro r he
      simp only [List.cons.injEq] at he
      obtain ⟨rfl, rfl⟩ := he
      revert hc; decide

theorem decFloat_iff (t : Text) (q : ℚ) : decFloat t = some q ↔ DecText t q := by
  constructor
  · intro h
    unfold decFloat at h
    split at h
    · simp at h
    · rename_i hne
      split at h
      · simp at h
      · rename_i e he
        simp only [Option.some.injEq] at h
        obtain ⟨ft, h1, h2⟩ := fracDigits_part (takeDigits t).2
        refine ⟨(takeDigits t).1, _, ft, (fracDigits (takeDigits t).2).2, e, ?_, h1, (floatExp_iff _ _).1 he, ?_, h.symm⟩
        · by_contra hc
          rw [not_or, not_not, not_not] at hc
          exact hne hc
        · rw [← h2]; exact takeDigits_sound t
  · rintro ⟨ip, fp, ft, et, e, hne, hf, he, rfl, rfl⟩
    obtain ⟨hn1, hn2⟩ := expText_noDigit he
    have hn : NoDigit (ft ++ et) := by
      rcases hf with ⟨rfl, -⟩ | rfl
      · simpa using hn1
      · intro c u h
        simp only [List.cons_append, List.cons.injEq] at h
        rw [← h.1]; decide
    have h1 : takeDigits (ip.map digitChar ++ (ft ++ et)) = (ip, ft ++ et) := takeDigits_append ip hn
    have h2 : fracDigits (ft ++ et) = (fp, et) := by
      rcases hf with ⟨rfl, rfl⟩ | rfl
      · unfold fracDigits
        split
        · rename_i r hr; exact absurd hr (hn2 r)
        · rfl
      · simp only [List.cons_append, fracDigits]
        exact takeDigits_append fp hn1
    unfold decFloat
    simp only [h1, h2, (floatExp_iff _ _).2 he]
    rw [if_neg]
    rintro ⟨ha, hb⟩
    rcases hne with h | h
    · exact h ha
    · exact h hb

/-! ### Floats as in Go programs -/

theorem toLower_toNat (c : Char) : c.toLower.toNat = if 65 ≤ c.toNat ∧ c.toNat ≤ 90 then c.toNat + 32 else c.toNat := by
  by_cases h : 65 ≤ c.toNat ∧ c.toNat ≤ 90
  · have h' : c.val ≥ 'A'.val ∧ c.val ≤ 'Z'.val := h
    rw [if_pos h]
    unfold Char.toLower
    rw [dif_pos h']
    show (c.val + 32).toNat = c.val.toNat + 32
    have h2 : c.val.toNat ≤ 90 := h.2
    rw [UInt32.toNat_add]
    simp
    omega
  · have h' : ¬ (c.val ≥ 'A'.val ∧ c.val ≤ 'Z'.val) := h
    rw [if_neg h]
    unfold Char.toLower
    rw [dif_neg h']

theorem floatDigit_hex (c : Char) : floatDigit true c = Json.hexVal c := by
  have h1 : ∀ a b : Char, (a ≤ c ∧ c ≤ b) ↔ (a.toNat ≤ c.toNat ∧ c.toNat ≤ b.toNat) := fun a b => Iff.rfl
  unfold floatDigit Json.hexVal
  simp only [h1, toLower_toNat]
  have e1 : ('0' : Char).toNat = 48 := rfl
  have e2 : ('9' : Char).toNat = 57 := rfl
  have e3 : ('a' : Char).toNat = 97 := rfl
  have e4 : ('f' : Char).toNat = 102 := rfl
  have e5 : ('A' : Char).toNat = 65 := rfl
  have e6 : ('F' : Char).toNat = 70 := rfl
  simp only [e1, e2, e3, e4, e5, e6, true_and]
  generalize c.toNat = n
  by_cases a : 48 ≤ n ∧ n ≤ 57
  · simp [a]
  · rw [if_neg a, if_neg a]
    by_cases b : 97 ≤ n ∧ n ≤ 102
    · have : ¬ (65 ≤ n ∧ n ≤ 90) := by omega
      rw [if_pos b, if_neg this, if_pos b]
    · rw [if_neg b]
      by_cases d : 65 ≤ n ∧ n ≤ 70
      · have : (65 ≤ n ∧ n ≤ 90) := by omega
        rw [if_pos d, if_pos this, if_pos (by omega)]
        congr 1
      · rw [if_neg d]
        by_cases g : 65 ≤ n ∧ n ≤ 90
        · rw [if_pos g, if_neg (by omega)]
        · rw [if_neg g, if_neg b]

theorem floatDigit_isDigit (c : Char) : (floatDigit false c).isSome = true ↔ c.isDigit = true := by
  have h1 : c.isDigit = true ↔ 48 ≤ c.toNat ∧ c.toNat ≤ 57 := by
    simp only [Char.isDigit, Bool.and_eq_true, decide_eq_true_eq]
    exact Iff.rfl
  rw [h1]
  unfold floatDigit
  by_cases h : 48 ≤ c.toNat ∧ c.toNat ≤ 57
  · simp [h]
  · simp [h]

theorem separated_dec (t : Text) : Between false .beginning t ↔ Separated (fun c => c.isDigit = true) t (strip t) := by
  unfold Between Separated strip
  simp only [floatDigit_isDigit, reduceCtorEq, false_implies, true_and, and_false, false_or]

theorem separated_hex (v w : Text) : Separated IsHex ('0' :: v) ('0' :: w) ↔ w = strip v ∧ Between true .digit v := by
  unfold Between Separated
  rw [cons_split]
  simp only [cons_snoc, floatDigit_hex, reduceCtorEq, false_implies, true_and, and_true]
  have h0 : IsHex '0' := by unfold IsHex; decide
  have h1 : ('0' : Char) ≠ '_' := by decide
  have h2 : ('0' :: v).filter (· ≠ '_') = '0' :: strip v := strip_cons h1
  rw [h2]
  simp only [List.cons.injEq, true_and, h0, and_true]
  have h3 : (('0' : Char) = '_') = False := by simp
  simp only [h3, false_implies, true_and]
  exact Iff.rfl

/-- A hexadecimal digit, as a test. -/
def hexB (c : Char) : Bool := (Json.hexVal c).isSome

theorem mantissa_hexFrac {s : Text} (h : '_' ∉ s) : mantissa true true s =
    ([], (s.takeWhile hexB).map fun c => (Json.hexVal c).getD 0, s.dropWhile hexB) := by
  induction s with
  | nil => rfl
  | cons c s ih =>
    simp only [List.mem_cons, not_or] at h
    have ih := ih h.2
    simp only [mantissa]
    rw [if_neg (fun e => h.1 e.symm)]
    by_cases hd : c = '.'
    · subst hd
      have : hexB '.' = false := by decide
      simp [List.takeWhile_cons, List.dropWhile_cons, this]
    · rw [if_neg hd, floatDigit_hex]
      cases hv : Json.hexVal c with
      | none => simp [List.takeWhile_cons, List.dropWhile_cons, hexB, hv]
      | some d => simp [List.takeWhile_cons, List.dropWhile_cons, hexB, hv, ih]

/-- The digits after the point, if there is one, and the rest. -/
def hexFrac (t : Text) : Text × Text :=
  match t with
  | '.' :: r => (r.takeWhile hexB, r.dropWhile hexB)
  | r => ([], r)

theorem hexFrac_none {t : Text} (h : ∀ r, t ≠ '.' :: r) : hexFrac t = ([], t) := by
  unfold hexFrac
  split
  · rename_i r; exact absurd rfl (h r)
  · rfl

theorem hexFrac_part (t : Text) : ∃ ft, ((ft = [] ∧ (hexFrac t).1 = []) ∨ ft = '.' :: (hexFrac t).1) ∧ (∀ c ∈ (hexFrac t).1, IsHex c) ∧
    t = ft ++ (hexFrac t).2 := by
  unfold hexFrac
  split
  · rename_i r
    refine ⟨_, .inr rfl, ?_, by simp⟩
    intro c hc
    have := List.all_takeWhile (p := hexB) (l := r)
    rw [List.all_eq_true] at this
    exact this c hc
  · exact ⟨[], .inl ⟨rfl, rfl⟩, by simp, rfl⟩

theorem mantissa_hex {s : Text} (h : '_' ∉ s) : mantissa true false s =
    ((s.takeWhile hexB).map fun c => (Json.hexVal c).getD 0, (hexFrac (s.dropWhile hexB)).1.map fun c => (Json.hexVal c).getD 0,
      (hexFrac (s.dropWhile hexB)).2) := by
  induction s with
  | nil => rfl
  | cons c s ih =>
    simp only [List.mem_cons, not_or] at h
    have ih := ih h.2
    simp only [mantissa]
    rw [if_neg (fun e => h.1 e.symm)]
    by_cases hd : c = '.'
    · subst hd
      have : hexB '.' = false := by decide
      simp [List.takeWhile_cons, List.dropWhile_cons, this, mantissa_hexFrac h.2, hexFrac]
    · rw [if_neg hd, floatDigit_hex]
      cases hv : Json.hexVal c with
      | none =>
        simp only [List.takeWhile_cons, List.dropWhile_cons, hexB, hv, Option.isSome_none, Bool.false_eq_true, if_false, List.map_nil]
        rw [hexFrac_none (fun r h => hd (by simp at h; exact h.1))]
        rfl
      | some d =>
        simp only [List.takeWhile_cons, List.dropWhile_cons, hexB, hv, Option.isSome_some, if_true, List.map_cons, Option.getD_some]
        rw [ih]
        rfl

theorem hexNum_foldl (t : Text) (a : Nat) : t.foldl (fun a c => a * 16 + (Json.hexVal c).getD 0) a = a * 16 ^ t.length + hexNum t := by
  unfold hexNum
  induction t generalizing a with
  | nil => simp
  | cons c t ih =>
    simp only [List.foldl_cons, List.length_cons]
    rw [ih, ih (0 * 16 + _)]
    ring

theorem digitsIn_hex (t : Text) : digitsIn 16 (t.map fun c => (Json.hexVal c).getD 0) = hexNum t := by
  unfold digitsIn hexNum
  rw [List.foldl_map]

theorem fracIn_hex (t : Text) : fracIn 16 (t.map fun c => (Json.hexVal c).getD 0) = (hexNum t : ℚ) / 16 ^ t.length := by
  induction t with
  | nil => simp [fracIn, hexNum]
  | cons c t ih =>
    simp only [List.map_cons, fracIn, ih, List.length_cons]
    have h : hexNum (c :: t) = (Json.hexVal c).getD 0 * 16 ^ t.length + hexNum t := by
      rw [← hexNum_foldl]; simp [hexNum]
    rw [h]
    push_cast
    have : (16 : ℚ) ^ t.length ≠ 0 := by positivity
    field_simp
    ring

theorem expValue_iff (u : Text) (e : Int) : expValue u = some e ↔ IntText u e := by
  have h1 : floatExp ('e' :: u) = expValue u := by
    unfold floatExp expValue splitSign
    simp only
    simp only [true_or, if_true]
    split <;> simp_all
  rw [← h1, floatExp_iff]
  unfold ExpText
  constructor
  · rintro (⟨h, -⟩ | ⟨c, v, -, h, hi⟩)
    · simp at h
    · simp only [List.cons.injEq] at h
      rw [h.2]; exact hi
  · intro h
    exact .inr ⟨'e', u, .inl rfl, rfl, h⟩

theorem takeWhile_hex {a r : Text} (ha : ∀ c ∈ a, IsHex c) (hr : ∀ c u, r = c :: u → hexB c = false) :
    (a ++ r).takeWhile hexB = a ∧ (a ++ r).dropWhile hexB = r := by
  induction a with
  | nil =>
    cases r with
    | nil => simp
    | cons c u => simp [List.takeWhile_cons, List.dropWhile_cons, hr c u rfl]
  | cons c a ih =>
    have h1 : hexB c = true := ha c (by simp)
    have := ih fun x hx => ha x (by simp [hx])
    simp [List.takeWhile_cons, List.dropWhile_cons, h1, this.1, this.2]

theorem all_takeWhile_hex (s : Text) : ∀ c ∈ s.takeWhile hexB, IsHex c := by
  intro c hc
  have := List.all_takeWhile (p := hexB) (l := s)
  rw [List.all_eq_true] at this
  exact this c hc

theorem hexFloat_iff {w : Text} (h : '_' ∉ w) (q : ℚ) : plainFloat true w = some q ↔ HexText w q := by
  unfold plainFloat
  rw [mantissa_hex h]
  simp only [if_true, List.map_eq_nil_iff, digitsIn_hex, fracIn_hex]
  have hw : w = w.takeWhile hexB ++ w.dropWhile hexB := (List.takeWhile_append_dropWhile).symm
  constructor
  · intro hq
    split at hq
    · simp at hq
    rename_i hne
    rw [Option.map_eq_some_iff] at hq
    obtain ⟨e, he, hq⟩ := hq
    obtain ⟨ft, h1, h2, h3⟩ := hexFrac_part (w.dropWhile hexB)
    generalize hexFrac (w.dropWhile hexB) = p at *
    obtain ⟨fp, r⟩ := p
    simp only at *
    cases r with
    | nil => simp [readExp] at he
    | cons x et =>
      have hu : '_' ∉ et := by
        intro hm
        apply h
        rw [hw, h3]; simp [hm]
      rw [readExp_cons true hu] at he
      simp only [if_true] at he
      split at he
      · rename_i hl
        refine ⟨w.takeWhile hexB, fp, ft, x, et, e, ?_, all_takeWhile_hex w, h2, h1, (lower_p x).1 hl, (expValue_iff _ _).1 he, ?_, hq.symm⟩
        · by_contra hc
          rw [not_or, not_not, not_not] at hc
          exact hne hc
        · rw [← h3]; exact hw
      · simp at he
  · rintro ⟨ip, fp, ft, x, et, e, hne, hi, hf, hft, hx, he, hw, rfl⟩
    have hxh : hexB x = false := by rcases hx with rfl | rfl <;> decide
    have hl : x.toLower = 'p' := (lower_p x).2 hx
    have hu : '_' ∉ et := by
      intro hm
      apply h
      simp [hw, hm]
    have hexp : readExp true (x :: et) = some e := by
      rw [readExp_cons true hu]
      simp only [if_true]
      rw [if_pos hl]
      exact (expValue_iff _ _).2 he
    have h1 : w.takeWhile hexB = ip ∧ w.dropWhile hexB = ft ++ x :: et := by
      rw [hw]
      apply takeWhile_hex hi
      intro c u hc
      rcases hft with ⟨rfl, -⟩ | rfl
      · simp at hc; rw [← hc.1]; exact hxh
      · simp at hc; rw [← hc.1]; decide
    have h2 : hexFrac (ft ++ x :: et) = (fp, x :: et) := by
      rcases hft with ⟨rfl, rfl⟩ | rfl
      · have hxd : x ≠ '.' := by rintro rfl; revert hx; decide
        exact hexFrac_none (fun r h => hxd (by simp at h; exact h.1))
      · have h2 := takeWhile_hex (r := x :: et) hf (by intro c u hc; simp at hc; rw [← hc.1]; exact hxh)
        simp only [List.cons_append, hexFrac, h2.1, h2.2]
    rw [h1.1, h1.2, h2]
    simp only
    rw [if_neg (by rintro ⟨rfl, rfl⟩; simp at hne), hexp]
    rfl

theorem readFloat_iff (t : Text) (q : ℚ) : readFloat t = some q ↔ NumberText t q := by
  rw [readFloat_strip]
  unfold NumberText
  constructor
  · rintro (⟨-, h1, h2⟩ | ⟨x, v, h1, h2, h3, h4, h5⟩)
    · rw [plainFloat_dec (strip_not_mem t), decFloat_iff] at h2
      exact .inl ⟨_, (separated_dec t).1 h1, h2⟩
    · rw [hexFloat_iff (strip_not_mem v)] at h5
      exact .inr ⟨x, v, _, h1, h2, (separated_hex v _).2 ⟨rfl, h4⟩, h5⟩
  · rintro (⟨u, h1, h2⟩ | ⟨x, v, w, h1, rfl, h3, h4⟩)
    · have hu : u = strip t := h1.1
      subst hu
      rw [← decFloat_iff, ← plainFloat_dec (strip_not_mem t)] at h2
      refine .inl ⟨?_, (separated_dec t).2 h1, h2⟩
      unfold hexPrefix
      split
      · rename_i x c r
        by_cases hx : x.toLower = 'x'
        · rw [plainFloat_prefix (.inr (.inr hx))] at h2
          simp at h2
        · rw [if_neg hx]
      · rfl
    · obtain ⟨rfl, h5⟩ := (separated_hex v w).1 h3
      refine .inr ⟨x, v, h1, rfl, ?_, h5, (hexFloat_iff (strip_not_mem v) q).2 h4⟩
      rintro rfl
      obtain ⟨ip, fp, ft, x', et, e, -, -, -, -, -, -, h, -⟩ := h4
      have := congrArg List.length h
      simp [strip] at this

theorem expText_plain {t : Text} {e : Int} (h : ExpText t e) : ∀ c ∈ t, Ocppj.isSpace c = false := by
  rcases h with ⟨rfl, -⟩ | ⟨c, u, hc, rfl, hu⟩
  · simp
  · intro x hx
    rcases List.mem_cons.1 hx with rfl | hx
    · rcases hc with rfl | rfl <;> decide
    · exact (intText_plain hu).2 x hx

theorem decText_plain {t : Text} {q : ℚ} (h : DecText t q) : t ≠ [] ∧ ∀ c ∈ t, Ocppj.isSpace c = false := by
  obtain ⟨ip, fp, ft, et, e, hne, hf, he, rfl, -⟩ := h
  constructor
  · intro h0
    simp only [List.append_eq_nil_iff, List.map_eq_nil_iff] at h0
    obtain ⟨h1, h2, -⟩ := h0
    rcases hne with h | h
    · exact h h1
    · rcases hf with ⟨-, rfl⟩ | rfl
      · exact h rfl
      · simp at h2
  · intro c hc
    simp only [List.mem_append] at hc
    rcases hc with hc | hc | hc
    · exact digit_notSpace hc
    · rcases hf with ⟨rfl, -⟩ | rfl
      · simp at hc
      · rcases List.mem_cons.1 hc with rfl | hc
        · decide
        · exact digit_notSpace hc
    · exact expText_plain he c hc

theorem isHex_range {c : Char} (h : IsHex c) : (48 ≤ c.toNat ∧ c.toNat ≤ 57) ∨ (97 ≤ c.toNat ∧ c.toNat ≤ 102) ∨ (65 ≤ c.toNat ∧ c.toNat ≤ 70) := by
  unfold IsHex Json.hexVal at h
  split at h
  · rename_i a; exact .inl a
  · split at h
    · rename_i a; exact .inr (.inl a)
    · split at h
      · rename_i a; exact .inr (.inr a)
      · simp at h

theorem isHex_notSpace {c : Char} (h : IsHex c) : Ocppj.isSpace c = false := by
  by_contra hs
  rw [Bool.not_eq_false] at hs
  have hw := (isSpace_iff c).1 hs
  have := isHex_range h
  unfold WhiteSpace at hw
  simp only [List.mem_cons, List.not_mem_nil, or_false] at hw
  omega

theorem hexText_plain {t : Text} {q : ℚ} (h : HexText t q) : ∀ c ∈ t, Ocppj.isSpace c = false := by
  obtain ⟨ip, fp, ft, x, et, e, -, hi, hf, hft, hx, he, rfl, -⟩ := h
  intro c hc
  simp only [List.mem_append, List.mem_cons] at hc
  rcases hc with hc | hc | rfl | hc
  · exact isHex_notSpace (hi c hc)
  · rcases hft with ⟨rfl, -⟩ | rfl
    · simp at hc
    · rcases List.mem_cons.1 hc with rfl | hc
      · decide
      · exact isHex_notSpace (hf c hc)
  · rcases hx with rfl | rfl <;> decide
  · exact (intText_plain he).2 c hc

theorem strip_space {t : Text} (h : ∀ c ∈ strip t, Ocppj.isSpace c = false) : ∀ c ∈ t, Ocppj.isSpace c = false := by
  intro c hc
  by_cases hu : c = '_'
  · subst hu; decide
  · exact h c (by simp [strip, hc, hu])

theorem numberText_plain {t : Text} {q : ℚ} (h : NumberText t q) : t ≠ [] ∧ ∀ c ∈ t, Ocppj.isSpace c = false := by
  rcases h with ⟨u, h1, h2⟩ | ⟨x, v, w, h1, rfl, h3, h4⟩
  · have hu : u = strip t := h1.1
    subst hu
    have := decText_plain h2
    exact ⟨by rintro rfl; exact this.1 rfl, strip_space this.2⟩
  · obtain ⟨rfl, -⟩ := (separated_hex v w).1 h3
    refine ⟨by simp, ?_⟩
    intro c hc
    simp only [List.mem_cons] at hc
    rcases hc with rfl | rfl | hc
    · decide
    · rcases h1 with rfl | rfl <;> decide
    · exact strip_space (hexText_plain h4) c hc

theorem lower_notSpace {c : Char} (h : c.toLower.isAlpha = true) : Ocppj.isSpace c = false := by
  by_contra hs
  rw [Bool.not_eq_false] at hs
  have hw := (isSpace_iff c).1 hs
  have hn : c.toLower = c := by
    unfold Char.toLower
    have : ¬ (c.val ≥ 65 ∧ c.val ≤ 90) := by
      rintro ⟨h1, h2⟩
      have h1' : 65 ≤ c.toNat := h1
      have h2' : c.toNat ≤ 90 := h2
      unfold WhiteSpace at hw
      simp only [List.mem_cons, List.not_mem_nil, or_false] at hw
      omega
    simp [this]
  rw [hn] at h
  have ha : (65 ≤ c.toNat ∧ c.toNat ≤ 90) ∨ (97 ≤ c.toNat ∧ c.toNat ≤ 122) := by
    simp only [Char.isAlpha, Char.isUpper, Char.isLower, Bool.or_eq_true, Bool.and_eq_true, decide_eq_true_eq] at h
    rcases h with ⟨a, b⟩ | ⟨a, b⟩
    · exact Or.inl ⟨a, b⟩
    · exact Or.inr ⟨a, b⟩
  unfold WhiteSpace at hw
  simp only [List.mem_cons, List.not_mem_nil, or_false] at hw
  omega

theorem word_plain {u w : Text} (h : u.map Char.toLower = w) (hw : w ≠ [] ∧ ∀ c ∈ w, c.isAlpha = true) :
    u ≠ [] ∧ ∀ c ∈ u, Ocppj.isSpace c = false := by
  subst h
  refine ⟨by simpa using hw.1, ?_⟩
  intro c hc
  exact lower_notSpace (hw.2 _ (List.mem_map_of_mem hc))

theorem floatSpelled_plain {t : Text} {f : GoFloat} (h : FloatSpelled t f) : t ≠ [] ∧ ∀ c ∈ t, Ocppj.isSpace c = false := by
  rcases h with ⟨neg, u, q, r, hs, hd, -, -⟩ | ⟨neg, u, hs, hw | hw, -⟩ | ⟨hw, -⟩
  · exact signed_plain hs (numberText_plain hd)
  · exact signed_plain hs (word_plain hw (by decide))
  · exact signed_plain hs (word_plain hw (by decide))
  · exact word_plain hw (by decide)

theorem splitSign_signed (t : Text) : Signed (splitSign t).1 t (splitSign t).2.2 ∧
    ((splitSign t).2.1 = false → (splitSign t).1 = false ∧ (splitSign t).2.2 = t) := by
  unfold splitSign
  split
  · exact ⟨Or.inr ⟨rfl, rfl⟩, by simp⟩
  · exact ⟨Or.inl ⟨rfl, Or.inr rfl⟩, by simp⟩
  · exact ⟨Or.inl ⟨rfl, Or.inl rfl⟩, by simp⟩

theorem signed_split {neg : Bool} {t u : Text} (h : Signed neg t u) (hu : ∀ c r, u = c :: r → c ≠ '-' ∧ c ≠ '+') :
    ∃ s, splitSign t = (neg, s, u) ∧ (t = u → s = false) := by
  rcases h with ⟨rfl, rfl | rfl⟩ | ⟨rfl, rfl⟩
  · refine ⟨false, ?_, fun _ => rfl⟩
    unfold splitSign
    split
    · rename_i r; exact absurd rfl (hu _ _ rfl).1
    · rename_i r; exact absurd rfl (hu _ _ rfl).2
    · rfl
  · refine ⟨true, rfl, fun h => ?_⟩
    have := congrArg List.length h
    simp at this
  · refine ⟨true, rfl, fun h => ?_⟩
    have := congrArg List.length h
    simp at this

theorem decText_head {u : Text} {q : ℚ} (h : DecText u q) : ∀ c r, u = c :: r → c.isDigit = true ∨ c = '.' := by
  obtain ⟨ip, fp, ft, et, e, hne, hf, he, rfl, -⟩ := h
  intro c r hc
  cases ip with
  | cons d ip =>
    simp only [List.map_cons, List.cons_append, List.cons.injEq] at hc
    rw [← hc.1]; exact Or.inl (digitChar_isDigit d)
  | nil =>
    rcases hf with ⟨rfl, rfl⟩ | rfl
    · simp at hne
    · simp only [List.map_nil, List.nil_append, List.cons_append, List.cons.injEq] at hc
      exact Or.inr hc.1.symm

theorem numberText_head {u : Text} {q : ℚ} (h : NumberText u q) : ∀ c r, u = c :: r → c.isDigit = true ∨ c = '.' := by
  rcases h with ⟨w, h1, h2⟩ | ⟨x, v, w, h1, rfl, h3, h4⟩
  · rintro c r rfl
    by_cases hc : c = '_'
    · obtain ⟨⟨a', y, h, -⟩, -⟩ := h1.2 [] r (by simp [hc])
      simp at h
    · refine decText_head h2 c (strip r) ?_
      rw [← strip_cons hc]; exact h1.1
  · intro c r h
    simp only [List.cons.injEq] at h
    rw [← h.1]
    exact .inl (by decide)

theorem digitDot {c : Char} (h : c.isDigit = true ∨ c = '.') : c ≠ '-' ∧ c ≠ '+' ∧ c.toLower ≠ 'i' ∧ c.toLower ≠ 'n' := by
  rcases h with h | rfl
  · obtain ⟨d, rfl⟩ : ∃ d : Fin 10, c = digitChar d := by
      simp only [Char.isDigit, Bool.and_eq_true, decide_eq_true_eq] at h
      have h1 : 48 ≤ c.toNat := h.1
      have h2 : c.toNat ≤ 57 := h.2
      refine ⟨⟨c.toNat - 48, by omega⟩, ?_⟩
      unfold digitChar
      simp only
      rw [show 48 + (c.toNat - 48) = c.toNat by omega, Char.ofNat_toNat]
    revert d; decide
  · decide

theorem word_head {u w : Text} {x : Char} {w' : Text} (h : u.map Char.toLower = w) (hw : w = x :: w') : ∀ c r, u = c :: r → c.toLower = x := by
  rintro c r rfl
  rw [hw] at h
  simp only [List.map_cons, List.cons.injEq] at h
  exact h.1

theorem letter_noSign {c : Char} (h : c.toLower = 'i' ∨ c.toLower = 'n') : c ≠ '-' ∧ c ≠ '+' := by
  constructor <;> rintro rfl <;> revert h <;> decide

theorem parseFloat_iff (t : Text) (f : GoFloat) : parseFloat t = some f ↔ FloatSpelled t f := by
  constructor
  · intro h
    obtain ⟨hs1, hs2⟩ := splitSign_signed t
    unfold parseFloat at h
    generalize splitSign t = p at h hs1 hs2
    obtain ⟨neg, signed, u⟩ := p
    simp only at h hs1 hs2
    split at h
    · rename_i hi
      simp only [Option.some.injEq] at h
      exact Or.inr (Or.inl ⟨neg, u, hs1, hi, h.symm⟩)
    · split at h
      · rename_i hn
        simp only [Option.some.injEq] at h
        right; right
        rw [← (hs2 hn.2).2]
        exact ⟨hn.1, h.symm⟩
      · split at h
        · simp at h
        · rename_i m hm
          simp only [Option.map_eq_some_iff] at h
          obtain ⟨r, hr, rfl⟩ := h
          refine Or.inl ⟨neg, u, m, r, hs1, (readFloat_iff _ _).1 hm, ?_, rfl⟩
          rw [← hr]; congr 1; split <;> ring
  · rintro (⟨neg, u, q, r, hs, hd, hr, rfl⟩ | ⟨neg, u, hs, hw, rfl⟩ | ⟨hw, rfl⟩)
    · have hh := numberText_head hd
      obtain ⟨s, hsp, -⟩ := signed_split hs fun c r h => ⟨(digitDot (hh c r h)).1, (digitDot (hh c r h)).2.1⟩
      unfold parseFloat
      rw [hsp]
      simp only
      have hne := (numberText_plain hd).1
      obtain ⟨c, u', rfl⟩ := List.exists_cons_of_ne_nil hne
      obtain ⟨-, -, h3, h4⟩ := digitDot (hh c u' rfl)
      rw [if_neg, if_neg]
      · rw [(readFloat_iff _ _).2 hd]
        simp only
        rw [show (if neg = true then (-1 : ℚ) else 1) * q = if neg = true then -q else q by split <;> ring, hr]
        rfl
      · rintro ⟨h, -⟩
        exact h4 (word_head h rfl _ _ rfl)
      · rintro (h | h)
        · exact h3 (word_head h rfl _ _ rfl)
        · exact h3 (word_head h rfl _ _ rfl)
    · have hh : ∀ c r, u = c :: r → c.toLower = 'i' := by
        rcases hw with hw | hw
        · exact word_head hw rfl
        · exact word_head hw rfl
      obtain ⟨s, hsp, -⟩ := signed_split hs fun c r h => letter_noSign (Or.inl (hh c r h))
      unfold parseFloat
      rw [hsp]
      simp only
      rw [if_pos hw]
    · have hh : ∀ c r, t = c :: r → c.toLower = 'n' := word_head hw rfl
      obtain ⟨s, hsp, hs⟩ := signed_split (neg := false) (t := t) (u := t) (Or.inl ⟨rfl, Or.inl rfl⟩) fun c r h => letter_noSign (Or.inr (hh c r h))
      unfold parseFloat
      rw [hsp, hs rfl]
      simp only
      rw [if_neg, if_pos ⟨hw, trivial⟩]
      rw [hw]; decide

/-! ### Truth values -/

theorem parseBool_iff (t : Text) (b : Bool) : parseBool t = some b ↔ BoolText t b := by
  unfold parseBool BoolText
  cases b
  · simp only [Bool.false_eq_true, if_false]
    constructor
    · intro h
      split at h
      · simp at h
      · split at h
        · assumption
        · simp at h
    · intro h
      rw [if_neg, if_pos h]
      intro h'
      fin_cases h <;> revert h' <;> decide
  · simp only [if_true]
    constructor
    · intro h
      split at h
      · assumption
      · split at h <;> simp at h
    · intro h
      rw [if_pos h]

theorem boolText_plain {t : Text} {b : Bool} (h : BoolText t b) : t ≠ [] ∧ ∀ c ∈ t, Ocppj.isSpace c = false := by
  cases b
  · simp only [BoolText, Bool.false_eq_true, if_false] at h
    fin_cases h <;> decide
  · simp only [BoolText, if_true] at h
    fin_cases h <;> decide

/-! ### All -/

/-- The decoder's value of a text is the one it stands for. -/
theorem fromText_iff (t : Ty) (s : Text) (v : Val) : fromText t s = .ok v ↔ Scalar t s v := by
  have hpt : ∀ b, ¬ Padded [] b ∨ b = [] := by
    intro b
    by_cases h : b = []
    · exact Or.inr h
    · left
      rintro ⟨x, y, -, -, he⟩
      have := he.symm
      simp only [List.append_eq_nil_iff] at this
      exact h this.2.1
  cases t with
  | str => simp [fromText, Scalar, eq_comm]
  | int b =>
    simp only [fromText, Scalar]
    by_cases hs : s = []
    · subst hs
      simp only [if_true, GoRes.ok.injEq, true_and]
      constructor
      · intro h; exact Or.inl h.symm
      · rintro (h | ⟨u, n, hp, hi, -⟩)
        · exact h.symm
        · rcases hpt u with h | rfl
          · exact absurd hp h
          · exact absurd rfl (intText_plain hi).1
    · simp only [hs, if_false, false_and, false_or]
      have key := padded_iff (parse := Xml.parseInt b) (P := fun t n => IntText t n ∧ -(2 ^ (b - 1)) ≤ n ∧ n < 2 ^ (b - 1))
        (parseInt_iff b) (fun u x h => intText_plain h.1) s
      split
      · rename_i n hn
        constructor
        · intro h
          simp only [GoRes.ok.injEq] at h
          obtain ⟨u, hp, hi, h1, h2⟩ := (key n).1 hn
          exact ⟨u, n, hp, hi, h1, h2, h.symm⟩
        · rintro ⟨u, m, hp, hi, h1, h2, rfl⟩
          have := (key m).2 ⟨u, hp, hi, h1, h2⟩
          rw [hn] at this
          simp only [Option.some.injEq] at this
          rw [this]
      · rename_i hn
        simp only [reduceCtorEq, false_iff]
        rintro ⟨u, m, hp, hi, h1, h2, rfl⟩
        have := (key m).2 ⟨u, hp, hi, h1, h2⟩
        rw [hn] at this
        simp at this
  | float =>
    simp only [fromText, Scalar]
    by_cases hs : s = []
    · subst hs
      simp only [if_true, GoRes.ok.injEq, true_and]
      constructor
      · intro h; exact Or.inl h.symm
      · rintro (h | ⟨u, n, hp, hi, -⟩)
        · exact h.symm
        · rcases hpt u with h | rfl
          · exact absurd hp h
          · exact absurd rfl (floatSpelled_plain hi).1
    · simp only [hs, if_false, false_and, false_or]
      have key := padded_iff (parse := parseFloat) (P := FloatSpelled) parseFloat_iff (fun u x h => floatSpelled_plain h) s
      split
      · rename_i n hn
        constructor
        · intro h
          simp only [GoRes.ok.injEq] at h
          obtain ⟨u, hp, hi⟩ := (key n).1 hn
          exact ⟨u, n, hp, hi, h.symm⟩
        · rintro ⟨u, m, hp, hi, rfl⟩
          have := (key m).2 ⟨u, hp, hi⟩
          rw [hn] at this
          simp only [Option.some.injEq] at this
          rw [this]
      · rename_i hn
        simp only [reduceCtorEq, false_iff]
        rintro ⟨u, m, hp, hi, rfl⟩
        have := (key m).2 ⟨u, hp, hi⟩
        rw [hn] at this
        simp at this
  | bool =>
    simp only [fromText, Scalar]
    by_cases hs : s = []
    · subst hs
      simp only [if_true, GoRes.ok.injEq, true_and]
      constructor
      · intro h; exact Or.inl h.symm
      · rintro (h | ⟨u, n, hp, hi, -⟩)
        · exact h.symm
        · rcases hpt u with h | rfl
          · exact absurd hp h
          · exact absurd rfl (boolText_plain hi).1
    · simp only [hs, if_false, false_and, false_or]
      have key := padded_iff (parse := parseBool) (P := BoolText) parseBool_iff (fun u x h => boolText_plain h) s
      split
      · rename_i n hn
        constructor
        · intro h
          simp only [GoRes.ok.injEq] at h
          obtain ⟨u, hp, hi⟩ := (key n).1 hn
          exact ⟨u, n, hp, hi, h.symm⟩
        · rintro ⟨u, m, hp, hi, rfl⟩
          have := (key m).2 ⟨u, hp, hi⟩
          rw [hn] at this
          simp only [Option.some.injEq] at this
          rw [this]
      · rename_i hn
        simp only [reduceCtorEq, false_iff]
        rintro ⟨u, m, hp, hi, rfl⟩
        have := (key m).2 ⟨u, hp, hi⟩
        rw [hn] at this
        simp at this
  | time =>
    simp only [fromText, Scalar]
    split
    · rename_i x hx
      constructor
      · intro h
        simp only [GoRes.ok.injEq] at h
        obtain ⟨st, h1, h2, h3⟩ := (Cal.parseTime_iff s x).1 hx
        exact ⟨st, x, h1, h2, h3, h.symm⟩
      · rintro ⟨st, y, h1, h2, h3, rfl⟩
        have := (Cal.parseTime_iff s y).2 ⟨st, h1, h2, h3⟩
        rw [hx] at this
        simp only [Option.some.injEq] at this
        rw [this]
    · rename_i hx
      simp only [reduceCtorEq, false_iff]
      rintro ⟨st, y, h1, h2, h3, rfl⟩
      have := (Cal.parseTime_iff s y).2 ⟨st, h1, h2, h3⟩
      rw [hx] at this
      simp at this
  | ptr t => simp [fromText, Scalar]
  | slice t => simp [fromText, Scalar]
  | struct i ts => simp [fromText, Scalar]

end Verif.Xml
