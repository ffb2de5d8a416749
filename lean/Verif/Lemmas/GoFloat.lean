import Verif.Model.XmlText
import Verif.Lemmas.Json
/-!
# `strconv.ParseFloat` and underscores
-/
set_option linter.unusedSimpArgs false
namespace Verif.Xml
open Json

/-! ### Decimal floats without underscores -/

/-- The optional exponent of a decimal float; `none` is a syntax error. -/
def floatExp (t : Text) : Option Int :=
  match t with
  | [] => some 0
  | c :: u =>
    if c = 'e' ∨ c = 'E' then
      let (neg, v) := match u with
        | '-' :: v => (true, v)
        | '+' :: v => (false, v)
        | v => (false, v)
      (digitsOf v).map fun ds => if neg then -(digitsVal 0 ds : Int) else (digitsVal 0 ds : Int)
    else none

/-- The fraction digits after the point, if there is one. -/
def fracDigits (t : Text) : List (Fin 10) × Text :=
  match t with
  | '.' :: r => takeDigits r
  | r => ([], r)

/-- The exact value of a decimal float without sign; `none` is a syntax error. -/
def decFloat (u : Text) : Option ℚ :=
  if (takeDigits u).1 = [] ∧ (fracDigits (takeDigits u).2).1 = [] then none
  else
    match floatExp (fracDigits (takeDigits u).2).2 with
    | none => none
    | some e => some (((digitsVal 0 (takeDigits u).1 : ℚ) + fracVal (fracDigits (takeDigits u).2).1) * (10 : ℚ) ^ e)

theorem floatDigit_false (c : Char) : floatDigit false c = (charDigit c).map Fin.val := by
  unfold floatDigit charDigit
  by_cases h : 48 ≤ c.toNat ∧ c.toNat ≤ 57
  · rw [if_pos h, dif_pos (by omega)]; rfl
  · rw [if_neg h, dif_neg (by omega)]; simp

theorem floatDigit_underscore (hex : Bool) : floatDigit hex '_' = none := by cases hex <;> decide
theorem floatDigit_dot (hex : Bool) : floatDigit hex '.' = none := by cases hex <;> decide

theorem mantissa_frac {s : Text} (h : '_' ∉ s) : mantissa false true s = ([], (takeDigits s).1.map Fin.val, (takeDigits s).2) := by
  induction s with
  | nil => rfl
  | cons c s ih =>
    simp only [List.mem_cons, not_or] at h
    have ih := ih h.2
    simp only [mantissa, takeDigits]
    rw [if_neg (fun e => h.1 e.symm)]
    by_cases hd : c = '.'
    · subst hd
      have : charDigit '.' = none := by decide
      simp [this]
    · rw [if_neg hd, floatDigit_false]
      cases charDigit c with
      | none => rfl
      | some d => simp [ih]

theorem mantissa_dec {s : Text} (h : '_' ∉ s) : mantissa false false s =
    ((takeDigits s).1.map Fin.val, (fracDigits (takeDigits s).2).1.map Fin.val, (fracDigits (takeDigits s).2).2) := by
  induction s with
  | nil => rfl
  | cons c s ih =>
    simp only [List.mem_cons, not_or] at h
    have ih := ih h.2
    simp only [mantissa, takeDigits]
    rw [if_neg (fun e => h.1 e.symm)]
    by_cases hd : c = '.'
    · subst hd
      rw [if_pos rfl, if_neg (by simp), mantissa_frac h.2]
      rfl
    · rw [if_neg hd, floatDigit_false]
      cases charDigit c with
      | none =>
        simp only [Option.map_none, List.map_nil]
        unfold fracDigits
        split
        · rename_i h; simp at h; exact absurd h.1 hd
        · rfl
      | some d => simp [ih]

theorem expDigits_plain {s : Text} (h : '_' ∉ s) : expDigits s = ((takeDigits s).1.map Fin.val, (takeDigits s).2) := by
  induction s with
  | nil => rfl
  | cons c s ih =>
    simp only [List.mem_cons, not_or] at h
    have ih := ih h.2
    simp only [expDigits, takeDigits]
    rw [if_neg (fun e => h.1 e.symm), floatDigit_false]
    cases charDigit c with
    | none => rfl
    | some d => simp [ih]

theorem digitsIn_val (ds : List (Fin 10)) : digitsIn 10 (ds.map Fin.val) = digitsVal 0 ds := by
  unfold digitsIn
  generalize 0 = a
  induction ds generalizing a with
  | nil => rfl
  | cons d ds ih => simp [digitsVal, ih]

theorem fracIn_val (ds : List (Fin 10)) : fracIn 10 (ds.map Fin.val) = fracVal ds := by
  induction ds with
  | nil => rfl
  | cons d ds ih => simp [fracIn, fracVal, ih]

theorem toLower_eq {c x : Char} (hx : x.toNat = 101 ∨ x.toNat = 112 ∨ x.toNat = 120) : c.toLower = x ↔ c = x ∨ c.toNat + 32 = x.toNat := by
  have key : c.toLower.toNat = if 65 ≤ c.toNat ∧ c.toNat ≤ 90 then c.toNat + 32 else c.toNat := by
    by_cases h : 65 ≤ c.toNat ∧ c.toNat ≤ 90
    · have h' : c.val ≥ 'A'.val ∧ c.val ≤ 'Z'.val := h
      rw [if_pos h]
      unfold Char.toLower
      rw [dif_pos h']
      show (c.val + 32).toNat = c.val.toNat + 32
      have h2 : c.val.toNat ≤ 90 := h.2
      rw [UInt32.toNat_add]
      simp
      omega
    · have h' : ¬ (c.val ≥ 'A'.val ∧ c.val ≤ 'Z'.val) := h
      rw [if_neg h]
      unfold Char.toLower
      rw [dif_neg h']
  have hj : ∀ a b : Char, a = b ↔ a.toNat = b.toNat := fun a b => ⟨fun h => h ▸ rfl, fun h => Char.toNat_inj.1 h⟩
  rw [hj, hj, key]
  split <;> omega

theorem lower_e (c : Char) : c.toLower = 'e' ↔ c = 'e' ∨ c = 'E' := by
  rw [toLower_eq (by decide)]
  refine or_congr Iff.rfl ⟨fun h => ?_, by rintro rfl; rfl⟩
  apply Char.toNat_inj.1
  have : ('e' : Char).toNat = 101 := rfl
  have : ('E' : Char).toNat = 69 := rfl
  omega
theorem lower_p (c : Char) : c.toLower = 'p' ↔ c = 'p' ∨ c = 'P' := by
  rw [toLower_eq (by decide)]
  refine or_congr Iff.rfl ⟨fun h => ?_, by rintro rfl; rfl⟩
  apply Char.toNat_inj.1
  have : ('p' : Char).toNat = 112 := rfl
  have : ('P' : Char).toNat = 80 := rfl
  omega
theorem lower_x (c : Char) : c.toLower = 'x' ↔ c = 'x' ∨ c = 'X' := by
  rw [toLower_eq (by decide)]
  refine or_congr Iff.rfl ⟨fun h => ?_, by rintro rfl; rfl⟩
  apply Char.toNat_inj.1
  have : ('x' : Char).toNat = 120 := rfl
  have : ('X' : Char).toNat = 88 := rfl
  omega

/-- The digits of an exponent, with its sign. -/
def expValue (u : Text) : Option Int :=
  match splitSign u with
  | (neg, _, v) => (digitsOf v).map fun ds => if neg then -(digitsVal 0 ds : Int) else (digitsVal 0 ds : Int)

theorem splitSign_mem {u : Text} {c : Char} (h : c ∉ u) : c ∉ (splitSign u).2.2 := by
  unfold splitSign
  split <;> simp_all

theorem readExp_cons (hex : Bool) {c : Char} {u : Text} (h : '_' ∉ u) :
    readExp hex (c :: u) = if c.toLower = (if hex then 'p' else 'e') then expValue u else none := by
  unfold readExp expValue
  simp only
  by_cases hx : c.toLower = if hex = true then 'p' else 'e'
  swap
  · rw [if_neg hx, if_neg hx]
  rw [if_pos hx, if_pos hx]
  · have hm := splitSign_mem h
    generalize splitSign u = p at hm
    obtain ⟨neg, sg, v⟩ := p
    simp only at hm ⊢
    cases v with
    | nil => rfl
    | cons d v =>
      simp only
      rw [expDigits_plain hm, floatDigit_false]
      unfold digitsOf
      simp only [takeDigits]
      cases charDigit d with
      | none => rfl
      | some x =>
        simp only [Option.map_some, Option.isSome_some, if_true, List.map_cons]
        cases hr : (takeDigits v).2 with
        | nil =>
          simp only [Option.map_some]
          have := digitsIn_val (x :: (takeDigits v).1)
          simp only [List.map_cons] at this
          rw [this]
        | cons _ _ => rfl

theorem readExp_plain {s : Text} (h : '_' ∉ s) : readExp false s = floatExp s := by
  cases s with
  | nil => rfl
  | cons c u =>
    simp only [List.mem_cons, not_or] at h
    rw [readExp_cons false h.2]
    simp only [Bool.false_eq_true, if_false, lower_e]
    unfold floatExp expValue splitSign
    simp only
    split
    · split <;> simp_all
    · rfl

/-- A float of the base without underscores. -/
def plainFloat (hex : Bool) (w : Text) : Option ℚ :=
  match mantissa hex false w with
  | (ip, fp, r) =>
    if ip = [] ∧ fp = [] then none
    else (readExp hex r).map fun e =>
      ((digitsIn (if hex then 16 else 10) ip : ℚ) + fracIn (if hex then 16 else 10) fp) * (if hex then 2 else 10 : ℚ) ^ e

theorem takeDigits_mem {s : Text} {c : Char} (h : c ∉ s) : c ∉ (takeDigits s).2 := by
  induction s with
  | nil => simp [takeDigits]
  | cons x s ih =>
    simp only [List.mem_cons, not_or] at h
    simp only [takeDigits]
    cases charDigit x <;> simp_all
theorem fracDigits_mem {s : Text} {c : Char} (h : c ∉ s) : c ∉ (fracDigits s).2 := by
  unfold fracDigits
  split
  · exact takeDigits_mem (by simp_all)
  · exact h

theorem plainFloat_dec {w : Text} (h : '_' ∉ w) : plainFloat false w = decFloat w := by
  unfold plainFloat decFloat
  rw [mantissa_dec h]
  simp only [List.map_eq_nil_iff, Bool.false_eq_true, if_false]
  rw [readExp_plain (fracDigits_mem (takeDigits_mem h)), digitsIn_val, fracIn_val]
  split
  · rfl
  · cases floatExp (fracDigits (takeDigits w).2).2 <;> rfl

/-! ### Underscores -/

/-- Every underscore is between two digits (before the text there was `saw`). -/
def Between (hex : Bool) (saw : Saw) (t : Text) : Prop :=
  (saw = .underscore → ∃ c t', t = c :: t' ∧ (floatDigit hex c).isSome = true) ∧
  ∀ a b, t = a ++ '_' :: b → ((a = [] ∧ saw = .digit) ∨ ∃ a' c, a = a' ++ [c] ∧ (floatDigit hex c).isSome = true) ∧
    ∃ c b', b = c :: b' ∧ (floatDigit hex c).isSome = true

theorem cons_split {c : Char} {t : Text} {P : Text → Text → Prop} :
    (∀ a b, c :: t = a ++ '_' :: b → P a b) ↔ (c = '_' → P [] t) ∧ ∀ a b, t = a ++ '_' :: b → P (c :: a) b := by
  constructor
  · intro h
    exact ⟨fun e => h [] t (by simp [e]), fun a b e => h (c :: a) b (by simp [e])⟩
  · rintro ⟨h1, h2⟩ a b e
    cases a with
    | nil => simp at e; obtain ⟨rfl, rfl⟩ := e; exact h1 rfl
    | cons x a => simp at e; obtain ⟨rfl, rfl⟩ := e; exact h2 a b rfl

theorem cons_snoc {Q : Char → Prop} {c : Char} {a : Text} : (∃ a' x, c :: a = a' ++ [x] ∧ Q x) ↔ (a = [] ∧ Q c) ∨ ∃ a' x, a = a' ++ [x] ∧ Q x := by
  constructor
  · rintro ⟨a', x, h, hq⟩
    cases a' with
    | nil => simp at h; obtain ⟨rfl, rfl⟩ := h; exact .inl ⟨rfl, hq⟩
    | cons y a' => simp at h; obtain ⟨rfl, rfl⟩ := h; exact .inr ⟨a', x, rfl, hq⟩
  · rintro (⟨rfl, hq⟩ | ⟨a', x, rfl, hq⟩)
    · exact ⟨[], c, rfl, hq⟩
    · exact ⟨c :: a', x, rfl, hq⟩

theorem scan_iff (hex : Bool) (saw : Saw) (t : Text) : scanUnderscores hex saw t = true ↔ Between hex saw t := by
  induction t generalizing saw with
  | nil => cases saw <;> simp [scanUnderscores, Between]
  | cons c t ih =>
    unfold Between
    rw [cons_split]
    simp only [cons_snoc, reduceCtorEq, false_and, false_or]
    simp only [scanUnderscores]
    by_cases hd : (floatDigit hex c).isSome = true
    · rw [if_pos hd, ih]
      have hc : c ≠ '_' := by rintro rfl; rw [floatDigit_underscore] at hd; simp at hd
      unfold Between
      simp [hd, hc]
    · rw [if_neg hd]
      by_cases hc : c = '_'
      · subst hc
        rw [if_pos rfl, Bool.and_eq_true, ih]
        unfold Between
        cases saw <;> simp [floatDigit_underscore]
      · rw [if_neg hc, Bool.and_eq_true, ih]
        unfold Between
        cases saw <;> simp [hc, hd]

/-- Without underscores. -/
def strip (t : Text) : Text := t.filter (· ≠ '_')

theorem strip_not_mem (t : Text) : '_' ∉ strip t := by simp [strip]
theorem strip_cons {c : Char} {t : Text} (h : c ≠ '_') : strip (c :: t) = c :: strip t := by simp [strip, h]
theorem strip_underscore {t : Text} : strip ('_' :: t) = strip t := by simp [strip]
theorem strip_id {t : Text} (h : '_' ∉ t) : strip t = t := by
  unfold strip
  rw [List.filter_eq_self]
  intro a ha
  simp only [ne_eq, decide_not, Bool.not_eq_eq_eq_not, Bool.not_true, decide_eq_false_iff_not]
  rintro rfl
  exact h ha

/-- A text that does not start with an underscore. -/
def NoLead (t : Text) : Prop := ∀ u, t ≠ '_' :: u

theorem mantissa_strip (hex : Bool) (dot : Bool) (t : Text) :
    mantissa hex dot (strip t) = ((mantissa hex dot t).1, (mantissa hex dot t).2.1, strip (mantissa hex dot t).2.2) ∧
    NoLead (mantissa hex dot t).2.2 ∧ ∃ pre, t = pre ++ (mantissa hex dot t).2.2 := by
  induction t generalizing dot with
  | nil => exact ⟨rfl, by simp [NoLead, mantissa], [], rfl⟩
  | cons c t ih =>
    by_cases hc : c = '_'
    · subst hc
      have : mantissa hex dot ('_' :: t) = mantissa hex dot t := by simp [mantissa]
      rw [strip_underscore, this]
      obtain ⟨h1, h2, pre, h3⟩ := ih dot
      exact ⟨h1, h2, '_' :: pre, by simp [← h3]⟩
    · rw [strip_cons hc]
      by_cases hd : c = '.'
      · subst hd
        cases dot
        · have e : ∀ r, mantissa hex false ('.' :: r) = mantissa hex true r := by intro r; simp [mantissa]
          obtain ⟨h1, h2, pre, h3⟩ := ih true
          rw [e, e]
          exact ⟨h1, h2, '.' :: pre, by simp [← h3]⟩
        · have e : ∀ r, mantissa hex true ('.' :: r) = ([], [], '.' :: r) := by intro r; simp [mantissa]
          rw [e, e]
          refine ⟨by rw [strip_cons hc], ?_, [], rfl⟩
          intro u hu; simp at hu
      · cases hf : floatDigit hex c with
        | none =>
          have e : ∀ r, mantissa hex dot (c :: r) = ([], [], c :: r) := by intro r; simp [mantissa, hc, hd, hf]
          rw [e, e]
          refine ⟨by rw [strip_cons hc], ?_, [], rfl⟩
          intro u hu; simp at hu; exact hc hu.1
        | some d =>
          have e : ∀ r, mantissa hex dot (c :: r) = if dot then ((mantissa hex dot r).1, d :: (mantissa hex dot r).2.1, (mantissa hex dot r).2.2)
              else (d :: (mantissa hex dot r).1, (mantissa hex dot r).2.1, (mantissa hex dot r).2.2) := by
            intro r; simp [mantissa, hc, hd, hf]
          obtain ⟨h1, h2, pre, h3⟩ := ih dot
          rw [e, e, h1]
          cases dot
          · exact ⟨rfl, h2, c :: pre, by simp [← h3]⟩
          · exact ⟨rfl, h2, c :: pre, by simp [← h3]⟩

theorem expDigits_strip (t : Text) : expDigits (strip t) = ((expDigits t).1, strip (expDigits t).2) ∧ NoLead (expDigits t).2 := by
  induction t with
  | nil => exact ⟨rfl, by simp [NoLead, expDigits]⟩
  | cons c t ih =>
    by_cases hc : c = '_'
    · subst hc
      have : expDigits ('_' :: t) = expDigits t := by simp [expDigits]
      rw [strip_underscore, this]
      exact ih
    · rw [strip_cons hc]
      cases hf : floatDigit false c with
      | none =>
        have e : ∀ r, expDigits (c :: r) = ([], c :: r) := by intro r; simp [expDigits, hc, hf]
        rw [e, e]
        refine ⟨by rw [strip_cons hc], ?_⟩
        intro u hu; simp at hu; exact hc hu.1
      | some d =>
        have e : ∀ r, expDigits (c :: r) = (d :: (expDigits r).1, (expDigits r).2) := by intro r; simp [expDigits, hc, hf]
        rw [e, e, ih.1]
        exact ⟨rfl, ih.2⟩

theorem strip_nil {t : Text} (h : NoLead t) : strip t = [] ↔ t = [] := by
  cases t with
  | nil => simp [strip]
  | cons c t =>
    have : c ≠ '_' := fun e => h t (by rw [e])
    simp [strip_cons this]

theorem splitSign_strip {u : Text} (h : NoLead u) : splitSign (strip u) = ((splitSign u).1, (splitSign u).2.1, strip (splitSign u).2.2) := by
  cases u with
  | nil => rfl
  | cons c u =>
    have hc : c ≠ '_' := fun e => h u (by rw [e])
    rw [strip_cons hc]
    unfold splitSign
    split
    · rename_i h; simp at h; obtain ⟨rfl, rfl⟩ := h; rfl
    · rename_i h; simp at h; obtain ⟨rfl, rfl⟩ := h; rfl
    · rename_i h1 h2
      split
      · rename_i h; simp at h; obtain ⟨rfl, rfl⟩ := h; exact absurd rfl (h1 _)
      · rename_i h; simp at h; obtain ⟨rfl, rfl⟩ := h; exact absurd rfl (h2 _)
      · rw [strip_cons hc]

theorem readExp_strip (hex : Bool) {t : Text} (hl : NoLead t) (hf : ∀ c u, t = c :: u → NoLead u ∧ NoLead (splitSign u).2.2) :
    readExp hex (strip t) = readExp hex t := by
  cases t with
  | nil => rfl
  | cons c u =>
    have hc : c ≠ '_' := fun e => hl u (by rw [e])
    rw [strip_cons hc]
    obtain ⟨h1, h2⟩ := hf c u rfl
    unfold readExp
    simp only
    by_cases hx : c.toLower = if hex = true then 'p' else 'e'
    swap
    · rw [if_neg hx, if_neg hx]
    rw [if_pos hx, if_pos hx]
    · rw [splitSign_strip h1]
      generalize splitSign u = p at h2
      obtain ⟨neg, sg, v⟩ := p
      simp only at h2 ⊢
      cases v with
      | nil => rfl
      | cons d v =>
        have hd : d ≠ '_' := fun e => h2 v (by rw [e])
        have he := expDigits_strip (d :: v)
        rw [strip_cons hd] at he ⊢
        simp only
        rw [he.1]
        have hn := strip_nil he.2
        generalize expDigits (d :: v) = p at hn
        obtain ⟨ds, r⟩ := p
        simp only at hn ⊢
        split
        · cases hr : strip r with
          | nil => rw [hn.1 hr]
          | cons x r' =>
            cases r with
            | nil => simp [strip] at hr
            | cons y r => rfl
        · rfl

/-- If the exponent is read, no underscore comes right after the letter or the sign. -/
theorem readExp_lead {hex : Bool} {t : Text} {e : Int} (h : readExp hex t = some e) : ∀ c u, t = c :: u → NoLead u ∧ NoLead (splitSign u).2.2 := by
  rintro c u rfl
  unfold readExp at h
  simp only at h
  by_cases hx : c.toLower = if hex = true then 'p' else 'e'
  · rw [if_pos hx] at h
    have key : NoLead (splitSign u).2.2 := by
      intro v hv
      generalize splitSign u = p at h hv
      obtain ⟨neg, sg, w⟩ := p
      simp only at h hv
      subst hv
      simp [floatDigit_underscore] at h
    refine ⟨?_, key⟩
    intro v hv
    subst hv
    exact key v rfl
  · rw [if_neg hx] at h
    simp at h

theorem readFloat_iff_strip (u : Text) (q : ℚ) : readFloat u = some q ↔
    plainFloat (hexPrefix u).1 (strip (hexPrefix u).2) = some q ∧ (u.contains '_' = true → underscoreOK u = true) ∧
      ∀ r, r = (mantissa (hexPrefix u).1 false (hexPrefix u).2).2.2 → ∀ c w, r = c :: w → NoLead w ∧ NoLead (splitSign w).2.2 := by
  unfold readFloat plainFloat
  generalize hexPrefix u = p
  obtain ⟨hex, v⟩ := p
  simp only
  obtain ⟨h1, h2, -⟩ := mantissa_strip hex false v
  rw [h1]
  generalize mantissa hex false v = p at h2
  obtain ⟨ip, fp, r⟩ := p
  simp only at h2 ⊢
  by_cases hne : ip = [] ∧ fp = []
  · simp [hne]
  · simp only [hne, if_false]
    constructor
    · intro h
      cases he : readExp hex r with
      | none => rw [he] at h; simp at h
      | some e =>
        rw [he] at h
        have hlead := readExp_lead he
        rw [readExp_strip hex h2 hlead, he]
        simp only at h
        split at h
        · simp at h
        · rename_i hu
          refine ⟨h, ?_, fun r' hr' => hr' ▸ hlead⟩
          intro hc
          have hc' : '_' ∈ u := by simpa using hc
          simp only [hc, Bool.true_and, Bool.not_eq_true', Bool.not_eq_false] at hu
          exact hu
    · rintro ⟨ha, hb, hc⟩
      rw [readExp_strip hex h2 (hc r rfl)] at ha
      cases he : readExp hex r with
      | none => rw [he] at ha; simp at ha
      | some e =>
        rw [he] at ha
        simp only
        rw [if_neg]
        · simpa using ha
        · simp only [Bool.and_eq_true, Bool.not_eq_true', not_and, Bool.not_eq_false]
          exact hb

theorem mantissa_rest (hex : Bool) (dot : Bool) (t : Text) : ∀ c w, (mantissa hex dot t).2.2 = c :: w → floatDigit hex c = none := by
  induction t generalizing dot with
  | nil => intro c w h; simp [mantissa] at h
  | cons x t ih =>
    intro c w h
    simp only [mantissa] at h
    split at h
    · exact ih dot c w h
    · split at h
      · rename_i hx
        split at h
        · simp only [List.cons.injEq] at h
          rw [← h.1, hx]; exact floatDigit_dot hex
        · exact ih true c w h
      · split at h
        · rename_i hf
          simp only [List.cons.injEq] at h
          rw [← h.1]; exact hf
        · have := ih dot c w
          generalize mantissa hex dot t = p at h this
          obtain ⟨ip, fp, r⟩ := p
          split at h <;> exact this h

theorem contains_iff (u : Text) : u.contains '_' = true ↔ '_' ∈ u := by simp

theorem between_plain {hex : Bool} {saw : Saw} (hs : saw ≠ .underscore) {t : Text} (h : '_' ∉ t) : Between hex saw t := by
  refine ⟨fun e => absurd e hs, ?_⟩
  rintro a b rfl
  simp at h

/-- After underscores have been found right, the exponent can do without them. -/
theorem between_lead {hex : Bool} {saw : Saw} {v : Text} (h : Between hex saw v) {r : Text} (hr : r = (mantissa hex false v).2.2) :
    ∀ c w, r = c :: w → NoLead w ∧ NoLead (splitSign w).2.2 := by
  intro c w hc
  obtain ⟨-, -, pre, h3⟩ := mantissa_strip hex false v
  rw [← hr, hc] at h3
  have hd := mantissa_rest hex false v c w (by rw [← hr, hc])
  have key : ∀ a x b, v = a ++ x :: '_' :: b → floatDigit hex x ≠ none := by
    intro a x b hv hn
    obtain ⟨h4, -⟩ := h.2 (a ++ [x]) b (by simp [hv])
    rcases h4 with ⟨h4, -⟩ | ⟨a', y, h4, h5⟩
    · simp at h4
    · have := List.append_inj_right' h4 rfl
      simp at this
      rw [← this, hn] at h5
      simp at h5
  have h1 : NoLead w := by
    intro b hb
    exact key pre c b (by rw [h3, hb]) hd
  refine ⟨h1, ?_⟩
  unfold splitSign
  split
  · rename_i u
    intro b hb
    have hb' : u = '_' :: b := hb
    exact key (pre ++ [c]) '-' b (by rw [h3, hb']; simp) (by cases hex <;> decide)
  · rename_i u
    intro b hb
    have hb' : u = '_' :: b := hb
    exact key (pre ++ [c]) '+' b (by rw [h3, hb']; simp) (by cases hex <;> decide)
  · exact h1

/-- Texts that start like `0b`, `0o`, `0x` are no decimal floats. -/
theorem plainFloat_prefix {p : Char} {r : Text} (h : p.toLower = 'b' ∨ p.toLower = 'o' ∨ p.toLower = 'x') : plainFloat false (strip ('0' :: p :: r)) = none := by
  have hu : p ≠ '_' := by rintro rfl; revert h; decide
  have hdot : p ≠ '.' := by rintro rfl; revert h; decide
  have hdig : floatDigit false p = none := by
    rw [floatDigit_false]
    cases hc : charDigit p with
    | none => rfl
    | some d =>
      exfalso
      have hlow : p.toLower = p := by
        unfold charDigit at hc
        split at hc
        · rename_i hd
          unfold Char.toLower
          rw [dif_neg]
          rintro ⟨h1, -⟩
          have : 65 ≤ p.toNat := h1
          omega
        · simp at hc
      rw [hlow] at h
      have h0 : charDigit 'b' = none ∧ charDigit 'o' = none ∧ charDigit 'x' = none := by decide
      rcases h with rfl | rfl | rfl
      · rw [h0.1] at hc; cases hc
      · rw [h0.2.1] at hc; cases hc
      · rw [h0.2.2] at hc; cases hc
  have he : p.toLower ≠ 'e' := by
    intro h'
    rw [h'] at h
    revert h; decide
  rw [strip_cons (by decide), strip_cons hu]
  unfold plainFloat
  have hm : mantissa false false ('0' :: p :: strip r) = ([0], [], p :: strip r) := by
    have h0 : floatDigit false '0' = some 0 := by decide
    simp [mantissa, hu, hdot, hdig, h0]
  rw [hm]
  simp only [readExp_cons false (strip_not_mem r)]
  simp [he]

/-- What `ParseFloat` reads, without underscores. -/
theorem readFloat_strip (u : Text) (q : ℚ) : readFloat u = some q ↔
    ((hexPrefix u).1 = false ∧ Between false .beginning u ∧ plainFloat false (strip u) = some q) ∨
    (∃ x v, (x = 'x' ∨ x = 'X') ∧ u = '0' :: x :: v ∧ v ≠ [] ∧ Between true .digit v ∧ plainFloat true (strip v) = some q) := by
  rw [readFloat_iff_strip]
  by_cases hx : ∃ x v, (x = 'x' ∨ x = 'X') ∧ u = '0' :: x :: v ∧ v ≠ []
  · obtain ⟨x, v, hx, rfl, hv⟩ := hx
    have hp : hexPrefix ('0' :: x :: v) = (true, v) := by
      cases v with
      | nil => exact absurd rfl hv
      | cons c r => simp only [hexPrefix]; rw [if_pos ((lower_x x).2 hx)]
    have hxu : x ≠ '_' := by rintro rfl; revert hx; decide
    have hok : underscoreOK ('0' :: x :: v) = true ↔ Between true .digit v := by
      unfold underscoreOK
      simp only
      rw [if_pos (.inr (.inr ((lower_x x).2 hx))), scan_iff]
      simp [(lower_x x).2 hx]
    rw [hp]
    simp only [contains_iff, hok]
    constructor
    · rintro ⟨h1, h2, -⟩
      refine .inr ⟨x, v, hx, rfl, hv, ?_, h1⟩
      by_cases hm : '_' ∈ v
      · exact h2 (by simp [hm])
      · exact between_plain (by decide) hm
    · rintro (⟨h, -⟩ | ⟨x', v', -, he, -, h1, h2⟩)
      · simp at h
      · simp only [List.cons.injEq] at he
        obtain ⟨-, rfl, rfl⟩ := he
        exact ⟨h2, fun _ => h1, fun r hr => between_lead h1 hr⟩
  · have hp : hexPrefix u = (false, u) := by
      unfold hexPrefix
      split
      · rename_i x c r
        rw [if_neg]
        intro h
        exact hx ⟨x, c :: r, (lower_x x).1 h, rfl, by simp⟩
      · rfl
    rw [hp]
    simp only [contains_iff, true_and]
    have hr : (∃ x v, (x = 'x' ∨ x = 'X') ∧ u = '0' :: x :: v ∧ v ≠ [] ∧ Between true .digit v ∧ plainFloat true (strip v) = some q) ↔ False := by
      refine iff_false_intro ?_
      rintro ⟨x, v, h1, h2, h3, -⟩
      exact hx ⟨x, v, h1, h2, h3⟩
    rw [hr, or_false]
    have hok : plainFloat false (strip u) = some q → (underscoreOK u = true ↔ Between false .beginning u) := by
      intro hq
      unfold underscoreOK
      split
      · rename_i p r
        split
        · rename_i hpre
          rw [plainFloat_prefix hpre] at hq
          simp at hq
        · exact scan_iff _ _ _
      · exact scan_iff _ _ _
    constructor
    · rintro ⟨h1, h2, -⟩
      refine ⟨?_, h1⟩
      by_cases hm : '_' ∈ u
      · exact (hok h1).1 (h2 hm)
      · exact between_plain (by decide) hm
    · rintro ⟨h1, h2⟩
      exact ⟨h2, fun _ => (hok h2).2 h1, fun r hr => between_lead h1 hr⟩

/-- Without underscores and base prefix. -/
theorem readFloat_plain {u : Text} (h : '_' ∉ u) (hx : ∀ x v, u = '0' :: x :: v → x ≠ 'x' ∧ x ≠ 'X') : readFloat u = decFloat u := by
  have hp : (hexPrefix u).1 = false := by
    unfold hexPrefix
    split
    · rename_i x c r
      rw [if_neg]
      intro h
      have := hx x (c :: r) rfl
      rcases (lower_x x).1 h with h | h
      · exact this.1 h
      · exact this.2 h
    · rfl
  ext q
  have h1 := readFloat_strip u q
  rw [strip_id h, plainFloat_dec h] at h1
  refine h1.trans ?_
  constructor
  · rintro (⟨-, -, h⟩ | ⟨x, v, h1, h2, -⟩)
    · exact h
    · rcases h1 with rfl | rfl
      · exact absurd rfl (hx _ _ h2).1
      · exact absurd rfl (hx _ _ h2).2
  · intro h'
    exact .inl ⟨hp, between_plain (by decide) h, h'⟩

end Verif.Xml
