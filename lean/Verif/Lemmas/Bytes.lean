import Verif.Model.Bytes
import Verif.Spec.Utf8
import Verif.Lemmas.Json
/-!
# Bytes: lemmas
-/
set_option linter.unusedSimpArgs false
namespace Verif.Bytes
open Json Ocppj

theorem toNat_ofNat {n : Nat} (h : n < 0xD800 ∨ (0xDFFF < n ∧ n < 0x110000)) : (Char.ofNat n).toNat = n := by
  have hv : n.isValidChar := h
  unfold Char.ofNat
  rw [dif_pos hv]
  rfl

theorem decodeRune_ascii {c : Char} (h : c.toNat < 0x80) (t : Raw) : decodeRune c t = (c, t) := by
  simp [decodeRune, h]

theorem runeError_toNat : runeError.toNat = 0xFFFD := by decide

theorem decodeRune_high {c : Char} (h : 0x80 ≤ c.toNat) (t : Raw) : 0x80 ≤ (decodeRune c t).1.toNat := by
  have hr : 0x80 ≤ runeError.toNat := by decide
  unfold decodeRune
  rw [if_neg (by omega)]
  split
  · rename_i h1
    simp only [within, Bool.and_eq_true, decide_eq_true_eq] at h1
    split
    · split
      · dsimp only
        rw [toNat_ofNat (by omega)]
        omega
      · exact hr
    · exact hr
  · split
    · rename_i h1
      simp only [within, Bool.and_eq_true, decide_eq_true_eq] at h1
      split
      · split
        · rename_i h2
          simp only [second, within, Bool.and_eq_true, decide_eq_true_eq] at h2
          dsimp only
          (repeat' split at h2) <;> (rw [toNat_ofNat (by omega)]; omega)
        · exact hr
      · exact hr
    · split
      · rename_i h1
        simp only [within, Bool.and_eq_true, decide_eq_true_eq] at h1
        split
        · split
          · rename_i h2
            simp only [second, within, Bool.and_eq_true, decide_eq_true_eq] at h2
            dsimp only
            (repeat' split at h2) <;> (rw [toNat_ofNat (by omega)]; omega)
          · exact hr
        · exact hr
      · exact hr

/-- The text that bytes stand for. -/
def lossy : Raw → Text
  | [] => []
  | c :: t => (decodeRune c t).1 :: lossy (decodeRune c t).2
termination_by t => t.length
decreasing_by
  have := decodeRune_length c t
  simp
  omega

theorem lossy_nil : lossy [] = [] := by simp [lossy]

theorem lossy_cons (c : Char) (t : Raw) : lossy (c :: t) = (decodeRune c t).1 :: lossy (decodeRune c t).2 := by
  rw [lossy]

theorem lossy_ascii {c : Char} (h : c.toNat < 0x80) (t : Raw) : lossy (c :: t) = c :: lossy t := by
  rw [lossy_cons, decodeRune_ascii h]

/-- The ways in which bytes and text begin. -/
inductive View : Raw → Text → Prop
  | nil : View [] []
  | ascii {c : Char} (u : Raw) (h : c.toNat < 0x80) : View (c :: u) (c :: lossy u)
  | high {c d : Char} {u : Raw} {s : Text} (hc : 0x80 ≤ c.toNat) (hd : 0x80 ≤ d.toNat) : View (c :: u) (d :: s)

theorem view (t : Raw) : View t (lossy t) := by
  cases t with
  | nil => rw [lossy_nil]; exact .nil
  | cons c u =>
    by_cases h : c.toNat < 0x80
    · rw [lossy_ascii h]; exact .ascii u h
    · rw [lossy_cons]; exact .high (by omega) (decodeRune_high (by omega) u)

theorem high_ne {c d : Char} (hc : 0x80 ≤ c.toNat) (hd : d.toNat < 0x80 := by decide) : c ≠ d := by
  rintro rfl
  omega

theorem lossy_eq_cons {c : Char} (h : c.toNat < 0x80) {t : Raw} {s : Text} (e : lossy t = c :: s) : ∃ u, t = c :: u ∧ s = lossy u := by
  have hv := view t
  rw [e] at hv
  cases hv with
  | ascii u h => exact ⟨u, rfl, rfl⟩
  | high hc hd => omega

theorem lossy_eq_nil {t : Raw} (e : lossy t = []) : t = [] := by
  have hv := view t
  rw [e] at hv
  cases hv
  rfl

/-- Carry a result over. -/
def carry {α : Type} (p : α × Raw) : α × Text := (p.1, lossy p.2)

theorem wsChar_high {c : Char} (h : 0x80 ≤ c.toNat) : wsChar c = false := by
  simp [wsChar, high_ne h (d := ' '), high_ne h (d := '\t'), high_ne h (d := '\n'), high_ne h (d := '\r')]

theorem charDigit_high {c : Char} (h : 0x80 ≤ c.toNat) : charDigit c = none := by
  unfold charDigit
  rw [dif_neg (by omega)]

theorem skipWs_lossy (t : Raw) : skipWs (lossy t) = lossy (skipWs t) := by
  induction t with
  | nil => simp [lossy_nil, skipWs]
  | cons c u ih =>
    by_cases h : c.toNat < 0x80
    · rw [lossy_ascii h]
      unfold skipWs
      split
      · exact ih
      · rw [lossy_ascii h]
    · rw [skipWs_cons (wsChar_high (by omega)), lossy_cons, skipWs_cons (wsChar_high (decodeRune_high (by omega) u))]

theorem takeDigits_lossy (t : Raw) : takeDigits (lossy t) = carry (takeDigits t) := by
  induction t with
  | nil => simp [lossy_nil, takeDigits, carry]
  | cons c u ih =>
    by_cases h : c.toNat < 0x80
    · rw [lossy_ascii h]
      unfold takeDigits
      split
      · rw [ih]; rfl
      · simp [carry, lossy_ascii h]
    · rw [lossy_cons]
      unfold takeDigits
      rw [charDigit_high (decodeRune_high (by omega) u), charDigit_high (c := c) (by omega)]
      simp [carry, lossy_cons]

theorem parseFrac_lossy (t : Raw) : parseFrac (lossy t) = (parseFrac t).map carry := by
  by_cases h : ∃ u, t = '.' :: u
  · obtain ⟨u, rfl⟩ := h
    rw [lossy_ascii (by decide)]
    show (match takeDigits (lossy u) with | ([], _) => none | (ds, r) => some (some ds, r)) =
      Option.map carry (match takeDigits u with | ([], _) => none | (ds, r) => some (some ds, r))
    rw [takeDigits_lossy]
    rcases takeDigits u with ⟨_ | ⟨d, ds⟩, r⟩ <;> rfl
  · have e1 : parseFrac t = some (none, t) := by
      unfold parseFrac
      split
      · exact absurd ⟨_, rfl⟩ h
      · rfl
    have e2 : parseFrac (lossy t) = some (none, lossy t) := by
      unfold parseFrac
      split
      · rename_i e
        obtain ⟨u, rfl, -⟩ := lossy_eq_cons (by decide) e
        exact absurd ⟨_, rfl⟩ h
      · rfl
    rw [e1, e2]
    rfl

theorem parseExpDigits_lossy (up : Bool) (s : Option Bool) (t : Raw) : parseExpDigits up s (lossy t) = (parseExpDigits up s t).map carry := by
  unfold parseExpDigits
  rw [takeDigits_lossy]
  rcases takeDigits t with ⟨_ | ⟨d, ds⟩, r⟩ <;> rfl

theorem parseExpSign_lossy (up : Bool) (t : Raw) : parseExpSign up (lossy t) = (parseExpSign up t).map carry := by
  by_cases h : ∃ u, t = '-' :: u
  · obtain ⟨u, rfl⟩ := h
    rw [lossy_ascii (by decide)]
    exact parseExpDigits_lossy _ _ _
  · by_cases h' : ∃ u, t = '+' :: u
    · obtain ⟨u, rfl⟩ := h'
      rw [lossy_ascii (by decide)]
      exact parseExpDigits_lossy _ _ _
    · have e1 : parseExpSign up t = parseExpDigits up none t := by
        unfold parseExpSign
        split
        · exact absurd ⟨_, rfl⟩ h
        · exact absurd ⟨_, rfl⟩ h'
        · rfl
      have e2 : parseExpSign up (lossy t) = parseExpDigits up none (lossy t) := by
        unfold parseExpSign
        split
        · rename_i e
          obtain ⟨u, rfl, -⟩ := lossy_eq_cons (by decide) e
          exact absurd ⟨_, rfl⟩ h
        · rename_i e
          obtain ⟨u, rfl, -⟩ := lossy_eq_cons (by decide) e
          exact absurd ⟨_, rfl⟩ h'
        · rfl
      rw [e1, e2]
      exact parseExpDigits_lossy _ _ _

theorem parseExp_lossy (t : Raw) : parseExp (lossy t) = (parseExp t).map carry := by
  by_cases h : ∃ u, t = 'e' :: u
  · obtain ⟨u, rfl⟩ := h
    rw [lossy_ascii (by decide)]
    exact parseExpSign_lossy _ _
  · by_cases h' : ∃ u, t = 'E' :: u
    · obtain ⟨u, rfl⟩ := h'
      rw [lossy_ascii (by decide)]
      exact parseExpSign_lossy _ _
    · have e1 : parseExp t = some (none, t) := by
        unfold parseExp
        split
        · exact absurd ⟨_, rfl⟩ h
        · exact absurd ⟨_, rfl⟩ h'
        · rfl
      have e2 : parseExp (lossy t) = some (none, lossy t) := by
        unfold parseExp
        split
        · rename_i e
          obtain ⟨u, rfl, -⟩ := lossy_eq_cons (by decide) e
          exact absurd ⟨_, rfl⟩ h
        · rename_i e
          obtain ⟨u, rfl, -⟩ := lossy_eq_cons (by decide) e
          exact absurd ⟨_, rfl⟩ h'
        · rfl
      rw [e1, e2]
      rfl

theorem parseInt_lossy (t : Raw) : parseInt (lossy t) = (parseInt t).map carry := by
  by_cases h : ∃ u, t = '0' :: u
  · obtain ⟨u, rfl⟩ := h
    rw [lossy_ascii (by decide)]
    rfl
  · have e1 : parseInt t = (match takeDigits t with | ([], _) => none | (ds, u) => some (ds, u)) := by
      unfold parseInt
      split
      · exact absurd ⟨_, rfl⟩ h
      · rfl
    have e2 : parseInt (lossy t) = (match takeDigits (lossy t) with | ([], _) => none | (ds, u) => some (ds, u)) := by
      unfold parseInt
      split
      · rename_i e
        obtain ⟨u, rfl, -⟩ := lossy_eq_cons (by decide) e
        exact absurd ⟨_, rfl⟩ h
      · rfl
    rw [e1, e2, takeDigits_lossy]
    rcases takeDigits t with ⟨_ | ⟨d, ds⟩, r⟩ <;> rfl

theorem parseNeg_lossy (t : Raw) : parseNeg (lossy t) = carry (parseNeg t) := by
  by_cases h : ∃ u, t = '-' :: u
  · obtain ⟨u, rfl⟩ := h
    rw [lossy_ascii (by decide)]
    rfl
  · have e1 : parseNeg t = (false, t) := by
      unfold parseNeg
      split
      · exact absurd ⟨_, rfl⟩ h
      · rfl
    have e2 : parseNeg (lossy t) = (false, lossy t) := by
      unfold parseNeg
      split
      · rename_i e
        obtain ⟨u, rfl, -⟩ := lossy_eq_cons (by decide) e
        exact absurd ⟨_, rfl⟩ h
      · rfl
    rw [e1, e2]
    rfl

theorem parseNum_lossy (t : Raw) : parseNum (lossy t) = (parseNum t).map carry := by
  unfold parseNum
  rw [parseNeg_lossy]
  rcases parseNeg t with ⟨neg, t1⟩
  simp only [carry]
  rw [parseInt_lossy]
  rcases parseInt t1 with _ | ⟨int, t2⟩
  · rfl
  simp only [Option.map, carry]
  rw [parseFrac_lossy]
  rcases parseFrac t2 with _ | ⟨frac, t3⟩
  · rfl
  simp only [Option.map, carry]
  rw [parseExp_lossy]
  rcases parseExp t3 with _ | ⟨exp, t4⟩ <;> rfl

theorem hexVal_high {c : Char} (h : 0x80 ≤ c.toNat) : hexVal c = none := by
  unfold hexVal
  have h1 : ∀ d : Char, d.toNat < 0x80 → ¬ c ≤ d := fun d hd hcd => by
    have : c.toNat ≤ d.toNat := hcd
    omega
  rw [if_neg (fun x => h1 _ (by decide) x.2), if_neg (fun x => h1 _ (by decide) x.2), if_neg (fun x => h1 _ (by decide) x.2)]

theorem simpleEsc_high {c : Char} (h : 0x80 ≤ c.toNat) : simpleEsc c = none := by
  unfold simpleEsc
  split <;> first | rfl | exact absurd rfl (high_ne h)

/-- Four hexadecimal digits. -/
def hexes (t : Text) : Option (Nat × Text) :=
  match t with
  | a :: b :: c :: d :: u => (hex4 a b c d).map fun n => (n, u)
  | _ => none

theorem hexes1 {a : Char} (h : hexVal a = none) (t : Text) : hexes (a :: t) = none := by
  unfold hexes
  split
  · rename_i e
    cases e
    simp [hex4, h]
  · rfl

theorem hexes2 (a : Char) {b : Char} (h : hexVal b = none) (t : Text) : hexes (a :: b :: t) = none := by
  unfold hexes
  split
  · rename_i e
    cases e
    simp [hex4, h]
  · rfl

theorem hexes3 (a b : Char) {c : Char} (h : hexVal c = none) (t : Text) : hexes (a :: b :: c :: t) = none := by
  unfold hexes
  split
  · rename_i e
    cases e
    simp [hex4, h]
  · rfl

theorem hexes4 (a b c : Char) {d : Char} (h : hexVal d = none) (t : Text) : hexes (a :: b :: c :: d :: t) = none := by
  simp [hexes, hex4, h]

theorem hexes_lossy (t : Raw) : hexes (lossy t) = (hexes t).map carry := by
  rcases t with _ | ⟨a, t⟩
  · rw [lossy_nil]; rfl
  by_cases ha : a.toNat < 0x80
  swap
  · rw [lossy_cons, hexes1 (hexVal_high (decodeRune_high (by omega) t)), hexes1 (hexVal_high (by omega))]; rfl
  rw [lossy_ascii ha]
  rcases t with _ | ⟨b, t⟩
  · rw [lossy_nil]; rfl
  by_cases hb : b.toNat < 0x80
  swap
  · rw [lossy_cons, hexes2 _ (hexVal_high (decodeRune_high (by omega) t)), hexes2 _ (hexVal_high (by omega))]; rfl
  rw [lossy_ascii hb]
  rcases t with _ | ⟨c, t⟩
  · rw [lossy_nil]; rfl
  by_cases hc : c.toNat < 0x80
  swap
  · rw [lossy_cons, hexes3 _ _ (hexVal_high (decodeRune_high (by omega) t)), hexes3 _ _ (hexVal_high (by omega))]; rfl
  rw [lossy_ascii hc]
  rcases t with _ | ⟨d, t⟩
  · rw [lossy_nil]; rfl
  by_cases hd : d.toNat < 0x80
  swap
  · rw [lossy_cons, hexes4 _ _ _ (hexVal_high (decodeRune_high (by omega) t)), hexes4 _ _ _ (hexVal_high (by omega))]; rfl
  rw [lossy_ascii hd]
  simp only [hexes]
  cases hex4 a b c d <;> rfl

theorem hexes_length {t u : Text} {n : Nat} (h : hexes t = some (n, u)) : u.length < t.length := by
  unfold hexes at h
  split at h
  · cases hx : hex4 _ _ _ _ with
    | none => rw [hx] at h; cases h
    | some m => rw [hx] at h; cases h; simp; omega
  · cases h

/-- Put an item in front. -/
def front (i : StrItem) (p : List StrItem × Text) : List StrItem × Text := (i :: p.1, p.2)

theorem jparseStr_uni (t : Text) : Json.parseStr ('\\' :: 'u' :: t) = (hexes t).bind fun p => (Json.parseStr p.2).map (front (unitItem p.1)) := by
  conv_lhs => rw [Json.parseStr.eq_def]
  simp only [show ('\\' : Char) ≠ '"' by decide, if_false, if_true]
  by_cases h : ∃ a b c d u, t = a :: b :: c :: d :: u
  · obtain ⟨a, b, c, d, u, rfl⟩ := h
    simp only [hexes]
    cases hex4 a b c d with
    | none => rfl
    | some n => simp only [Option.map_some, Option.bind_some]; rcases Json.parseStr u with _ | ⟨is, r⟩ <;> rfl
  · have e : hexes t = none := by
      unfold hexes
      split
      · exact absurd ⟨_, _, _, _, _, rfl⟩ h
      · rfl
    rw [e]
    split
    · exact absurd ⟨_, _, _, _, _, rfl⟩ h
    · rfl

theorem parseStr_uni (t : Raw) : parseStr ('\\' :: 'u' :: t) = (hexes t).bind fun p => (parseStr p.2).map (front (unitItem p.1)) := by
  conv_lhs => rw [parseStr.eq_def]
  simp only [show ('\\' : Char) ≠ '"' by decide, if_false, if_true]
  by_cases h : ∃ a b c d u, t = a :: b :: c :: d :: u
  · obtain ⟨a, b, c, d, u, rfl⟩ := h
    simp only [hexes]
    cases hex4 a b c d with
    | none => rfl
    | some n => simp only [Option.map_some, Option.bind_some]; rcases parseStr u with _ | ⟨is, r⟩ <;> rfl
  · have e : hexes t = none := by
      unfold hexes
      split
      · exact absurd ⟨_, _, _, _, _, rfl⟩ h
      · rfl
    rw [e]
    split
    · exact absurd ⟨_, _, _, _, _, rfl⟩ h
    · rfl

theorem jparseStr_esc {e : Char} (he : e ≠ 'u') (t : Text) :
    Json.parseStr ('\\' :: e :: t) = (simpleEsc e).bind fun c => (Json.parseStr t).map (front (.char c)) := by
  conv_lhs => rw [Json.parseStr.eq_def]
  simp only [show ('\\' : Char) ≠ '"' by decide, if_false, if_true, if_neg he]
  cases simpleEsc e with
  | none => rfl
  | some n => rcases Json.parseStr t with _ | ⟨is, r⟩ <;> rfl

theorem parseStr_esc {e : Char} (he : e ≠ 'u') (t : Raw) :
    parseStr ('\\' :: e :: t) = (simpleEsc e).bind fun c => (parseStr t).map (front (.char c)) := by
  conv_lhs => rw [parseStr.eq_def]
  simp only [show ('\\' : Char) ≠ '"' by decide, if_false, if_true, if_neg he]
  cases simpleEsc e with
  | none => rfl
  | some n => rcases parseStr t with _ | ⟨is, r⟩ <;> rfl

theorem jparseStr_plain {c : Char} (h1 : c ≠ '"') (h2 : c ≠ '\\') (t : Text) :
    Json.parseStr (c :: t) = if c.toNat < 0x20 then none else (Json.parseStr t).map (front (.char c)) := by
  conv_lhs => rw [Json.parseStr.eq_def]
  simp only [if_neg h1, if_neg h2]
  split
  · rfl
  · rcases Json.parseStr t with _ | ⟨is, r⟩ <;> rfl

theorem parseStr_plain {c : Char} (h1 : c ≠ '"') (h2 : c ≠ '\\') (t : Raw) :
    parseStr (c :: t) = if c.toNat < 0x20 then none else (parseStr (decodeRune c t).2).map (front (.char (decodeRune c t).1)) := by
  conv_lhs => rw [parseStr.eq_def]
  simp only [if_neg h1, if_neg h2]
  split
  · rfl
  · rcases parseStr (decodeRune c t).2 with _ | ⟨is, r⟩ <;> rfl

theorem map_front_carry (i : StrItem) (x : Option (List StrItem × Raw)) : (x.map carry).map (front i) = (x.map (front i)).map carry := by
  cases x <;> rfl

theorem parseStr_lossy_aux : ∀ (n : Nat) (t : Raw), t.length ≤ n → Json.parseStr (lossy t) = (parseStr t).map carry := by
  intro n
  induction n with
  | zero =>
    intro t ht
    have : t = [] := List.length_eq_zero_iff.1 (by omega)
    subst this
    rw [lossy_nil]
    simp [Json.parseStr, parseStr]
  | succ n ih =>
    intro t ht
    rcases t with _ | ⟨c, t⟩
    · rw [lossy_nil]
      simp [Json.parseStr, parseStr]
    simp only [List.length_cons] at ht
    by_cases hc : c.toNat < 0x80
    · rw [lossy_ascii hc]
      by_cases h1 : c = '"'
      · subst h1
        conv_lhs => rw [Json.parseStr.eq_def]
        conv_rhs => rw [parseStr.eq_def]
        rfl
      by_cases h2 : c = '\\'
      · subst h2
        rcases t with _ | ⟨e, t⟩
        · rw [lossy_nil]
          conv_lhs => rw [Json.parseStr.eq_def]
          conv_rhs => rw [parseStr.eq_def]
          rfl
        simp only [List.length_cons] at ht
        by_cases he : e.toNat < 0x80
        · rw [lossy_ascii he]
          by_cases hu : e = 'u'
          · subst hu
            rw [jparseStr_uni, parseStr_uni, hexes_lossy]
            rcases hx : hexes t with _ | ⟨m, u⟩
            · rfl
            · have := hexes_length hx
              simp only [Option.map_some, Option.bind_some, carry]
              rw [ih u (by omega)]
              exact map_front_carry _ _
          · rw [jparseStr_esc hu, parseStr_esc hu]
            cases simpleEsc e with
            | none => rfl
            | some m =>
              simp only [Option.bind_some]
              rw [ih t (by omega)]
              exact map_front_carry _ _
        · have hd := decodeRune_high (c := e) (by omega) t
          rw [lossy_cons, jparseStr_esc (high_ne hd), parseStr_esc (high_ne (by omega)), simpleEsc_high hd, simpleEsc_high (c := e) (by omega)]
          rfl
      · rw [jparseStr_plain h1 h2, parseStr_plain h1 h2, decodeRune_ascii hc]
        split
        · rfl
        · rw [ih t (by omega)]
          exact map_front_carry _ _
    · have hd := decodeRune_high (c := c) (by omega) t
      have hl := decodeRune_length c t
      rw [lossy_cons, jparseStr_plain (high_ne hd) (high_ne hd), parseStr_plain (high_ne (by omega)) (high_ne (by omega)),
        if_neg (by omega), if_neg (by omega), ih _ (by omega)]
      exact map_front_carry _ _

theorem parseStr_lossy (t : Raw) : Json.parseStr (lossy t) = (parseStr t).map carry := parseStr_lossy_aux _ t (Nat.le_refl _)

theorem numOf_lossy (t : Raw) :
    (match parseNum (lossy t) with | some (r, u) => some (JVal.num r.lit, u) | none => none) =
      (match parseNum t with | some (r, u) => some (JVal.num r.lit, u) | none => none : Option (JVal × Raw)).map carry := by
  rw [parseNum_lossy]
  rcases parseNum t with _ | ⟨r, u⟩ <;> rfl

mutual
theorem parseValue_lossy : ∀ (n : Nat) (t : Raw), Json.parseValue n (lossy t) = (parseValue n t).map carry
  | 0, t => by simp [Json.parseValue, parseValue]
  | n + 1, t => by
    conv_lhs => rw [Json.parseValue.eq_def]
    simp only
    split
    · rename_i u0 e0
      obtain ⟨u1, rfl, e1⟩ := lossy_eq_cons (by decide) e0
      obtain ⟨u2, rfl, e2⟩ := lossy_eq_cons (by decide) e1.symm
      obtain ⟨u3, rfl, e3⟩ := lossy_eq_cons (by decide) e2.symm
      obtain ⟨u4, rfl, rfl⟩ := lossy_eq_cons (by decide) e3.symm
      simp [parseValue, carry]
    · rename_i u0 e0
      obtain ⟨u1, rfl, e1⟩ := lossy_eq_cons (by decide) e0
      obtain ⟨u2, rfl, e2⟩ := lossy_eq_cons (by decide) e1.symm
      obtain ⟨u3, rfl, e3⟩ := lossy_eq_cons (by decide) e2.symm
      obtain ⟨u4, rfl, rfl⟩ := lossy_eq_cons (by decide) e3.symm
      simp [parseValue, carry]
    · rename_i u0 e0
      obtain ⟨u1, rfl, e1⟩ := lossy_eq_cons (by decide) e0
      obtain ⟨u2, rfl, e2⟩ := lossy_eq_cons (by decide) e1.symm
      obtain ⟨u3, rfl, e3⟩ := lossy_eq_cons (by decide) e2.symm
      obtain ⟨u4, rfl, e4⟩ := lossy_eq_cons (by decide) e3.symm
      obtain ⟨u5, rfl, rfl⟩ := lossy_eq_cons (by decide) e4.symm
      simp [parseValue, carry]
    · rename_i u e
      obtain ⟨u, rfl, rfl⟩ := lossy_eq_cons (by decide) e
      conv_rhs => rw [parseValue.eq_def]
      simp only
      rw [parseStr_lossy]
      rcases parseStr u with _ | ⟨is, r⟩ <;> rfl
    · rename_i u e
      obtain ⟨u, rfl, rfl⟩ := lossy_eq_cons (by decide) e
      conv_rhs => rw [parseValue.eq_def]
      simp only
      rw [skipWs_lossy]
      by_cases h : ∃ r, skipWs u = ']' :: r
      · obtain ⟨r, hr⟩ := h
        rw [hr, lossy_ascii (by decide)]
        rfl
      · have h' : ∀ r, lossy (skipWs u) = ']' :: r → False := fun r hr => by
          obtain ⟨r', hr', -⟩ := lossy_eq_cons (by decide) hr
          exact h ⟨r', hr'⟩
        split
        · rename_i hr; exact (h' _ hr).elim
        · rw [parseElems_lossy n u]
          rcases parseElems n u with _ | ⟨vs, r⟩ <;> simp only [Option.map_some, Option.map_none] <;> split <;>
            first | rfl | (rename_i hr; exact (h ⟨_, hr⟩).elim)
    · rename_i u e
      obtain ⟨u, rfl, rfl⟩ := lossy_eq_cons (by decide) e
      conv_rhs => rw [parseValue.eq_def]
      simp only
      rw [skipWs_lossy]
      by_cases h : ∃ r, skipWs u = '}' :: r
      · obtain ⟨r, hr⟩ := h
        rw [hr, lossy_ascii (by decide)]
        rfl
      · have h' : ∀ r, lossy (skipWs u) = '}' :: r → False := fun r hr => by
          obtain ⟨r', hr', -⟩ := lossy_eq_cons (by decide) hr
          exact h ⟨r', hr'⟩
        split
        · rename_i hr; exact (h' _ hr).elim
        · rw [parseMembers_lossy n u]
          rcases parseMembers n u with _ | ⟨vs, r⟩ <;> simp only [Option.map_some, Option.map_none] <;> split <;>
            first | rfl | (rename_i hr; exact (h ⟨_, hr⟩).elim)
    · rename_i s h1 h2 h3 h4 h5 h6
      refine (numOf_lossy t).trans ?_
      refine congrArg (Option.map carry) ?_
      conv_rhs => rw [parseValue.eq_def]
      simp only
      symm
      split
      · exact (h1 _ (by rw [lossy_ascii (by decide), lossy_ascii (by decide), lossy_ascii (by decide), lossy_ascii (by decide)])).elim
      · exact (h2 _ (by rw [lossy_ascii (by decide), lossy_ascii (by decide), lossy_ascii (by decide), lossy_ascii (by decide)])).elim
      · exact (h3 _ (by rw [lossy_ascii (by decide), lossy_ascii (by decide), lossy_ascii (by decide), lossy_ascii (by decide),
          lossy_ascii (by decide)])).elim
      · exact (h4 _ (by rw [lossy_ascii (by decide)])).elim
      · exact (h5 _ (by rw [lossy_ascii (by decide)])).elim
      · exact (h6 _ (by rw [lossy_ascii (by decide)])).elim
      · rfl
theorem parseElems_lossy : ∀ (n : Nat) (t : Raw), Json.parseElems n (lossy t) = (parseElems n t).map carry
  | 0, t => by simp [Json.parseElems, parseElems]
  | n + 1, t => by
    rw [Json.parseElems, parseElems, skipWs_lossy, parseValue_lossy n]
    rcases parseValue n (skipWs t) with _ | ⟨v, u⟩
    · rfl
    simp only [Option.map_some, carry]
    rw [skipWs_lossy]
    split
    · rename_i e
      obtain ⟨r, hr, rfl⟩ := lossy_eq_cons (by decide) e
      rw [hr]
      rfl
    · rename_i e
      obtain ⟨r, hr, rfl⟩ := lossy_eq_cons (by decide) e
      rw [hr, parseElems_lossy n r]
      simp only
      rcases parseElems n r with _ | ⟨vs, r'⟩ <;> rfl
    · rename_i h1 h2
      split
      · rename_i hr; exact (h1 _ (by rw [hr, lossy_ascii (by decide)])).elim
      · rename_i hr; exact (h2 _ (by rw [hr, lossy_ascii (by decide)])).elim
      · rfl
theorem parseMembers_lossy : ∀ (n : Nat) (t : Raw), Json.parseMembers n (lossy t) = (parseMembers n t).map carry
  | 0, t => by simp [Json.parseMembers, parseMembers]
  | n + 1, t => by
    rw [Json.parseMembers, parseMembers, skipWs_lossy]
    split
    · rename_i e
      obtain ⟨t1, ht1, rfl⟩ := lossy_eq_cons (by decide) e
      rw [ht1, parseStr_lossy]
      simp only
      rcases parseStr t1 with _ | ⟨is, t2⟩
      · rfl
      simp only [Option.map_some, carry]
      rw [skipWs_lossy]
      split
      · rename_i e
        obtain ⟨t3, ht3, rfl⟩ := lossy_eq_cons (by decide) e
        rw [ht3, skipWs_lossy, parseValue_lossy n]
        simp only
        rcases parseValue n (skipWs t3) with _ | ⟨v, u⟩
        · rfl
        simp only [Option.map_some, carry]
        rw [skipWs_lossy]
        split
        · rename_i e
          obtain ⟨r, hr, rfl⟩ := lossy_eq_cons (by decide) e
          rw [hr]
          rfl
        · rename_i e
          obtain ⟨r, hr, rfl⟩ := lossy_eq_cons (by decide) e
          rw [hr, parseMembers_lossy n r]
          simp only
          rcases parseMembers n r with _ | ⟨vs, r'⟩ <;> rfl
        · rename_i h1 h2
          split
          · rename_i hr; exact (h1 _ (by rw [hr, lossy_ascii (by decide)])).elim
          · rename_i hr; exact (h2 _ (by rw [hr, lossy_ascii (by decide)])).elim
          · rfl
      · rename_i h1
        split
        · rename_i hr; exact (h1 _ (by rw [hr, lossy_ascii (by decide)])).elim
        · rfl
    · rename_i h1
      split
      · rename_i hr; exact (h1 _ (by rw [hr, lossy_ascii (by decide)])).elim
      · rfl
end

theorem lossy_length_aux : ∀ (n : Nat) (t : Raw), t.length ≤ n → (lossy t).length ≤ t.length := by
  intro n
  induction n with
  | zero => intro t ht; rw [List.length_eq_zero_iff.1 (Nat.le_zero.1 ht), lossy_nil]
  | succ n ih =>
    intro t ht
    rcases t with _ | ⟨c, t⟩
    · rw [lossy_nil]
    · have := decodeRune_length c t
      have := ih (decodeRune c t).2 (by simp at ht; omega)
      rw [lossy_cons]
      simp
      omega

theorem lossy_length (t : Raw) : (lossy t).length ≤ t.length := lossy_length_aux _ t (Nat.le_refl _)

theorem parse_fuel (t : Text) (n : Nat) (hn : t.length ≤ n) (v : JVal) :
    (match Json.parseValue (n + 1) (skipWs t) with
      | some (v, u) => if skipWs u = [] then some v else none
      | none => none) = some v ↔ JsonText v t := by
  constructor
  · intro h
    split at h
    · rename_i v' u hp
      split at h
      · rename_i hs
        obtain rfl := Option.some.inj h
        obtain ⟨w, hw, ht⟩ := skipWs_split t
        obtain ⟨u', hv, hu⟩ := value_sound _ hp
        obtain ⟨w', hw', ht'⟩ := skipWs_split u
        exact ⟨w, u', w', hw, hv, hw', by rw [ht, hu, ht', hs]; simp⟩
      · simp at h
    · simp at h
  · rintro ⟨w, u, w', hw, hv, hw', rfl⟩
    have h1 : skipWs (w ++ (u ++ w')) = u ++ w' := skipWs_value hv hw w'
    have hn' : u.length ≤ n := by simp at hn; omega
    have hs : NumStop w' := by
      have := numStop_ws hw' numStop_nil
      simpa using this
    rw [h1, value_ok hv n w' hn' hs]
    simp [skipWs_ws hw']

theorem parse_lossy (t : Raw) : parse t = Json.parse (lossy t) := by
  have h : ∀ v, parse t = some v ↔ Json.parse (lossy t) = some v := fun v => by
    rw [parse_iff, ← parse_fuel (lossy t) t.length (lossy_length t) v, skipWs_lossy, parseValue_lossy]
    unfold parse
    rcases parseValue (t.length + 1) (skipWs t) with _ | ⟨v', u⟩
    · rfl
    · simp only [Option.map_some, carry]
      rw [skipWs_lossy]
      have : lossy (skipWs u) = [] ↔ skipWs u = [] := ⟨lossy_eq_nil, fun h => by rw [h, lossy_nil]⟩
      simp [this]
  cases h1 : parse t with
  | some v => exact ((h v).1 h1).symm
  | none =>
    cases h2 : Json.parse (lossy t) with
    | none => rfl
    | some v => rw [(h v).2 h2] at h1; cases h1

end Verif.Bytes
