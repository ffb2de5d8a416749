import Verif.Lemmas.Bytes3
import Verif.Lemmas.Json2
/-!
# Bytes: writing
-/
set_option linter.unusedSimpArgs false
namespace Verif.Bytes
open Json Ocppj

/-- The bytes of a text. -/
def ru (t : Text) : Raw := raw (utf8 t)

theorem ru_cons (c : Char) (t : Text) : ru (c :: t) = enc c ++ ru t := by
  unfold ru utf8 enc
  rw [List.flatMap_cons, raw_append]

theorem ru_nil : ru [] = [] := rfl

theorem ru_append (a b : Text) : ru (a ++ b) = ru a ++ ru b := by
  unfold ru utf8
  rw [List.flatMap_append, raw_append]

theorem enc_low {c : Char} (h : c.toNat < 0x80) : enc c = [c] := (enc_enc c).low h

theorem ru_low {t : Text} (h : ∀ c ∈ t, c.toNat < 0x80) : ru t = t := by
  induction t with
  | nil => rfl
  | cons c t ih => rw [ru_cons, enc_low (h c (by simp)), ih (fun d hd => h d (by simp [hd]))]; rfl

theorem lossy_ru (t : Text) : lossy (ru t) = t := decodes_lossy (decodes_utf8 t)

theorem hexDigit_low (n : Nat) (h : n < 16) : (hexDigit n).toNat < 0x80 := by
  unfold hexDigit
  split <;> rw [toNat_ofNat (by omega)] <;> omega

theorem uEsc_low (n : Nat) : ∀ c ∈ uEsc n, c.toNat < 0x80 := by
  intro c hc
  simp only [uEsc, List.mem_cons, List.not_mem_nil, or_false] at hc
  rcases hc with rfl | rfl | rfl | rfl | rfl | rfl
  · decide
  · decide
  all_goals exact hexDigit_low _ (Nat.mod_lt _ (by decide))

theorem escAscii_eq {c : Char} (h : c.toNat < 0x80) : escAscii c = escChar c := by
  unfold escAscii escChar
  have h1 : ¬ c.toNat = 0x2028 := by omega
  have h2 : ¬ c.toNat = 0x2029 := by omega
  simp only [h1, h2, or_false]

theorem escChar_low {c : Char} (h : c.toNat < 0x80) : ∀ d ∈ escChar c, d.toNat < 0x80 := by
  unfold escChar
  repeat' split
  all_goals first
    | exact uEsc_low _
    | (intro d hd
       simp only [List.mem_cons, List.not_mem_nil, or_false] at hd
       first | (rcases hd with rfl | rfl <;> first | decide | assumption) | (subst hd; assumption))

theorem escChar_high {c : Char} (h : 0x80 ≤ c.toNat) :
    escChar c = if c.toNat = 0x2028 ∨ c.toNat = 0x2029 then uEsc c.toNat else [c] := by
  unfold escChar
  have h1 : ¬ c.toNat < 0x20 := by omega
  rw [if_neg (not_or.2 ⟨high_ne h, high_ne h⟩), if_neg (high_ne h), if_neg (high_ne h), if_neg (high_ne h)]
  simp only [h1, high_ne h (d := '<'), high_ne h (d := '>'), high_ne h (d := '&'), false_or]

theorem escBytes_nil : escBytes [] = [] := by rw [escBytes.eq_def]

theorem escBytes_cons (c : Char) (t : Raw) : escBytes (c :: t) =
    if c.toNat < 0x80 then escAscii c ++ escBytes t
    else
      (if (decodeRune c t).1 = runeError ∧ (decodeRune c t).2.length = t.length then uEsc 0xFFFD
       else if (decodeRune c t).1.toNat = 0x2028 ∨ (decodeRune c t).1.toNat = 0x2029 then uEsc (decodeRune c t).1.toNat
       else c :: t.take (t.length - (decodeRune c t).2.length)) ++ escBytes (decodeRune c t).2 := by
  conv_lhs => rw [escBytes.eq_def]

theorem escBytes_enc {x : Char} {e : Raw} (he : Enc x e) (u : Raw) : escBytes (e ++ u) = ru (escChar x) ++ escBytes u := by
  by_cases hx : x.toNat < 0x80
  · rw [he.low hx, ru_low (escChar_low hx), List.singleton_append, escBytes_cons, if_pos hx, escAscii_eq hx]
  · obtain ⟨c, t, h1, h2, h3⟩ := he.decode (u := u)
    obtain ⟨a, r, rfl, -, -⟩ := he.ne_nil
    obtain ⟨rfl, rfl⟩ := List.cons.inj h1
    have hc : 0x80 ≤ a.toNat := he.high (by omega) a (by simp)
    have hr : 1 ≤ List.length r := by
      cases he <;> first | omega | simp
    rw [List.cons_append, escBytes_cons, if_neg (by omega), escChar_high (by omega)]
    have e0 : r.append u = r ++ u := rfl
    rw [e0] at h2
    rw [h2]
    dsimp only
    rw [if_neg (by simp; intro _; rintro rfl; simp at hr)]
    congr 1
    split
    · rw [ru_low (uEsc_low _)]
    · rw [ru_cons, ru_nil, List.append_nil, ← he.unique]
      have : (r ++ u).length - u.length = r.length := by simp
      rw [this, List.take_left']
      rfl

theorem escBytes_bad {c : Char} {u : Raw} (h : Bad c u) : escBytes (c :: u) = ru (uEsc 0xFFFD) ++ escBytes u := by
  obtain ⟨hc, hd⟩ := bad_decode h
  rw [escBytes_cons, if_neg (by omega), hd, ru_low (uEsc_low _)]
  simp

theorem escBytes_text {b : Raw} {t : Text} (h : Lossy b t) : ∃ w, escBytes b = ru w ∧ StrText (t.map .char) w := by
  induction h with
  | nil => exact ⟨[], escBytes_nil, .nil⟩
  | @enc x e u t he _ ih =>
    obtain ⟨w, h1, h2⟩ := ih
    exact ⟨escChar x ++ w, by rw [escBytes_enc he, ru_append, h1], strText_escChar x h2⟩
  | @bad c u t hb _ ih =>
    obtain ⟨w, h1, h2⟩ := ih
    exact ⟨uEsc 0xFFFD ++ w, by rw [escBytes_bad hb, ru_append, h1], .uni (n := 0xFFFD) (by decide) h2⟩

theorem ru_quoted (w : Text) : '"' :: (ru w ++ ['"']) = ru ('"' :: (w ++ ['"'])) := by
  rw [ru_cons, ru_append, ru_cons, ru_nil, enc_low (c := '"') (by decide)]
  rfl

theorem quote_text (s : List UInt8) (t : Text) (h : Decodes s t) : ∃ w, quote s = ru w ∧ Str t w := by
  have h1 := lossy_rel (raw s)
  rw [decodes_lossy h] at h1
  obtain ⟨w, h2, h3⟩ := escBytes_text h1
  refine ⟨'"' :: (w ++ ['"']), ?_, t.map .char, w, h3, (joinItems_chars t).symm, rfl⟩
  rw [← ru_quoted, ← h2]
  rfl

theorem escBytes_ru (t : Text) : escBytes (ru t) = ru (t.flatMap escChar) := by
  induction t with
  | nil => exact escBytes_nil
  | cons c t ih => rw [ru_cons, escBytes_enc (enc_enc c), ih, List.flatMap_cons, ru_append]

theorem quote_utf8 (t : Text) : quote (utf8 t) = ru (Json.quote t) := by
  unfold quote Json.quote
  rw [← ru_quoted, ← escBytes_ru]
  rfl

theorem parse_quote (s : List UInt8) (t : Text) (h : Decodes s t) : parse (quote s) = some (.str t) := by
  obtain ⟨w, h1, h2⟩ := quote_text s t h
  rw [parse_lossy, h1, lossy_ru, parse_iff]
  exact (Value.str h2).jsonText

/-! ### Compacting -/

theorem compact_cons (i e : Bool) (c : Char) (t : Raw) : compact i e (c :: t) =
    match lineSep c t with
    | some (n, u) => uEsc n ++ compact i false u
    | none =>
      if i then
        if e then (if c = '<' ∨ c = '>' ∨ c = '&' then uEsc c.toNat else [c]) ++ compact true false t
        else if c = '\\' then (if c = '<' ∨ c = '>' ∨ c = '&' then uEsc c.toNat else [c]) ++ compact true true t
        else if c = '"' then (if c = '<' ∨ c = '>' ∨ c = '&' then uEsc c.toNat else [c]) ++ compact false false t
        else (if c = '<' ∨ c = '>' ∨ c = '&' then uEsc c.toNat else [c]) ++ compact true false t
      else if c = '"' then (if c = '<' ∨ c = '>' ∨ c = '&' then uEsc c.toNat else [c]) ++ compact true false t
      else if wsChar c then compact false false t
      else (if c = '<' ∨ c = '>' ∨ c = '&' then uEsc c.toNat else [c]) ++ compact false false t := by
  rw [compact.eq_def]
  dsimp only
  split
  · rename_i h; rw [h]
  · rename_i h; rw [h]

theorem lineSep_none {c : Char} (h : c.toNat ≠ 0xE2) (t : Raw) : lineSep c t = none := by
  unfold lineSep
  split
  · rw [if_neg (by tauto)]
  · rfl

theorem compact_high {i e : Bool} {c : Char} (hc : 0x80 ≤ c.toNat) {t : Raw} (hl : lineSep c t = none) :
    compact i e (c :: t) = c :: compact i false t := by
  rw [compact_cons, hl]
  dsimp only
  rw [if_neg (c := c = '<' ∨ c = '>' ∨ c = '&') (by simp [high_ne hc (d := '<'), high_ne hc (d := '>'), high_ne hc (d := '&')])]
  rw [if_neg (c := c = '\\') (high_ne hc), if_neg (c := c = '"') (high_ne hc), wsChar_high hc]
  cases i <;> cases e <;> simp [high_ne hc (d := '"')]

theorem compact_conts {i : Bool} {r : Raw} (h : ∀ b ∈ r, runeStart b = false) (u : Raw) :
    compact i false (r ++ u) = r ++ compact i false u := by
  induction r with
  | nil => rfl
  | cons b r ih =>
    have hb := h b (by simp)
    rw [List.cons_append, compact_high (start_low hb), ih (fun d hd => h d (by simp [hd]))]
    · rfl
    · refine lineSep_none (fun hE => ?_) _
      simp [runeStart, within] at hb
      omega

theorem jcompact_cons (i e : Bool) (c : Char) (t : Text) : compactGo i e (c :: t) =
    let out := if c = '<' ∨ c = '>' ∨ c = '&' ∨ c.toNat = 0x2028 ∨ c.toNat = 0x2029 then uEsc c.toNat else [c]
    if i then
      if e then out ++ compactGo true false t
      else if c = '\\' then out ++ compactGo true true t
      else if c = '"' then out ++ compactGo false false t
      else out ++ compactGo true false t
    else if c = '"' then out ++ compactGo true false t
    else if wsChar c then compactGo false false t
    else out ++ compactGo false false t := by
  rw [compactGo]

theorem jcompact_high {i e : Bool} {c : Char} (hc : 0x80 ≤ c.toNat) (t : Text) :
    compactGo i e (c :: t) = (if c.toNat = 0x2028 ∨ c.toNat = 0x2029 then uEsc c.toNat else [c]) ++ compactGo i false t := by
  rw [jcompact_cons]
  simp only [high_ne hc (d := '<'), high_ne hc (d := '>'), high_ne hc (d := '&'), high_ne hc (d := '\\'), high_ne hc (d := '"'),
    wsChar_high hc, false_or, if_false]
  cases i <;> cases e <;> simp

theorem compact_ru (t : Text) : ∀ i e, compact i e (ru t) = ru (compactGo i e t) := by
  induction t with
  | nil => intro i e; rw [ru_nil, compact.eq_def]; simp [compactGo, ru_nil]
  | cons c t ih =>
    intro i e
    rw [ru_cons]
    by_cases hc : c.toNat < 0x80
    · have h1 : ¬ c.toNat = 0x2028 := by omega
      have h2 : ¬ c.toNat = 0x2029 := by omega
      have ho : ru (if c = '<' ∨ c = '>' ∨ c = '&' then uEsc c.toNat else [c]) = if c = '<' ∨ c = '>' ∨ c = '&' then uEsc c.toNat else [c] := by
        split
        · exact ru_low (uEsc_low _)
        · rw [ru_cons, enc_low hc, ru_nil]; rfl
      rw [enc_low hc, List.singleton_append, compact_cons, lineSep_none (by omega), jcompact_cons]
      simp only [h1, h2, or_false]
      cases i
      · by_cases hq : c = '"'
        · simp only [if_pos hq, ih, ru_append, ho, Bool.false_eq_true, if_false]
        · by_cases hw : wsChar c = true
          · simp only [if_neg hq, if_pos hw, ih, Bool.false_eq_true, if_false]
          · simp only [if_neg hq, if_neg hw, ih, ru_append, ho, Bool.false_eq_true, if_false]
      · cases e
        · by_cases hb : c = '\\'
          · simp only [if_pos hb, ih, ru_append, ho, Bool.false_eq_true, if_false, if_true]
          · by_cases hq : c = '"'
            · simp only [if_neg hb, if_pos hq, ih, ru_append, ho, Bool.false_eq_true, if_false, if_true]
            · simp only [if_neg hb, if_neg hq, ih, ru_append, ho, Bool.false_eq_true, if_false, if_true]
        · simp only [ih, ru_append, ho, if_true]
    · rw [jcompact_high (by omega)]
      have he := enc_enc c
      generalize enc c = b at he
      have hh := he.high (by omega)
      have hb := he.unique
      split
      · rename_i hs
        rw [ru_append, ru_low (uEsc_low _), ← ih]
        cases he with
        | one => omega
        | two => omega
        | four => omega
        | @three b0 b1 b2 h1 h2 h3 h4 h5 =>
          rw [List.cons_append, compact_cons]
          have : lineSep b0 ([b1, b2] ++ ru t) = some (c.toNat, ru t) := by
            show (if b0.toNat = 0xE2 ∧ b1.toNat = 0x80 ∧ (b2.toNat = 0xA8 ∨ b2.toNat = 0xA9) then some (0x2020 + b2.toNat % 16, ru t) else none) = _
            rw [if_pos (by omega)]
            congr 2
            omega
          rw [this]
      · rename_i hs
        rw [ru_append, ru_cons, ru_nil, List.append_nil, ← hb, ← ih]
        obtain ⟨a, r, rfl, -, hr⟩ := he.ne_nil
        rw [List.cons_append, compact_high (hh a (by simp)), compact_conts hr]
        · rfl
        · unfold lineSep
          split
          · rename_i c1 c2 u hu
            rw [if_neg]
            rintro ⟨k1, k2, k3⟩
            cases he with
            | one => omega
            | two => omega
            | four => omega
            | @three b0 b1 b2 h1 h2 h3 h4 h5 =>
              simp only [List.cons_append, List.nil_append, List.cons.injEq] at hu
              obtain ⟨rfl, rfl, rfl⟩ := hu
              omega
          · rfl

end Verif.Bytes
