import Verif.Lemmas.Bytes
/-!
# Bytes: encodings
-/
set_option linter.unusedSimpArgs false
namespace Verif.Bytes
open Json Ocppj

/-- The bytes of a character. -/
def enc (x : Char) : Raw := raw (String.utf8EncodeChar x)

theorem ch_ofNat {n : Nat} (h : n < 256) : Char.ofNat (UInt8.ofNat n).toNat = Char.ofNat n := by
  congr 1
  simp [UInt8.toNat_ofNat']
  omega

theorem char_lt (x : Char) : x.toNat < 0xD800 ∨ (0xDFFF < x.toNat ∧ x.toNat < 0x110000) := x.valid

theorem enc_eq (x : Char) : enc x =
    if x.toNat ≤ 127 then [Char.ofNat x.toNat]
    else if x.toNat ≤ 2047 then [Char.ofNat (x.toNat / 64 % 32 + 192), Char.ofNat (x.toNat % 64 + 128)]
    else if x.toNat ≤ 65535 then
      [Char.ofNat (x.toNat / 4096 % 16 + 224), Char.ofNat (x.toNat / 64 % 64 + 128), Char.ofNat (x.toNat % 64 + 128)]
    else [Char.ofNat (x.toNat / 262144 % 8 + 240), Char.ofNat (x.toNat / 4096 % 64 + 128), Char.ofNat (x.toNat / 64 % 64 + 128),
      Char.ofNat (x.toNat % 64 + 128)] := by
  have hv : x.val.toNat = x.toNat := rfl
  unfold enc raw String.utf8EncodeChar
  rw [hv]
  dsimp only
  split
  · simp only [List.map_cons, List.map_nil]
    rw [ch_ofNat (by omega)]
  split
  · simp only [List.map_cons, List.map_nil]
    rw [ch_ofNat (by omega), ch_ofNat (by omega)]
  split
  · simp only [List.map_cons, List.map_nil]
    rw [ch_ofNat (by omega), ch_ofNat (by omega), ch_ofNat (by omega)]
  · simp only [List.map_cons, List.map_nil]
    rw [ch_ofNat (by omega), ch_ofNat (by omega), ch_ofNat (by omega), ch_ofNat (by omega)]

/-- The bytes of a character, by their numbers. -/
inductive Enc : Char → Raw → Prop
  | one {x : Char} : x.toNat ≤ 127 → Enc x [x]
  | two {x a b : Char} : 127 < x.toNat → x.toNat ≤ 2047 → a.toNat = x.toNat / 64 + 192 → b.toNat = x.toNat % 64 + 128 → Enc x [a, b]
  | three {x a b c : Char} : 2047 < x.toNat → x.toNat ≤ 65535 → a.toNat = x.toNat / 4096 + 224 → b.toNat = x.toNat / 64 % 64 + 128 →
      c.toNat = x.toNat % 64 + 128 → Enc x [a, b, c]
  | four {x a b c d : Char} : 65535 < x.toNat → a.toNat = x.toNat / 262144 + 240 → b.toNat = x.toNat / 4096 % 64 + 128 →
      c.toNat = x.toNat / 64 % 64 + 128 → d.toNat = x.toNat % 64 + 128 → Enc x [a, b, c, d]

theorem enc_enc (x : Char) : Enc x (enc x) := by
  have hx := char_lt x
  rw [enc_eq]
  split
  · rw [show Char.ofNat x.toNat = x from Char.ofNat_toNat x]
    exact .one (by omega)
  split
  · exact .two (by omega) (by omega) (by rw [toNat_ofNat (by omega)]; omega) (by rw [toNat_ofNat (by omega)])
  split
  · exact .three (by omega) (by omega) (by rw [toNat_ofNat (by omega)]; omega) (by rw [toNat_ofNat (by omega)])
      (by rw [toNat_ofNat (by omega)])
  · exact .four (by omega) (by rw [toNat_ofNat (by omega)]; omega) (by rw [toNat_ofNat (by omega)])
      (by rw [toNat_ofNat (by omega)]) (by rw [toNat_ofNat (by omega)])

theorem char_ext {a b : Char} (h : a.toNat = b.toNat) : a = b := by
  rw [← Char.ofNat_toNat a, ← Char.ofNat_toNat b, h]

theorem Enc.unique {x : Char} {t : Raw} (h : Enc x t) : t = enc x := by
  have h' := enc_enc x
  generalize enc x = u at h'
  cases h <;> cases h' <;> first | omega | rfl | (congr 1 <;> first | (apply char_ext; omega) | (congr 1 <;> first | (apply char_ext; omega) |
    (congr 1 <;> first | (apply char_ext; omega) | (congr 1; apply char_ext; omega))))

theorem ofNat_eq {n : Nat} {x : Char} (h : n = x.toNat) : Char.ofNat n = x := by
  rw [h, Char.ofNat_toNat]

/-- The bytes of a character are decoded as it. -/
theorem Enc.decode {x : Char} {e u : Raw} (h : Enc x e) : ∃ c t, e ++ u = c :: t ∧ decodeRune c t = (x, u) ∧ u.length + e.length = t.length + 1 := by
  have hx := char_lt x
  cases h with
  | one h => exact ⟨_, _, rfl, decodeRune_ascii (by omega) u, by simp⟩
  | two h1 h2 ha hb =>
    rename_i a b
    refine ⟨a, b :: u, rfl, ?_, by simp⟩
    unfold decodeRune
    rw [if_neg (by omega), if_pos (by simp [within]; omega)]
    dsimp only
    rw [if_pos (by simp [within]; omega), ofNat_eq (x := x) (by omega)]
  | three h1 h2 ha hb hc =>
    rename_i a b c
    refine ⟨a, b :: c :: u, rfl, ?_, by simp⟩
    unfold decodeRune
    rw [if_neg (by omega), if_neg (by simp [within]; omega), if_pos (by simp [within]; omega)]
    dsimp only
    rw [if_pos, ofNat_eq (x := x) (by omega)]
    simp only [second, within, Bool.and_eq_true, decide_eq_true_eq]
    repeat' split
    all_goals omega
  | four h1 ha hb hc hd =>
    rename_i a b c d
    refine ⟨a, b :: c :: d :: u, rfl, ?_, by simp⟩
    unfold decodeRune
    rw [if_neg (by omega), if_neg (by simp [within]; omega), if_neg (by simp [within]; omega), if_pos (by simp [within]; omega)]
    dsimp only
    rw [if_pos, ofNat_eq (x := x) (by omega)]
    simp only [second, within, Bool.and_eq_true, decide_eq_true_eq]
    repeat' split
    all_goals omega

/-- What is decoded is the bytes of a character, or an error. -/
theorem decode_cases (c : Char) (t : Raw) :
    (∃ e, Enc (decodeRune c t).1 e ∧ c :: t = e ++ (decodeRune c t).2) ∨ (0x80 ≤ c.toNat ∧ decodeRune c t = (runeError, t)) := by
  unfold decodeRune
  split
  · rename_i h
    exact .inl ⟨[c], .one (by dsimp only; omega), rfl⟩
  rename_i h0
  split
  · rename_i h1
    simp only [within, Bool.and_eq_true, decide_eq_true_eq] at h1
    split
    · rename_i c1 u
      split
      · rename_i h2
        simp only [within, Bool.and_eq_true, decide_eq_true_eq] at h2
        refine .inl ⟨[c, c1], ?_, rfl⟩
        have e : (Char.ofNat (c.toNat % 32 * 64 + c1.toNat % 64)).toNat = c.toNat % 32 * 64 + c1.toNat % 64 := toNat_ofNat (by omega)
        exact .two (by rw [e]; omega) (by rw [e]; omega) (by rw [e]; omega) (by rw [e]; omega)
      · exact .inr ⟨by omega, rfl⟩
    · exact .inr ⟨by omega, rfl⟩
  split
  · rename_i h1
    simp only [within, Bool.and_eq_true, decide_eq_true_eq] at h1
    split
    · rename_i c1 c2 u
      split
      · rename_i h2
        simp only [second, within, Bool.and_eq_true, decide_eq_true_eq] at h2
        refine .inl ⟨[c, c1, c2], ?_, rfl⟩
        have e : (Char.ofNat (c.toNat % 16 * 4096 + c1.toNat % 64 * 64 + c2.toNat % 64)).toNat =
            c.toNat % 16 * 4096 + c1.toNat % 64 * 64 + c2.toNat % 64 := toNat_ofNat (by (repeat' split at h2) <;> omega)
        exact .three (by rw [e]; (repeat' split at h2) <;> omega) (by rw [e]; omega) (by rw [e]; omega) (by rw [e]; (repeat' split at h2) <;> omega)
          (by rw [e]; omega)
      · exact .inr ⟨by omega, rfl⟩
    · exact .inr ⟨by omega, rfl⟩
  split
  · rename_i h1
    simp only [within, Bool.and_eq_true, decide_eq_true_eq] at h1
    split
    · rename_i c1 c2 c3 u
      split
      · rename_i h2
        simp only [second, within, Bool.and_eq_true, decide_eq_true_eq] at h2
        refine .inl ⟨[c, c1, c2, c3], ?_, rfl⟩
        have e : (Char.ofNat (c.toNat % 8 * 262144 + c1.toNat % 64 * 4096 + c2.toNat % 64 * 64 + c3.toNat % 64)).toNat =
            c.toNat % 8 * 262144 + c1.toNat % 64 * 4096 + c2.toNat % 64 * 64 + c3.toNat % 64 :=
          toNat_ofNat (by (repeat' split at h2) <;> omega)
        exact .four (by rw [e]; (repeat' split at h2) <;> omega) (by rw [e]; omega) (by rw [e]; (repeat' split at h2) <;> omega)
          (by rw [e]; omega) (by rw [e]; omega)
      · exact .inr ⟨by omega, rfl⟩
    · exact .inr ⟨by omega, rfl⟩
  · exact .inr ⟨by omega, rfl⟩

theorem Enc.ne_nil {x : Char} {e : Raw} (h : Enc x e) : ∃ a r, e = a :: r ∧ runeStart a ∧ ∀ b ∈ r, runeStart b = false := by
  have hx := char_lt x
  cases h with
  | one h => exact ⟨_, _, rfl, by simp [runeStart, within]; omega, by simp⟩
  | two h1 h2 ha hb => exact ⟨_, _, rfl, by simp [runeStart, within]; omega, by simp [runeStart, within]; omega⟩
  | three h1 h2 ha hb hc => exact ⟨_, _, rfl, by simp [runeStart, within]; omega, by simp [runeStart, within]; omega⟩
  | four h1 ha hb hc hd => exact ⟨_, _, rfl, by simp [runeStart, within]; omega, by simp [runeStart, within]; omega⟩

theorem lossy_enc {x : Char} {e : Raw} (h : Enc x e) (u : Raw) : lossy (e ++ u) = x :: lossy u := by
  obtain ⟨c, t, h1, h2, -⟩ := h.decode (u := u)
  rw [h1, lossy_cons, h2]

/-! ### Decodes -/

theorem char_byte (b : UInt8) : Char.ofNat b.toNat = Char.ofNat b.toNat ∧ (Char.ofNat b.toNat).toNat = b.toNat :=
  ⟨rfl, toNat_ofNat (by have := b.toNat_lt; omega)⟩

theorem raw_inj {a b : List UInt8} (h : raw a = raw b) : a = b := by
  refine List.map_injective_iff.2 ?_ h
  intro x y hxy
  have := congrArg Char.toNat hxy
  rw [(char_byte x).2, (char_byte y).2] at this
  exact UInt8.toNat_inj.1 this

theorem raw_append (a b : List UInt8) : raw (a ++ b) = raw a ++ raw b := List.map_append

theorem raw_split {b : List UInt8} {e u : Raw} (h : raw b = e ++ u) : ∃ b1 b2, b = b1 ++ b2 ∧ raw b1 = e ∧ raw b2 = u := by
  obtain ⟨b1, b2, h1, h2, h3⟩ := List.map_eq_append_iff.1 h
  exact ⟨b1, b2, h1, h2, h3⟩

theorem decodes_lossy {b : List UInt8} {t : Text} (h : Decodes b t) : lossy (raw b) = t := by
  induction h with
  | nil => exact lossy_nil
  | @char c rest t _ ih =>
    rw [raw_append, ← ih]
    exact lossy_enc (enc_enc c) _
  | @bad b rest t hb _ ih =>
    show lossy (Char.ofNat b.toNat :: raw rest) = _
    rw [lossy_cons]
    rcases decode_cases (Char.ofNat b.toNat) (raw rest) with ⟨e, he, hs⟩ | ⟨-, hd⟩
    · exfalso
      obtain ⟨b1, b2, h1, h2, h3⟩ := raw_split (b := b :: rest) hs
      have := he.unique
      have h4 : b1 = String.utf8EncodeChar (decodeRune (Char.ofNat b.toNat) (raw rest)).1 := raw_inj (h2.trans this)
      rw [h4] at h1
      exact hb _ _ h1
    · rw [hd, ih]
      rfl

theorem lossy_decodes_aux : ∀ (n : Nat) (b : List UInt8), b.length ≤ n → Decodes b (lossy (raw b)) := by
  intro n
  induction n with
  | zero =>
    intro b hb
    rw [List.length_eq_zero_iff.1 (Nat.le_zero.1 hb)]
    rw [show raw [] = [] from rfl, lossy_nil]
    exact .nil
  | succ n ih =>
    intro b hb
    rcases b with _ | ⟨b, rest⟩
    · rw [show raw [] = [] from rfl, lossy_nil]
      exact .nil
    simp only [List.length_cons] at hb
    rw [show raw (b :: rest) = Char.ofNat b.toNat :: raw rest from rfl, lossy_cons]
    rcases decode_cases (Char.ofNat b.toNat) (raw rest) with ⟨e, he, hs⟩ | ⟨hh, hd⟩
    · obtain ⟨b1, b2, h1, h2, h3⟩ := raw_split (b := b :: rest) hs
      have h4 : b1 = String.utf8EncodeChar (decodeRune (Char.ofNat b.toNat) (raw rest)).1 := raw_inj (h2.trans he.unique)
      have hl : b2.length ≤ n := by
        have h5 := congrArg List.length h3
        have := decodeRune_length (Char.ofNat b.toNat) (raw rest)
        simp only [raw, List.length_map] at h5 this
        omega
      have := ih b2 hl
      rw [h1, ← h3]
      rw [h4] at *
      exact .char this
    · rw [hd]
      refine .bad (fun c u hcu => ?_) (ih rest (by omega))
      have h1 : Char.ofNat b.toNat :: raw rest = enc c ++ raw u := by
        rw [show enc c = raw _ from rfl, ← raw_append, ← hcu]
        rfl
      obtain ⟨c', t', h2, h3, h4⟩ := (enc_enc c).decode (u := raw u)
      rw [h2] at h1
      obtain ⟨rfl, rfl⟩ := List.cons.inj h1
      rw [hd] at h3
      obtain ⟨h5, h6⟩ := Prod.mk.inj h3
      rw [h6] at h4
      have h7 : (enc c).length = 1 := by omega
      have := enc_enc c
      rw [← h5] at this h7
      revert h7
      decide

theorem decodes_iff (b : List UInt8) (t : Text) : Decodes b t ↔ lossy (raw b) = t :=
  ⟨decodes_lossy, fun h => h ▸ lossy_decodes_aux _ b (Nat.le_refl _)⟩

theorem decodes_utf8 (t : Text) : Decodes (utf8 t) t := by
  induction t with
  | nil => exact .nil
  | cons c t ih => exact .char ih

end Verif.Bytes
