import Verif.Lemmas.Json
/-! Lemmas: printing numbers and strings, compacting. -/
set_option linter.unusedSimpArgs false
namespace Verif.Json

/-! ### Numbers -/

theorem digitsVal_append (acc : Nat) (a b : List (Fin 10)) :
    digitsVal acc (a ++ b) = digitsVal (digitsVal acc a) b := by
  induction a generalizing acc with
  | nil => rfl
  | cons d a ih => simp [digitsVal, ih]

theorem digitsVal_natDigits (n : Nat) : digitsVal 0 (natDigits n) = n := by
  induction n using Nat.strongRecOn with
  | ind n ih =>
    unfold natDigits
    split
    · simp [digitsVal]
    · rename_i h
      rw [digitsVal_append, ih (n / 10) (by omega)]
      simp only [digitsVal]
      omega

theorem natDigits_wf (n : Nat) : natDigits n = [0] ∨ ∃ d ds, natDigits n = d :: ds ∧ d ≠ 0 := by
  induction n using Nat.strongRecOn with
  | ind n ih =>
    unfold natDigits
    split
    · rename_i h
      by_cases h0 : n = 0
      · subst h0; exact Or.inl rfl
      · exact Or.inr ⟨⟨n, h⟩, [], rfl, by intro hh; exact h0 (by simpa using congrArg Fin.val hh)⟩
    · rename_i h
      rcases ih (n / 10) (by omega) with h' | ⟨d, ds, h', hd⟩
      · have := digitsVal_natDigits (n / 10)
        rw [h'] at this
        simp [digitsVal] at this
        omega
      · exact Or.inr ⟨d, _, by rw [h']; rfl, hd⟩

theorem natDigits_ne_nil (n : Nat) : natDigits n ≠ [] := by
  rcases natDigits_wf n with h | ⟨d, ds, h, -⟩ <;> simp [h]

theorem rawOfLit_wf (l : NumLit) : (rawOfLit l).Wf where
  int := natDigits_wf l.ip
  frac := by
    intro ds h
    simp only [rawOfLit] at h
    split at h
    · simp at h
    · rename_i hne; obtain rfl := Option.some.inj h; exact hne
  exp := by
    intro u s ds h
    simp only [rawOfLit] at h
    cases he : l.exp with
    | none => simp [he] at h
    | some e => simp [he] at h; rw [← h.2.2]; exact natDigits_ne_nil _

theorem rawOfLit_lit (l : NumLit) : (rawOfLit l).lit = l := by
  rcases l with ⟨n, i, f, e⟩
  simp only [rawOfLit, RawNum.lit, digitsVal_natDigits, NumLit.mk.injEq, true_and]
  refine ⟨?_, ?_⟩
  · split <;> simp_all
  · cases e with
    | none => rfl
    | some e =>
      simp only [Option.map_some, Option.some.injEq, decide_eq_true_eq, digitsVal_natDigits]
      split <;> omega

/-- The number printer writes the literal. -/
theorem value_rawOfLit (l : NumLit) : Value (.num l) (rawOfLit l).text := by
  have := Value.num (rawOfLit_wf l)
  rwa [rawOfLit_lit] at this

/-! ### Strings -/

theorem hexVal_hexDigit : ∀ n, n < 16 → hexVal (hexDigit n) = some n := by decide

theorem hex4_uEsc {n : Nat} (h : n < 65536) :
    hex4 (hexDigit (n / 4096 % 16)) (hexDigit (n / 256 % 16)) (hexDigit (n / 16 % 16)) (hexDigit (n % 16)) = some n := by
  unfold hex4
  rw [hexVal_hexDigit _ (Nat.mod_lt _ (by decide)), hexVal_hexDigit _ (Nat.mod_lt _ (by decide)),
    hexVal_hexDigit _ (Nat.mod_lt _ (by decide)), hexVal_hexDigit _ (Nat.mod_lt _ (by decide))]
  simp only [Option.some.injEq]
  omega

theorem unitItem_char (c : Char) : unitItem c.toNat = .char c := by
  have hv := c.valid
  have : isSurr c.toNat = false := by
    simp only [isSurr, Bool.and_eq_false_iff, decide_eq_false_iff_not, not_le, not_lt]
    change UInt32.isValidChar c.val at hv
    simp only [UInt32.isValidChar, Nat.isValidChar] at hv
    change c.val.toNat < _ ∨ _ ≤ c.val.toNat
    omega
  simp [unitItem, this, Char.ofNat_toNat]

theorem strText_uEsc {c : Char} (h : c.toNat < 65536) {is : List StrItem} {t : Text} (ht : StrText is t) :
    StrText (.char c :: is) (uEsc c.toNat ++ t) := by
  have := StrText.uni (hex4_uEsc h) ht
  rw [unitItem_char] at this
  exact this

theorem strText_escChar (c : Char) {is : List StrItem} {t : Text} (ht : StrText is t) :
    StrText (.char c :: is) (escChar c ++ t) := by
  unfold escChar
  split
  · rename_i h
    rcases h with rfl | rfl <;> exact .esc (by decide) ht
  split
  · rename_i h; subst h; exact .esc (by decide) ht
  split
  · rename_i h; subst h; exact .esc (by decide) ht
  split
  · rename_i h; subst h; exact .esc (by decide) ht
  split
  · rename_i h
    refine strText_uEsc ?_ ht
    rcases h with h | rfl | rfl | rfl | h | h
    · omega
    · decide
    · decide
    · decide
    · omega
    · omega
  · rename_i h1 h2 h3 h4 h
    simp only [not_or, not_lt] at h h1
    exact .plain h1.1 h1.2 h.1 ht

theorem joinItems_chars (s : Text) : joinItems (s.map .char) = s := by
  induction s with
  | nil => rfl
  | cons c s ih => simp [joinItems, ih]

theorem strText_flatMap (s : Text) : StrText (s.map .char) (s.flatMap escChar) := by
  induction s with
  | nil => exact .nil
  | cons c s ih => simpa using strText_escChar c ih

/-- The string printer writes the string. -/
theorem str_quote (s : Text) : Str s (quote s) :=
  ⟨s.map .char, s.flatMap escChar, strText_flatMap s, (joinItems_chars s).symm, rfl⟩

theorem value_quote (s : Text) : Value (.str s) (quote s) := .str (str_quote s)

/-! ### Compacting -/

/-- Characters that `compact` leaves alone outside strings. -/
def plainChar (c : Char) : Bool :=
  c != '"' && !wsChar c && c != '<' && c != '>' && c != '&' && c.toNat != 0x2028 && c.toNat != 0x2029

theorem compactGo_plain {t : Text} (h : ∀ c ∈ t, plainChar c = true) (r : Text) :
    compactGo false false (t ++ r) = t ++ compactGo false false r := by
  induction t with
  | nil => rfl
  | cons c t ih =>
    have hc := h c (by simp)
    simp only [plainChar, Bool.and_eq_true, bne_iff_ne, ne_eq, Bool.not_eq_true'] at hc
    rw [List.cons_append, compactGo.eq_def]
    simp [hc, ih (fun c hc => h c (by simp [hc]))]

theorem compactGo_ws {w : Text} (h : IsWs w) (r : Text) :
    compactGo false false (w ++ r) = compactGo false false r := by
  induction w with
  | nil => rfl
  | cons c w ih =>
    have hc := h c (by simp)
    have hq : c ≠ '"' := by rintro rfl; exact absurd hc (by decide)
    rw [List.cons_append, compactGo.eq_def]
    simp [hc, hq, ih (fun c hc => h c (by simp [hc]))]

theorem simpleEsc_facts {e c : Char} (h : simpleEsc e = some c) :
    ¬ (e = '<' ∨ e = '>' ∨ e = '&' ∨ e.toNat = 0x2028 ∨ e.toNat = 0x2029) := by
  unfold simpleEsc at h
  split at h <;> first | decide | simp at h

theorem hexVal_facts {c : Char} {n : Nat} (h : hexVal c = some n) :
    ¬ (c = '<' ∨ c = '>' ∨ c = '&' ∨ c.toNat = 0x2028 ∨ c.toNat = 0x2029) ∧ c ≠ '"' ∧ c ≠ '\\' ∧
    c ≠ '\n' := by
  have key : c.toNat < 103 ∧ (48 ≤ c.toNat ∧ c.toNat ≤ 57 ∨ 65 ≤ c.toNat ∧ c.toNat ≤ 70 ∨ 97 ≤ c.toNat) := by
    unfold hexVal at h
    have e : ∀ a b : Char, a ≤ b ↔ a.toNat ≤ b.toNat := fun _ _ => Iff.rfl
    simp only [e] at h
    have e0 : '0'.toNat = 48 := rfl
    have e1 : '9'.toNat = 57 := rfl
    have e2 : 'a'.toNat = 97 := rfl
    have e3 : 'f'.toNat = 102 := rfl
    have e4 : 'A'.toNat = 65 := rfl
    have e5 : 'F'.toNat = 70 := rfl
    rw [e0, e1, e2, e3, e4, e5] at h
    split at h
    · omega
    split at h
    · omega
    split at h
    · omega
    · simp at h
  refine ⟨?_, ?_, ?_, ?_⟩
  · rintro (rfl | rfl | rfl | h | h)
    · exact absurd key (by decide)
    · exact absurd key (by decide)
    · exact absurd key (by decide)
    · omega
    · omega
  all_goals rintro rfl; exact absurd key (by decide)

theorem hex4_facts {a b c d : Char} {n : Nat} (h : hex4 a b c d = some n) :
    (∃ x, hexVal a = some x) ∧ (∃ x, hexVal b = some x) ∧ (∃ x, hexVal c = some x) ∧ (∃ x, hexVal d = some x) := by
  unfold hex4 at h
  split at h
  · rename_i h1 h2 h3 h4; exact ⟨⟨_, h1⟩, ⟨_, h2⟩, ⟨_, h3⟩, ⟨_, h4⟩⟩
  · simp at h

theorem compactGo_strChar {c : Char} (h : ¬ (c = '<' ∨ c = '>' ∨ c = '&' ∨ c.toNat = 0x2028 ∨ c.toNat = 0x2029))
    (h1 : c ≠ '"') (h2 : c ≠ '\\') (t : Text) :
    compactGo true false (c :: t) = c :: compactGo true false t := by
  rw [compactGo.eq_def]; simp [h, h1, h2]

theorem compactGo_str {is : List StrItem} {u : Text} (h : StrText is u) :
    ∃ u', StrText is u' ∧ ∀ r, compactGo true false (u ++ '"' :: r) = u' ++ '"' :: compactGo false false r := by
  induction h with
  | nil => exact ⟨[], .nil, fun r => by rw [List.nil_append, compactGo.eq_def]; simp⟩
  | @plain c is t h1 h2 h3 _ ih =>
    obtain ⟨u', hu, hr⟩ := ih
    by_cases hc : c = '<' ∨ c = '>' ∨ c = '&' ∨ c.toNat = 0x2028 ∨ c.toNat = 0x2029
    · refine ⟨_, strText_uEsc (c := c) ?_ hu, fun r => ?_⟩
      · rcases hc with rfl | rfl | rfl | h | h
        · decide
        · decide
        · decide
        · omega
        · omega
      · rw [List.cons_append, compactGo.eq_def]; simp [hc, h1, h2, hr]
    · refine ⟨_, .plain h1 h2 h3 hu, fun r => ?_⟩
      rw [List.cons_append, compactGo_strChar hc h1 h2, hr, List.cons_append]
  | @esc e c is t h1 _ ih =>
    obtain ⟨u', hu, hr⟩ := ih
    refine ⟨_, .esc h1 hu, fun r => ?_⟩
    have f := simpleEsc_facts h1
    have hb : ¬ ('\\' = '<' ∨ '\\' = '>' ∨ '\\' = '&' ∨ '\\'.toNat = 0x2028 ∨ '\\'.toNat = 0x2029) := by decide
    rw [List.cons_append, List.cons_append, compactGo.eq_def]
    simp only [hb, if_false, if_true, Bool.false_eq_true, List.cons_append, List.nil_append, List.cons.injEq, true_and]
    rw [compactGo.eq_def]
    simp [f, hr]
  | @uni a b c d n is t h1 _ ih =>
    obtain ⟨u', hu, hr⟩ := ih
    refine ⟨_, .uni h1 hu, fun r => ?_⟩
    obtain ⟨⟨_, fa⟩, ⟨_, fb⟩, ⟨_, fc⟩, ⟨_, fd⟩⟩ := hex4_facts h1
    have fa := hexVal_facts fa
    have fb := hexVal_facts fb
    have fc := hexVal_facts fc
    have fd := hexVal_facts fd
    have hb : ¬ ('\\' = '<' ∨ '\\' = '>' ∨ '\\' = '&' ∨ '\\'.toNat = 0x2028 ∨ '\\'.toNat = 0x2029) := by decide
    have hU : ¬ ('u' = '<' ∨ 'u' = '>' ∨ 'u' = '&' ∨ 'u'.toNat = 0x2028 ∨ 'u'.toNat = 0x2029) := by decide
    simp only [List.cons_append]
    rw [compactGo.eq_def]
    simp only [hb, if_false, if_true, Bool.false_eq_true, List.cons_append, List.nil_append, List.cons.injEq, true_and]
    rw [compactGo.eq_def]
    simp only [hU, if_false, if_true, List.cons_append, List.nil_append, List.cons.injEq, true_and]
    rw [compactGo_strChar fa.1 fa.2.1 fa.2.2.1, compactGo_strChar fb.1 fb.2.1 fb.2.2.1,
      compactGo_strChar fc.1 fc.2.1 fc.2.2.1, compactGo_strChar fd.1 fd.2.1 fd.2.2.1, hr]

theorem compactGo_Str {k t : Text} (h : Str k t) :
    ∃ t', Str k t' ∧ ∀ r, compactGo false false (t ++ r) = t' ++ compactGo false false r := by
  obtain ⟨is, u, hu, rfl, rfl⟩ := h
  obtain ⟨u', hu', hr⟩ := compactGo_str hu
  refine ⟨_, ⟨is, u', hu', rfl, rfl⟩, fun r => ?_⟩
  rw [List.cons_append, compactGo.eq_def]
  simp [hr]

theorem digitChar_plain (d : Fin 10) : plainChar (digitChar d) = true := by revert d; decide

theorem rawNum_plain (r : RawNum) : ∀ c ∈ r.text, plainChar c = true := by
  have hd : ∀ (ds : List (Fin 10)) c, c ∈ ds.map digitChar → plainChar c = true := by
    intro ds c hc
    obtain ⟨d, -, rfl⟩ := List.mem_map.1 hc
    exact digitChar_plain d
  intro c hc
  rw [RawNum.text_eq] at hc
  simp only [List.mem_append] at hc
  rcases hc with ((hc | hc) | hc) | hc
  · split at hc
    · simp at hc; subst hc; decide
    · simp at hc
  · exact hd _ _ hc
  · cases hf : r.frac with
    | none => simp [hf, fracText] at hc
    | some ds =>
      rw [hf] at hc
      simp only [fracText, List.mem_cons] at hc
      rcases hc with rfl | hc
      · decide
      · exact hd _ _ hc
  · rcases he : r.exp with _ | ⟨u, s, ds⟩
    · simp [he, expText] at hc
    · rw [he] at hc
      simp only [expText, List.mem_cons, List.mem_append] at hc
      rcases hc with rfl | hc | hc
      · cases u <;> decide
      · rcases s with _ | _ | _ <;> simp at hc <;> subst hc <;> decide
      · exact hd _ _ hc

mutual
theorem compactGo_value {v : JVal} {t : Text} (h : Value v t) :
    ∃ t', Value v t' ∧ ∀ r, compactGo false false (t ++ r) = t' ++ compactGo false false r := by
  match h with
  | .null => exact ⟨_, .null, compactGo_plain (by decide)⟩
  | .true_ => exact ⟨_, .true_, compactGo_plain (by decide)⟩
  | .false_ => exact ⟨_, .false_, compactGo_plain (by decide)⟩
  | .num (r := r) h => exact ⟨_, .num h, compactGo_plain (rawNum_plain r)⟩
  | .str h =>
    obtain ⟨t', ht, hr⟩ := compactGo_Str h
    exact ⟨t', .str ht, hr⟩
  | .arrNil (w := w) hw =>
    refine ⟨_, .arrNil isWs_nil, fun r => ?_⟩
    have h1 := compactGo_plain (t := ['[']) (by decide) (w ++ ']' :: r)
    have h2 := compactGo_plain (t := [']']) (by decide) r
    simp only [List.cons_append, List.nil_append, List.append_assoc] at h1 h2 ⊢
    rw [h1, compactGo_ws hw, h2]
  | .arr (t := u) he =>
    obtain ⟨u', hu, hr⟩ := compactGo_elems he
    refine ⟨_, .arr hu, fun r => ?_⟩
    have h1 := compactGo_plain (t := ['[']) (by decide) (u ++ ']' :: r)
    have h2 := compactGo_plain (t := [']']) (by decide) r
    simp only [List.cons_append, List.nil_append, List.append_assoc] at h1 h2 ⊢
    rw [h1, hr, h2]
  | .objNil (w := w) hw =>
    refine ⟨_, .objNil isWs_nil, fun r => ?_⟩
    have h1 := compactGo_plain (t := ['{']) (by decide) (w ++ '}' :: r)
    have h2 := compactGo_plain (t := ['}']) (by decide) r
    simp only [List.cons_append, List.nil_append, List.append_assoc] at h1 h2 ⊢
    rw [h1, compactGo_ws hw, h2]
  | .obj (t := u) he =>
    obtain ⟨u', hu, hr⟩ := compactGo_members he
    refine ⟨_, .obj hu, fun r => ?_⟩
    have h1 := compactGo_plain (t := ['{']) (by decide) (u ++ '}' :: r)
    have h2 := compactGo_plain (t := ['}']) (by decide) r
    simp only [List.cons_append, List.nil_append, List.append_assoc] at h1 h2 ⊢
    rw [h1, hr, h2]
theorem compactGo_elems {vs : List JVal} {t : Text} (h : Elems vs t) :
    ∃ t', Elems vs t' ∧ ∀ r, compactGo false false (t ++ r) = t' ++ compactGo false false r := by
  match h with
  | .one hw hv hw' =>
    obtain ⟨u', hu, hr⟩ := compactGo_value hv
    refine ⟨_, .one isWs_nil hu isWs_nil, fun r => ?_⟩
    simp only [List.append_assoc, compactGo_ws hw, hr, compactGo_ws hw', List.nil_append]
  | .cons (u := u) hw hv hw' he =>
    obtain ⟨v', hv, hr⟩ := compactGo_value hv
    obtain ⟨u', hu, hr'⟩ := compactGo_elems he
    refine ⟨_, .cons isWs_nil hv isWs_nil hu, fun r => ?_⟩
    have h1 := compactGo_plain (t := [',']) (by decide) (u ++ r)
    simp only [List.cons_append, List.nil_append] at h1
    simp only [List.append_assoc, compactGo_ws hw, hr, compactGo_ws hw', List.nil_append, List.cons_append, h1, hr']
theorem compactGo_members {ms : List (Text × JVal)} {t : Text} (h : Members ms t) :
    ∃ t', Members ms t' ∧ ∀ r, compactGo false false (t ++ r) = t' ++ compactGo false false r := by
  match h with
  | .one (w₂ := w₂) (t := vt) (w' := w') hw hk hw₁ hw₂ hv hw' =>
    obtain ⟨k', hk', hkr⟩ := compactGo_Str hk
    obtain ⟨v', hv', hr⟩ := compactGo_value hv
    refine ⟨_, .one isWs_nil hk' isWs_nil isWs_nil hv' isWs_nil, fun r => ?_⟩
    have h1 := compactGo_plain (t := [':']) (by decide) (w₂ ++ (vt ++ (w' ++ r)))
    simp only [List.cons_append, List.nil_append] at h1
    simp only [List.append_assoc, compactGo_ws hw, hkr, compactGo_ws hw₁, List.cons_append, h1, compactGo_ws hw₂, hr,
      compactGo_ws hw', List.nil_append]
  | .cons (w₂ := w₂) (t := vt) (w' := w') (u := u) hw hk hw₁ hw₂ hv hw' he =>
    obtain ⟨k', hk', hkr⟩ := compactGo_Str hk
    obtain ⟨v', hv', hr⟩ := compactGo_value hv
    obtain ⟨u', hu, hr'⟩ := compactGo_members he
    refine ⟨_, .cons isWs_nil hk' isWs_nil isWs_nil hv' isWs_nil hu, fun r => ?_⟩
    have h1 := compactGo_plain (t := [':']) (by decide) (w₂ ++ (vt ++ (w' ++ ',' :: (u ++ r))))
    have h2 := compactGo_plain (t := [',']) (by decide) (u ++ r)
    simp only [List.cons_append, List.nil_append] at h1 h2
    simp only [List.append_assoc, compactGo_ws hw, hkr, compactGo_ws hw₁, List.cons_append, h1, compactGo_ws hw₂, hr,
      compactGo_ws hw', List.nil_append, h2, hr']
end

/-- `compact` succeeds exactly on JSON texts and preserves the value. -/
theorem compact_ok {v : JVal} {t : Text} (h : JsonText v t) : ∃ t', compact t = some t' ∧ Value v t' := by
  have hp := (parse_iff t v).2 h
  obtain ⟨w, u, w', hw, hv, hw', rfl⟩ := h
  obtain ⟨t', ht, hr⟩ := compactGo_value hv
  refine ⟨t', ?_, ht⟩
  have h0 := hr w'
  have h1 := compactGo_ws hw' []
  simp only [List.append_nil] at h1
  simp only [compact, hp, Option.some.injEq]
  rw [compactGo_ws hw, hr, h1]
  simp [compactGo]

theorem compact_sound {t t' : Text} (h : compact t = some t') : ∃ v, JsonText v t ∧ Value v t' := by
  have h0 := h
  unfold compact at h
  split at h
  · rename_i v hp
    have hv := (parse_iff t v).1 hp
    obtain ⟨t'', h1, h2⟩ := compact_ok hv
    rw [h1] at h0
    obtain rfl := Option.some.inj h0
    exact ⟨v, hv, h2⟩
  · simp at h

end Verif.Json
