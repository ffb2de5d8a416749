import Verif.Lemmas.Bytes2
/-!
# Bytes: trimming
-/
set_option linter.unusedSimpArgs false
namespace Verif.Bytes
open Json Ocppj

/-- The bytes begin with no character. -/
def Bad (c : Char) (t : Raw) : Prop := ∀ x e u, Enc x e → c :: t ≠ e ++ u

theorem Enc.length_pos {x : Char} {e : Raw} (h : Enc x e) : 1 ≤ e.length := by cases h <;> simp

theorem decode_or (c : Char) (t : Raw) :
    (∃ e, Enc (decodeRune c t).1 e ∧ c :: t = e ++ (decodeRune c t).2) ∨ (Bad c t ∧ 0x80 ≤ c.toNat ∧ decodeRune c t = (runeError, t)) := by
  rcases decode_cases c t with h | ⟨hc, hd⟩
  · exact .inl h
  · refine .inr ⟨fun x e u he h => ?_, hc, hd⟩
    obtain ⟨c', t', h2, h3, h4⟩ := he.decode (u := u)
    rw [h2] at h
    obtain ⟨rfl, rfl⟩ := List.cons.inj h
    rw [hd] at h3
    obtain ⟨h5, h6⟩ := Prod.mk.inj h3
    rw [h6] at h4
    have h7 : e.length = 1 := by omega
    rw [he.unique, ← h5] at h7
    revert h7
    decide

theorem bad_decode {c : Char} {t : Raw} (h : Bad c t) : 0x80 ≤ c.toNat ∧ decodeRune c t = (runeError, t) := by
  rcases decode_or c t with ⟨e, he, hs⟩ | ⟨-, h2⟩
  · exact (h _ _ _ he hs).elim
  · exact h2

/-- Bytes and what they stand for. -/
inductive Lossy : Raw → Text → Prop
  | nil : Lossy [] []
  | enc {x e u t} : Enc x e → Lossy u t → Lossy (e ++ u) (x :: t)
  | bad {c u t} : Bad c u → Lossy u t → Lossy (c :: u) (runeError :: t)

theorem lossy_rel_aux : ∀ (n : Nat) (b : Raw), b.length ≤ n → Lossy b (lossy b) := by
  intro n
  induction n with
  | zero =>
    intro b hb
    rw [List.length_eq_zero_iff.1 (Nat.le_zero.1 hb), lossy_nil]
    exact .nil
  | succ n ih =>
    intro b hb
    rcases b with _ | ⟨c, t⟩
    · rw [lossy_nil]; exact .nil
    have hl := decodeRune_length c t
    simp only [List.length_cons] at hb
    rw [lossy_cons]
    rcases decode_or c t with ⟨e, he, hs⟩ | ⟨hb, -, hd⟩
    · rw [hs]
      exact .enc he (ih _ (by omega))
    · rw [hd]
      exact .bad hb (ih _ (by omega))

theorem lossy_rel (b : Raw) : Lossy b (lossy b) := lossy_rel_aux _ b (Nat.le_refl _)

theorem Lossy.eq {b : Raw} {t : Text} (h : Lossy b t) : lossy b = t := by
  induction h with
  | nil => exact lossy_nil
  | enc he _ ih => rw [lossy_enc he, ih]
  | bad hb _ ih => rw [lossy_cons, (bad_decode hb).2, ih]

/-! ### Newlines -/

/-- Newlines are replaced by spaces. -/
def nl (c : Char) : Char := if c = '\n' then ' ' else c

theorem nl_high {c : Char} (h : 0x80 ≤ c.toNat) : nl c = c := by
  unfold nl
  rw [if_neg (high_ne h)]

theorem nl_inv {c : Char} (h : 0x80 ≤ (nl c).toNat) : nl c = c := by
  unfold nl at h ⊢
  split at h
  · exact absurd h (by decide)
  · rename_i hc; rw [if_neg hc]

theorem Enc.high {x : Char} {e : Raw} (h : Enc x e) (hx : 0x80 ≤ x.toNat) : ∀ c ∈ e, 0x80 ≤ c.toNat := by
  cases h <;> simp <;> omega

theorem Enc.low {x : Char} {e : Raw} (h : Enc x e) (hx : x.toNat < 0x80) : e = [x] := by
  cases h <;> first | rfl | omega

theorem Enc.tail {x c : Char} {e : Raw} (h : Enc x (c :: e)) : ∀ b ∈ e, runeStart b = false := by
  obtain ⟨a, r, h1, -, h2⟩ := h.ne_nil
  obtain ⟨rfl, rfl⟩ := List.cons.inj h1
  exact h2

theorem start_low {c : Char} (h : runeStart c = false) : 0x80 ≤ c.toNat := by
  simp [runeStart, within] at h
  omega

theorem map_nl_high {e : Raw} (h : ∀ c ∈ e, 0x80 ≤ c.toNat) : e.map nl = e := by
  induction e with
  | nil => rfl
  | cons c e ih => rw [List.map_cons, nl_high (h c (by simp)), ih (fun d hd => h d (by simp [hd]))]

theorem nl_append {t e u : Raw} (h : t.map nl = e ++ u) (he : ∀ c ∈ e, 0x80 ≤ c.toNat) : ∃ u', t = e ++ u' := by
  obtain ⟨t1, t2, rfl, h1, -⟩ := List.map_eq_append_iff.1 h
  refine ⟨t2, ?_⟩
  have : t1.map nl = t1 := by
    clear h
    revert e
    induction t1 with
    | nil => intros; rfl
    | cons c t ih =>
      intro e he h1
      rw [← h1] at he
      rw [List.map_cons, nl_inv (he _ (by simp)), ih (e := t.map nl) (fun d hd => he d (by simp at hd ⊢; exact .inr hd)) rfl]
  rw [← h1, this]

theorem bad_nl {c : Char} {t : Raw} (h : Bad c t) : Bad c (t.map nl) := by
  intro x e u he hs
  obtain ⟨a, r, rfl, -, hr⟩ := he.ne_nil
  obtain ⟨rfl, hs1⟩ := List.cons.inj hs
  obtain ⟨u', hu⟩ := nl_append hs1 (fun d hd => start_low (hr d hd))
  exact h _ _ u' he (by rw [hu]; rfl)

theorem lossy_nl (t : Raw) : lossy (t.map nl) = (lossy t).map nl := by
  have h := lossy_rel t
  generalize lossy t = s at h
  induction h with
  | nil => exact lossy_nil
  | @enc x e u t he _ ih =>
    rw [List.map_append, List.map_cons, ← ih]
    by_cases hx : x.toNat < 0x80
    · rw [he.low hx]
      have : (nl x).toNat < 0x80 := by unfold nl; split <;> first | decide | assumption
      exact lossy_ascii this _
    · rw [map_nl_high (he.high (by omega)), lossy_enc he, nl_high (by omega)]
  | @bad c u t hb _ ih =>
    rw [List.map_cons, List.map_cons, nl_high (bad_decode hb).1, lossy_cons, (bad_decode (bad_nl hb)).2, ih]
    rfl

/-! ### White space -/

theorem trimLeft_nil : trimLeft [] = [] := by
  rw [trimLeft.eq_def]

theorem trimLeft_cons (c : Char) (t : Raw) :
    trimLeft (c :: t) = if isSpace (decodeRune c t).1 then trimLeft (decodeRune c t).2 else c :: t := by
  rw [trimLeft.eq_def]

theorem trimRightRev_nil : trimRightRev [] = [] := by
  rw [trimRightRev.eq_def]

theorem trimRightRev_cons (c : Char) (t : Raw) :
    trimRightRev (c :: t) = if isSpace (lastRune c t).1 then trimRightRev (lastRune c t).2 else c :: t := by
  rw [trimRightRev.eq_def]

theorem lossy_trimLeft_aux : ∀ (n : Nat) (t : Raw), t.length ≤ n → lossy (trimLeft t) = (lossy t).dropWhile isSpace := by
  intro n
  induction n with
  | zero =>
    intro t ht
    rw [List.length_eq_zero_iff.1 (Nat.le_zero.1 ht), trimLeft_nil, lossy_nil]
    rfl
  | succ n ih =>
    intro t ht
    rcases t with _ | ⟨c, t⟩
    · rw [trimLeft_nil, lossy_nil]; rfl
    have := decodeRune_length c t
    simp only [List.length_cons] at ht
    rw [trimLeft_cons, lossy_cons, List.dropWhile_cons]
    split
    · exact ih _ (by omega)
    · rw [lossy_cons]

theorem lossy_trimLeft (t : Raw) : lossy (trimLeft t) = (lossy t).dropWhile isSpace := lossy_trimLeft_aux _ t (Nat.le_refl _)

theorem bad_append {c : Char} {t e : Raw} {x : Char} (h : Bad c t) (he : Enc x e) : Bad c (t ++ e) := by
  intro x' e' u' he' hs
  rw [← List.cons_append] at hs
  rcases List.append_eq_append_iff.1 hs with ⟨s, hs1, hs2⟩ | ⟨s, hs1, hs2⟩
  · rcases s with _ | ⟨d, s⟩
    · exact h _ _ [] he' (by rw [hs1]; simp)
    · rw [hs1] at he'
      have hd : runeStart d = false := Enc.tail (c := c) (e := t ++ d :: s) he' d (by simp)
      obtain ⟨a, r, hr, ha, -⟩ := he.ne_nil
      rw [hr] at hs2
      obtain ⟨rfl, -⟩ := List.cons.inj hs2
      rw [hd] at ha
      cases ha
  · exact h _ _ s he' hs1

theorem lossy_append_enc {a e : Raw} {x : Char} (he : Enc x e) : lossy (a ++ e) = lossy a ++ [x] := by
  have h := lossy_rel a
  generalize lossy a = s at h
  induction h with
  | nil => have := lossy_enc he []; rw [List.append_nil, lossy_nil] at this; exact this
  | enc he' _ ih => rw [List.append_assoc, lossy_enc he', ih]; rfl
  | bad hb _ ih => rw [List.cons_append, lossy_cons, (bad_decode (bad_append hb he)).2, ih]; rfl

theorem lossy_last {b : Raw} {s : Text} {y : Char} (h : lossy b = s ++ [y]) (hy : y ≠ runeError) : ∃ a e, b = a ++ e ∧ Enc y e := by
  have h' := lossy_rel b
  rw [h] at h'
  clear h
  generalize hq : s ++ [y] = q at h'
  induction h' generalizing s with
  | nil => simp at hq
  | @enc x e u t he hu ih =>
    rcases s with _ | ⟨z, s⟩
    · obtain ⟨rfl, rfl⟩ := List.cons.inj hq
      cases hu
      exact ⟨[], e, by simp, he⟩
    · obtain ⟨rfl, hq1⟩ := List.cons.inj hq
      obtain ⟨a, e', rfl, he'⟩ := ih hq1
      exact ⟨e ++ a, e', by simp, he'⟩
  | @bad c u t hb _ ih =>
    rcases s with _ | ⟨z, s⟩
    · exact (hy (List.cons.inj hq).1).elim
    · obtain ⟨rfl, hq1⟩ := List.cons.inj hq
      obtain ⟨a, e', rfl, he'⟩ := ih hq1
      exact ⟨c :: a, e', by simp, he'⟩

theorem whole_enc {x : Char} {e : Raw} (h : Enc x e) : whole e = some x := by
  obtain ⟨c, t, h1, h2, -⟩ := h.decode (u := [])
  rw [List.append_nil] at h1
  rw [h1]
  show (if (decodeRune c t).2 = [] then some (decodeRune c t).1 else none) = _
  rw [h2]
  simp

theorem whole_some {x : Char} {e : Raw} (h : whole e = some x) (hx : x ≠ runeError) : Enc x e := by
  unfold whole at h
  split at h
  · cases h
  · rename_i c t
    split at h
    · rename_i h0
      obtain rfl := Option.some.inj h
      rcases decode_cases c t with ⟨e, he, hs⟩ | ⟨-, hd⟩
      · rw [h0, List.append_nil] at hs
        rw [hs]
        exact he
      · rw [hd] at hx
        exact (hx rfl).elim
    · cases h

theorem lastRune_enc {c y : Char} {r e a : Raw} (h : c :: r = e.reverse ++ a) (he : Enc y e) : lastRune c r = (y, a) := by
  have hw := whole_enc he
  obtain ⟨p, q, hpq, hp, hq⟩ := he.ne_nil
  cases he with
  | one h1 =>
    obtain ⟨rfl, rfl⟩ := List.cons.inj h
    unfold lastRune
    rw [if_pos (by omega)]
  | two h1 h2 ha hb =>
    obtain ⟨rfl, rfl⟩ := List.cons.inj hpq
    obtain ⟨rfl, rfl⟩ := List.cons.inj h
    unfold lastRune
    rw [if_neg (by omega)]
    simp [hp, hw]
  | three h1 h2 ha hb hc =>
    obtain ⟨rfl, rfl⟩ := List.cons.inj hpq
    obtain ⟨rfl, rfl⟩ := List.cons.inj h
    have hb' := hq _ (List.mem_cons_self ..)
    unfold lastRune
    rw [if_neg (by omega)]
    simp [hp, hw, hb']
  | four h1 ha hb hc hd =>
    obtain ⟨rfl, rfl⟩ := List.cons.inj hpq
    obtain ⟨rfl, rfl⟩ := List.cons.inj h
    have hb' := hq _ (List.mem_cons_self ..)
    have hc' := hq _ (List.mem_cons_of_mem _ (List.mem_cons_self ..))
    unfold lastRune
    rw [if_neg (by omega)]
    simp [hp, hw, hb', hc']

theorem lastRune_some {c : Char} {r : Raw} (hx : (lastRune c r).1 ≠ runeError) :
    ∃ e, Enc (lastRune c r).1 e ∧ c :: r = e.reverse ++ (lastRune c r).2 := by
  unfold lastRune at hx ⊢
  split at hx
  · rename_i h
    rw [if_pos h]
    exact ⟨[c], .one (by dsimp only; omega), rfl⟩
  · rename_i h
    rw [if_neg h]
    rcases r with _ | ⟨d, r2⟩
    · dsimp only at hx ⊢
      cases hw : whole [c] with
      | none => rw [hw] at hx; exact (hx rfl).elim
      | some x => rw [hw] at hx; exact ⟨[c], whole_some hw hx, rfl⟩
    dsimp only at hx ⊢
    split at hx
    · rename_i h1
      rw [if_pos h1]
      cases hw : whole [d, c] with
      | none => rw [hw] at hx; exact (hx rfl).elim
      | some x => rw [hw] at hx; exact ⟨[d, c], whole_some hw hx, rfl⟩
    · rename_i h1
      rw [if_neg h1]
      rcases r2 with _ | ⟨e, r3⟩
      · exact (hx rfl).elim
      dsimp only at hx ⊢
      split at hx
      · rename_i h1
        rw [if_pos h1]
        cases hw : whole [e, d, c] with
        | none => rw [hw] at hx; exact (hx rfl).elim
        | some x => rw [hw] at hx; exact ⟨[e, d, c], whole_some hw hx, rfl⟩
      · rename_i h1
        rw [if_neg h1]
        rcases r3 with _ | ⟨f, r4⟩
        · exact (hx rfl).elim
        dsimp only at hx ⊢
        split at hx
        · rename_i h1
          rw [if_pos h1]
          cases hw : whole [f, e, d, c] with
          | none => rw [hw] at hx; exact (hx rfl).elim
          | some x => rw [hw] at hx; exact ⟨[f, e, d, c], whole_some hw hx, rfl⟩
        · exact (hx rfl).elim

theorem isSpace_ne {x : Char} (h : isSpace x = true) : x ≠ runeError := by
  rintro rfl
  revert h
  decide

theorem lossy_trimRight_aux : ∀ (n : Nat) (r : Raw), r.length ≤ n →
    lossy (trimRightRev r).reverse = ((lossy r.reverse).reverse.dropWhile isSpace).reverse := by
  intro n
  induction n with
  | zero =>
    intro t ht
    rw [List.length_eq_zero_iff.1 (Nat.le_zero.1 ht), trimRightRev_nil, List.reverse_nil, lossy_nil]
    rfl
  | succ n ih =>
    intro r hr
    rcases r with _ | ⟨c, r⟩
    · rw [trimRightRev_nil, List.reverse_nil, lossy_nil]; rfl
    have := lastRune_length c r
    simp only [List.length_cons] at hr
    rw [trimRightRev_cons]
    split
    · rename_i hs
      obtain ⟨e, he, h1⟩ := lastRune_some (isSpace_ne hs)
      have h2 : (c :: r).reverse = (lastRune c r).2.reverse ++ e := by rw [h1]; simp
      rw [ih _ (by omega), h2, lossy_append_enc he, List.reverse_append, List.reverse_singleton, List.singleton_append,
        List.dropWhile_cons, if_pos hs]
    · rename_i hs
      rcases List.eq_nil_or_concat (lossy (c :: r).reverse) with h0 | ⟨s, y, h0⟩
      · have := lossy_eq_nil h0
        simp at this
      · rw [List.concat_eq_append] at h0
        rw [h0, List.reverse_append, List.reverse_singleton, List.singleton_append, List.dropWhile_cons, if_neg]
        · simp
        · intro hy
          obtain ⟨a, e, h1, he⟩ := lossy_last h0 (isSpace_ne hy)
          have h2 : c :: r = e.reverse ++ a.reverse := by
            have := congrArg List.reverse h1
            rw [List.reverse_reverse, List.reverse_append] at this
            exact this
          rw [lastRune_enc h2 he] at hs
          exact hs hy

theorem lossy_normalise (t : Raw) : lossy (normalise t) = Ocppj.normalise (lossy t) := by
  unfold normalise Ocppj.normalise trimSpace
  rw [lossy_trimRight_aux _ _ (Nat.le_refl _), List.reverse_reverse, lossy_trimLeft]
  exact congrArg _ (congrArg _ (congrArg _ (congrArg _ (lossy_nl t))))

theorem receive_decodes {b : List UInt8} {t : Text} (h : Decodes b t) : receive b = Ocppj.unmarshalMessage (Ocppj.normalise t) := by
  have h1 := decodes_lossy h
  unfold receive unmarshalMessage Ocppj.unmarshalMessage
  rw [parse_lossy, lossy_normalise, h1]
  rcases Json.parse (Ocppj.normalise t) with _ | v
  · rfl
  cases v
  case arr vs => dsimp only; rcases toAnys vs with _ | f <;> rfl
  all_goals rfl

end Verif.Bytes
