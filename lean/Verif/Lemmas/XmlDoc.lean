import Verif.Lemmas.XmlText
import Verif.Spec.XmlDoc
import Mathlib.Tactic.IntervalCases
/-!
# Every document is read as its tree
-/
set_option linter.unusedSimpArgs false
namespace Verif.Xml

/-! ### Names -/

theorem letter_nameChar {c : Char} (h : Letter c) : nameStart c = true ∧ nameChar c = true ∧ c ≠ ':' := by
  rcases h with h | rfl
  · refine ⟨by simp [nameStart, h], by simp [nameChar, Char.isAlphanum, h], ?_⟩
    rintro rfl; revert h; decide
  · decide

theorem ncName_ok {n : Text} (h : NCName n) : (∃ c r, n = c :: r ∧ nameStart c = true) ∧ n.all nameChar = true ∧ n.count ':' = 0 := by
  obtain ⟨c, r, rfl, hc, hr⟩ := h
  obtain ⟨h1, h2, h3⟩ := letter_nameChar hc
  refine ⟨⟨c, r, rfl, h1⟩, ?_, ?_⟩
  · simp only [List.all_cons, h2, Bool.true_and, List.all_eq_true]
    intro d hd
    rcases hr d hd with h | h | rfl | rfl
    · exact (letter_nameChar h).2.1
    · simp [nameChar, Char.isAlphanum, h]
    · decide
    · decide
  · rw [List.count_eq_zero]
    intro hm
    rcases List.mem_cons.1 hm with h | h
    · exact h3 h.symm
    · rcases hr _ h with h | h | h | h
      · exact (letter_nameChar h).2.2 rfl
      · revert h; decide
      · revert h; decide
      · revert h; decide

theorem qName_ok {n : Text} (h : QName n) : nameOk n = true := by
  rcases h with h | ⟨p, l, hp, hl, rfl⟩
  · obtain ⟨⟨c, r, rfl, h1⟩, h2, h3⟩ := ncName_ok h
    simp only [nameOk, h1, h2, h3, Bool.and_self, Bool.true_and]
    decide
  · obtain ⟨⟨c, r, rfl, h1⟩, h2, h3⟩ := ncName_ok hp
    obtain ⟨-, h5, h6⟩ := ncName_ok hl
    have hc : nameChar ':' = true := by decide
    simp only [List.cons_append] at *
    simp only [nameOk, h1, Bool.true_and, Bool.and_eq_true, decide_eq_true_eq]
    constructor
    · rw [← List.cons_append, List.all_append, h2, List.all_cons, hc, h5]; rfl
    · rw [← List.cons_append, List.count_append, h3, List.count_cons, h6]; simp

/-! ### References -/

theorem hexVal_iff (c : Char) (v : Nat) : hexVal c = some v ↔ HexDigit c v := by
  constructor
  · intro h
    have hc : c = Char.ofNat c.toNat := by simp
    unfold hexVal at h
    have hr : (48 ≤ c.toNat ∧ c.toNat ≤ 57) ∨ (97 ≤ c.toNat ∧ c.toNat ≤ 102) ∨ (65 ≤ c.toNat ∧ c.toNat ≤ 70) := by
      split at h
      · rename_i hx; exact .inl ⟨hx.1, hx.2⟩
      · split at h
        · rename_i hx; exact .inr (.inl ⟨hx.1, hx.2⟩)
        · split at h
          · rename_i hx; exact .inr (.inr ⟨hx.1, hx.2⟩)
          · cases h
    generalize c.toNat = n at hc hr
    subst hc
    have hn : n ≤ 102 := by omega
    unfold HexDigit
    rcases hr with ⟨h1, h2⟩ | ⟨h1, h2⟩ | ⟨h1, h2⟩ <;> interval_cases n <;> (simp at h; subst h; decide)
  · rintro (h | h)
    all_goals
      have hlt := (List.getElem?_eq_some_iff.1 h).1
      have hv : v < 16 := hlt
      interval_cases v <;> (simp at h; subst h; decide)

theorem number_eq {base : Nat} {t : Text} {vs : List Nat} (h : List.Forall₂ (fun c v => v < base ∧ HexDigit c v) t vs) (acc : Nat) :
    number base acc t = some (vs.foldl (fun a v => a * base + v) acc) := by
  induction h generalizing acc with
  | nil => rfl
  | @cons c v t vs hcv _ ih =>
    rw [number, (hexVal_iff c v).2 hcv.2]
    simp only [hcv.1, if_true, List.foldl_cons]
    exact ih _

theorem hexDigit_ne {c : Char} {v : Nat} (h : HexDigit c v) : c ≠ ';' ∧ c ≠ 'x' := by
  have := (hexVal_iff c v).2 h
  constructor <;> (rintro rfl; revert this; simp [hexVal])

theorem numeral_plain {base : Nat} {t : Text} {n : Nat} (h : Numeral base t n) : ∀ c ∈ t, c ≠ ';' ∧ c ≠ 'x' := by
  obtain ⟨-, vs, h, -⟩ := h
  induction h with
  | nil => simp
  | cons hcv _ ih =>
    intro c hc
    rcases List.mem_cons.1 hc with rfl | hc
    · exact hexDigit_ne hcv.2
    · exact ih c hc

theorem runeOf_toNat (c : Char) : runeOf c.toNat = c := by
  unfold runeOf
  have h : c.toNat.isValidChar := c.valid
  rw [dif_pos h]
  apply Char.ext
  apply UInt32.toNat_inj.1
  rfl

theorem toNat_le (c : Char) : c.toNat ≤ 0x10FFFF := by
  have h : c.toNat.isValidChar := c.valid
  rcases h with h | h <;> omega

theorem ref_entity {e : Text} {c : Char} (h : Ref e c) : entity e = some c ∧ (∀ x ∈ e, x ≠ ';') ∧ IsXmlChar c := by
  cases h with
  | lt => exact ⟨by decide, by decide, by decide⟩
  | gt => exact ⟨by decide, by decide, by decide⟩
  | amp => exact ⟨by decide, by decide, by decide⟩
  | apos => exact ⟨by decide, by decide, by decide⟩
  | quot => exact ⟨by decide, by decide, by decide⟩
  | @dec t c hn hc =>
    have hp := numeral_plain hn
    obtain ⟨hne, vs, hf, hv⟩ := hn
    refine ⟨?_, ?_, hc⟩
    · obtain ⟨d, u, rfl⟩ : ∃ d u, t = d :: u := by
        cases t with
        | nil => exact absurd rfl hne
        | cons d u => exact ⟨d, u, rfl⟩
      have hx : d ≠ 'x' := (hp d (by simp)).2
      unfold entity
      rw [if_neg (by simp), if_neg (by simp), if_neg (by simp), if_neg (by simp), if_neg (by simp)]
      split
      · rename_i heq; simp at heq; exact absurd heq.1 hx
      · rename_i heq
        simp only [List.cons.injEq, true_and] at heq
        obtain ⟨rfl, rfl⟩ := heq
        rw [number_eq hf, ← hv]
        simp only [toNat_le, if_true, runeOf_toNat]
      · rename_i h1 h2; exact absurd rfl (h2 d u)
    · intro x hx
      rcases List.mem_cons.1 hx with rfl | hx
      · decide
      · exact (hp x hx).1
  | @hex t c hn hc =>
    have hp := numeral_plain hn
    obtain ⟨hne, vs, hf, hv⟩ := hn
    refine ⟨?_, ?_, hc⟩
    · obtain ⟨d, u, rfl⟩ : ∃ d u, t = d :: u := by
        cases t with
        | nil => exact absurd rfl hne
        | cons d u => exact ⟨d, u, rfl⟩
      unfold entity
      rw [if_neg (by simp), if_neg (by simp), if_neg (by simp), if_neg (by simp), if_neg (by simp)]
      simp only
      rw [number_eq hf, ← hv]
      simp only [toNat_le, if_true, runeOf_toNat]
    · intro x hx
      rcases List.mem_cons.1 hx with rfl | hx
      · decide
      · rcases List.mem_cons.1 hx with rfl | hx
        · decide
        · exact (hp x hx).1

theorem readText_ent (q : Option Char) (acc e0 e : Text) (he : ∀ x ∈ e, x ≠ ';') (t : Text) :
    readText q false acc (.ent e0) (e ++ ';' :: t) =
      match entity (e.reverse ++ e0).reverse with
      | some x => readText q false (x :: acc) (.plain none none) t
      | none => none := by
  induction e generalizing e0 with
  | nil => simp only [List.nil_append, readText, if_true, List.reverse_nil]; rfl
  | cons c e ih =>
    have hc : c ≠ ';' := he c (by simp)
    rw [List.cons_append, readText, if_neg hc, ih (c :: e0) (fun x hx => he x (by simp [hx]))]
    simp

theorem readText_ref {e : Text} {c : Char} (h : Ref e c) (q : Option Char) (hq : q ≠ some '&') (acc : Text) (b0 b1 : Option Char) (t : Text) :
    readText q false acc (.plain b0 b1) ('&' :: (e ++ ';' :: t)) = readText q false (c :: acc) (.plain none none) t := by
  obtain ⟨h1, h2, -⟩ := ref_entity h
  rw [readText]
  rw [if_neg (by simp), if_neg (by simp), if_neg hq, if_pos (by simp), readText_ent q acc [] e h2 t]
  simp [h1]

/-! ### Character data and attribute values -/

/-- The last two characters, as far as the reader remembers them. -/
def lastTwo (b0 b1 : Option Char) : Text := b0.toList ++ b1.toList

theorem charData_read {raw s : Text} (h : CharData raw s) : ∀ (acc : Text) (b0 b1 : Option Char) (t : Text),
    (b1 = none → b0 = none) → (b1 = some '\r' → raw.head? ≠ some '\n') → ¬ "]]>".toList <:+: lastTwo b0 b1 ++ raw →
    ∃ b0' b1', readText none false acc (.plain b0 b1) (raw ++ '<' :: t) =
      readText none false (s.reverse ++ acc) (.plain b0' b1') ('<' :: t) := by
  induction h with
  | nil => intro acc b0 b1 t _ _ _; exact ⟨b0, b1, rfl⟩
  | @char c t' u hx h1 h2 h3 _ ih =>
    intro acc b0 b1 t hb hr hi
    have hcd : ¬ (b0 = some ']' ∧ b1 = some ']' ∧ c = '>') := by
      rintro ⟨rfl, rfl, rfl⟩; exact hi ⟨[], t', by simp [lastTwo]⟩
    have hnl : ¬ (b1 = some '\r' ∧ c = '\n') := by
      rintro ⟨h, rfl⟩; exact hr h rfl
    obtain ⟨x0, x1, e⟩ := ih (c :: acc) b1 (some c) t (by simp) (by simp [h3]) (fun h => hi (by
      refine h.trans ?_
      exact ⟨b0.toList, [], by simp [lastTwo]⟩))
    refine ⟨x0, x1, ?_⟩
    rw [List.cons_append, readText, if_neg (fun h => hcd h.2), if_neg (by simp [h1]), if_neg (by simp), if_neg (by simp [h2]), if_neg h3,
      if_neg hnl, e]
    simp
  | @crlf t' u _ ih =>
    intro acc b0 b1 t hb hr hi
    obtain ⟨x0, x1, e⟩ := ih ('\n' :: acc) (some '\r') (some '\n') t (by simp) (by simp) (fun h => hi (by
      refine h.trans ?_
      exact ⟨lastTwo b0 b1, [], by simp [lastTwo]⟩))
    refine ⟨x0, x1, ?_⟩
    rw [List.cons_append, List.cons_append, readText, if_neg (by simp), if_neg (by simp), if_neg (by simp), if_neg (by simp), if_pos rfl,
      readText, if_neg (by simp), if_neg (by simp), if_neg (by simp), if_neg (by simp), if_neg (by simp), if_pos (by simp), e]
    simp
  | @cr t' u hnl _ ih =>
    intro acc b0 b1 t hb hr hi
    obtain ⟨x0, x1, e⟩ := ih ('\n' :: acc) b1 (some '\r') t (by simp) (fun _ => hnl) (fun h => hi (by
      refine h.trans ?_
      exact ⟨b0.toList, [], by simp [lastTwo]⟩))
    refine ⟨x0, x1, ?_⟩
    rw [List.cons_append, readText, if_neg (by simp), if_neg (by simp), if_neg (by simp), if_neg (by simp), if_pos rfl, e]
    simp
  | @ref e c t' u he _ ih =>
    intro acc b0 b1 t hb hr hi
    obtain ⟨x0, x1, e'⟩ := ih (c :: acc) none none t (by simp) (by simp) (fun h => hi (by
      refine h.trans ?_
      exact ⟨lastTwo b0 b1 ++ '&' :: (e ++ [';']), [], by simp [lastTwo]⟩))
    refine ⟨x0, x1, ?_⟩
    rw [List.cons_append, List.append_assoc, List.cons_append, readText_ref he none (by simp), e']
    simp

theorem charData_chars {raw s : Text} (h : CharData raw s) : s.all inRange = true := by
  induction h with
  | nil => rfl
  | char hx _ _ _ _ ih => simp only [List.all_cons, (inRange_iff _).2 hx, ih, Bool.and_self]
  | crlf _ ih => simp only [List.all_cons, ih, Bool.and_true]; decide
  | cr _ _ ih => simp only [List.all_cons, ih, Bool.and_true]; decide
  | ref hr _ ih => simp only [List.all_cons, (inRange_iff _).2 (ref_entity hr).2.2, ih, Bool.and_self]

theorem charData_text {raw s : Text} (h : CharData raw s) (hi : ¬ "]]>".toList <:+: raw) (t : Text) :
    textData none false (raw ++ '<' :: t) = some (s, '<' :: t) := by
  obtain ⟨b0, b1, e⟩ := charData_read h [] none none t (by simp) (by simp) (by simpa [lastTwo] using hi)
  unfold textData
  rw [e]
  simp [readText, charData_chars h]

theorem attValue_read {q : Char} (hq : q = '"' ∨ q = '\'') {raw s : Text} (h : AttValue q raw s) : ∀ (acc : Text) (b0 b1 : Option Char) (t : Text),
    b1 ≠ some '\r' → ∃ b0' b1', readText (some q) false acc (.plain b0 b1) (raw ++ q :: t) =
      readText (some q) false (s.reverse ++ acc) (.plain b0' b1') (q :: t) := by
  have hamp : (some q : Option Char) ≠ some '&' := by rcases hq with rfl | rfl <;> decide
  induction h with
  | nil => intro acc b0 b1 t _; exact ⟨b0, b1, rfl⟩
  | @char c t' u hx h1 h2 h3 h4 h5 h6 _ ih =>
    intro acc b0 b1 t hb
    obtain ⟨x0, x1, e⟩ := ih (c :: acc) b1 (some c) t (by simp [h6])
    refine ⟨x0, x1, ?_⟩
    rw [List.cons_append, readText, if_neg (by simp), if_neg (by simp [h1]), if_neg (by simp [Ne.symm h3]), if_neg (by simp [h2]), if_neg h6,
      if_neg (by simp [h5]), e]
    simp
  | @ref e c t' u he _ ih =>
    intro acc b0 b1 t hb
    obtain ⟨x0, x1, e'⟩ := ih (c :: acc) none none t (by simp)
    refine ⟨x0, x1, ?_⟩
    rw [List.cons_append, List.append_assoc, List.cons_append, readText_ref he _ hamp, e']
    simp

theorem attValue_chars {q : Char} {raw s : Text} (h : AttValue q raw s) : s.all inRange = true := by
  induction h with
  | nil => rfl
  | char hx _ _ _ _ _ _ _ ih => simp only [List.all_cons, (inRange_iff _).2 hx, ih, Bool.and_self]
  | ref hr _ ih => simp only [List.all_cons, (inRange_iff _).2 (ref_entity hr).2.2, ih, Bool.and_self]

theorem attValue_text {q : Char} (hq : q = '"' ∨ q = '\'') {raw s : Text} (h : AttValue q raw s) (t : Text) :
    textData (some q) false (raw ++ q :: t) = some (s, t) := by
  obtain ⟨b0, b1, e⟩ := attValue_read hq h [] none none t (by simp)
  have hlt : q ≠ '<' := by rcases hq with rfl | rfl <;> decide
  unfold textData
  rw [e, readText, if_neg (by simp), if_neg (by simp [hlt]), if_pos rfl]
  simp only [List.append_nil, List.reverse_reverse, attValue_chars h, if_true]

/-! ### Tags -/

theorem space_skip {sp : Text} (h : Space sp) (t : Text) : skipSpace (sp ++ t) = skipSpace t := by
  induction sp with
  | nil => rfl
  | cons c sp ih =>
    have hc := h c (by simp)
    have hb : (c == ' ' || c == '\r' || c == '\n' || c == '\t') = true := by rcases hc with rfl | rfl | rfl | rfl <;> decide
    rw [List.cons_append, skipSpace, List.dropWhile_cons, if_pos hb]
    exact ih (fun d hd => h d (by simp [hd]))

theorem space_notName {sp : Text} (h : Space sp) {c : Char} (hc : nameChar c = false) (t : Text) :
    ∃ d u, sp ++ c :: t = d :: u ∧ nameChar d = false := by
  cases sp with
  | nil => exact ⟨c, t, rfl, hc⟩
  | cons d sp =>
    refine ⟨d, _, rfl, ?_⟩
    rcases h d (by simp) with rfl | rfl | rfl | rfl <;> decide

theorem attrs_notName {at_ : Text} {as : List (Text × Text)} (h : Attrs at_ as) {sp : Text} (hs : Space sp) {c : Char} (hc : nameChar c = false)
    (t : Text) : ∃ d u, at_ ++ (sp ++ c :: t) = d :: u ∧ nameChar d = false := by
  cases h with
  | nil => exact space_notName hs hc t
  | @cons sp0 n sp1 sp2 q raw v t' as hne hsp =>
    cases sp0 with
    | nil => exact absurd rfl hne
    | cons d sp0 =>
      refine ⟨d, _, by rw [List.cons_append, List.cons_append], ?_⟩
      rcases hsp d (by simp) with rfl | rfl | rfl | rfl <;> decide

theorem readAttrs_doc {at_ : Text} {as : List (Text × Text)} (h : Attrs at_ as) {sp : Text} (hs : Space sp) (t : Text) :
    readAttrs (at_ ++ (sp ++ '>' :: t)) = some (as, false, t) ∧ readAttrs (at_ ++ (sp ++ '/' :: '>' :: t)) = some (as, true, t) := by
  induction h with
  | nil =>
    constructor
    · rw [List.nil_append, readAttrs, space_skip hs, skipSpace_cons (by decide)]; rfl
    · rw [List.nil_append, readAttrs, space_skip hs, skipSpace_cons (by decide)]; rfl
  | @cons sp0 n sp1 sp2 q raw v t' as hne hsp hn hs1 hs2 hq hv _ ih =>
    have key : ∀ w e r, readAttrs (t' ++ w) = some (as, e, r) →
        readAttrs ((sp0 ++ (n ++ (sp1 ++ '=' :: (sp2 ++ q :: (raw ++ q :: t'))))) ++ w) = some ((n, v) :: as, e, r) := by
      intro w e r hr
      have hnk := qName_ok hn
      obtain ⟨c, u, hc, hst⟩ := name_head hnk
      obtain ⟨n1, n2, n3, n4, n5, n6⟩ := nameStart_ne hst
      have e0 : (sp0 ++ (n ++ (sp1 ++ '=' :: (sp2 ++ q :: (raw ++ q :: t'))))) ++ w =
          sp0 ++ (n ++ (sp1 ++ '=' :: (sp2 ++ q :: (raw ++ q :: (t' ++ w))))) := by simp
      have e1 : skipSpace (sp0 ++ (n ++ (sp1 ++ '=' :: (sp2 ++ q :: (raw ++ q :: (t' ++ w)))))) =
          n ++ (sp1 ++ '=' :: (sp2 ++ q :: (raw ++ q :: (t' ++ w)))) := by
        rw [space_skip hsp, hc, List.cons_append]; exact skipSpace_cons n6 _
      obtain ⟨d, x, hd, hdn⟩ := space_notName hs1 (c := '=') (by decide) (sp2 ++ q :: (raw ++ q :: (t' ++ w)))
      have e2 : readNsName (n ++ (sp1 ++ '=' :: (sp2 ++ q :: (raw ++ q :: (t' ++ w))))) =
          some (n, sp1 ++ '=' :: (sp2 ++ q :: (raw ++ q :: (t' ++ w)))) := by
        rw [hd]; exact readNsName_ok hnk hdn x
      have hqs : (q == ' ' || q == '\r' || q == '\n' || q == '\t') = false := by rcases hq with rfl | rfl <;> decide
      rw [e0, readAttrs, e1]
      split
      · rename_i hh; rw [hc] at hh; simp at hh; exact absurd hh.1 n4
      · rename_i hh; rw [hc] at hh; simp at hh; exact absurd hh.1 n1
      · rename_i hh; rw [hc] at hh; simp at hh; exact absurd hh.1 n1
      · rw [e2]
        simp only
        rw [space_skip hs1, skipSpace_cons (by decide)]
        simp only
        rw [space_skip hs2, skipSpace_cons hqs]
        simp only [hq, if_true]
        rw [attValue_text hq hv]
        simp only
        rw [if_pos (by simp; omega), hr]
    exact ⟨key _ _ _ ih.1, key _ _ _ ih.2⟩

theorem rawToken_open {n : Text} (hn : QName n) {at_ : Text} {as : List (Text × Text)} (h : Attrs at_ as) {sp : Text} (hs : Space sp) (t : Text) :
    rawToken ('<' :: (n ++ (at_ ++ (sp ++ '>' :: t)))) = some (.start n as false, t) ∧
    rawToken ('<' :: (n ++ (at_ ++ (sp ++ '/' :: '>' :: t)))) = some (.start n as true, t) := by
  have hnk := qName_ok hn
  obtain ⟨c, u, hc, hst⟩ := name_head hnk
  obtain ⟨n1, n2, n3, n4, n5, n6⟩ := nameStart_ne hst
  have key : ∀ (x : Char × Text) (e : Bool), nameChar x.1 = false → readAttrs (at_ ++ (sp ++ x.1 :: x.2)) = some (as, e, t) →
      rawToken ('<' :: (n ++ (at_ ++ (sp ++ x.1 :: x.2)))) = some (.start n as e, t) := by
    rintro ⟨x, w⟩ e hx hr
    simp only at hx hr ⊢
    obtain ⟨d, v, hd, hv⟩ := attrs_notName h hs hx w
    have e2 : readNsName (n ++ (at_ ++ (sp ++ x :: w))) = some (n, at_ ++ (sp ++ x :: w)) := by
      rw [hd]; exact readNsName_ok hnk hv v
    unfold rawToken
    split
    · rename_i hh; cases hh
    · rename_i hh; rw [hc] at hh; simp at hh; exact absurd hh.1 n1
    · rename_i hh; rw [hc] at hh; simp at hh; exact absurd hh.1 n2
    · rename_i hh; rw [hc] at hh; simp at hh; exact absurd hh.1 n3
    · rename_i hh; rw [hc] at hh; simp at hh; exact absurd hh.1 n3
    · rename_i hh; rw [hc] at hh; simp at hh; exact absurd hh.1 n3
    · rename_i y _ _ _ _ _ hh
      have hw : y = n ++ (at_ ++ (sp ++ x :: w)) := by simpa using hh.symm
      rw [hw, e2]
      simp only [hr]
    · rename_i hno
      exact absurd rfl (hno _)
  exact ⟨key ('>', t) false (show nameChar '>' = false by decide) (readAttrs_doc h hs t).1, key ('/', '>' :: t) true (show nameChar '/' = false by decide) (readAttrs_doc h hs t).2⟩

theorem rawToken_end {n : Text} (hn : QName n) {sp : Text} (hs : Space sp) (t : Text) :
    rawToken ('<' :: '/' :: (n ++ (sp ++ '>' :: t))) = some (.close n, t) := by
  obtain ⟨d, u, hd, hv⟩ := space_notName hs (c := '>') (by decide) t
  unfold rawToken
  simp only
  have : readNsName (n ++ (sp ++ '>' :: t)) = some (n, sp ++ '>' :: t) := by rw [hd]; exact readNsName_ok (qName_ok hn) hv u
  rw [this]
  simp only
  rw [space_skip hs, skipSpace_cons (by decide)]
  rfl

theorem ref_head {raw s : Text} (h : CharData raw s) (hne : raw ≠ []) : ∃ c r, raw = c :: r ∧ c ≠ '<' := by
  cases h with
  | nil => exact absurd rfl hne
  | char _ h1 => exact ⟨_, _, rfl, h1⟩
  | crlf => exact ⟨_, _, rfl, by decide⟩
  | cr => exact ⟨_, _, rfl, by decide⟩
  | ref => exact ⟨_, _, rfl, by decide⟩

theorem rawToken_data {raw s : Text} (h : CharData raw s) (hne : raw ≠ []) (hi : ¬ "]]>".toList <:+: raw) (t : Text) :
    rawToken (raw ++ '<' :: t) = some (.data s, '<' :: t) := by
  obtain ⟨c, r, rfl, hc⟩ := ref_head h hne
  have ht := charData_text h hi t
  rw [List.cons_append] at ht ⊢
  generalize r ++ '<' :: t = w at *
  unfold rawToken
  split <;> rename_i hh
  · cases hh
  all_goals try (simp only [List.cons.injEq] at hh; exact absurd hh.1 hc)
  rw [ht]; rfl

/-! ### Comments, processing instructions, CDATA sections -/

theorem readComment_ok (c : Text) (h : ¬ "--".toList <:+: c ++ ['-']) (t : Text) : readComment (c ++ ("-->".toList ++ t)) = some t := by
  induction c with
  | nil => rfl
  | cons x c ih =>
    have h' : ¬ "--".toList <:+: c ++ ['-'] := fun hi => h (hi.trans ⟨[x], [], by simp⟩)
    have hx : ¬ ∃ r, x :: (c ++ ("-->".toList ++ t)) = '-' :: '-' :: r := by
      rintro ⟨r, hr⟩
      simp only [List.cons.injEq] at hr
      obtain ⟨rfl, hr⟩ := hr
      apply h
      cases c with
      | nil => exact ⟨[], [], rfl⟩
      | cons y c =>
        simp only [List.cons_append, List.cons.injEq] at hr
        obtain ⟨rfl, -⟩ := hr
        exact ⟨[], c ++ ['-'], by simp⟩
    rw [List.cons_append, readComment.eq_def]
    split
    · rename_i heq; exact absurd ⟨_, heq⟩ hx
    · rename_i heq; exact absurd ⟨_, heq⟩ hx
    · rename_i heq
      simp only [List.cons.injEq] at heq
      obtain ⟨rfl, rfl⟩ := heq
      exact ih h'
    · rename_i heq; cases heq

theorem rawToken_comment {c : Text} (h : Comment c) (t : Text) : rawToken (c ++ t) = some (.other, t) := by
  obtain ⟨x, rfl, -, hx⟩ := h
  have e : "<!--".toList ++ (x ++ "-->".toList) ++ t = '<' :: '!' :: '-' :: '-' :: (x ++ ("-->".toList ++ t)) := by simp
  rw [e]
  unfold rawToken
  simp only
  rw [readComment_ok x hx t]
  rfl

theorem readPI_ok (d : Text) (h : ¬ "?>".toList <:+: d) (t : Text) : readPI (d ++ '?' :: '>' :: t) = some (d, t) := by
  induction d with
  | nil => rfl
  | cons x d ih =>
    have h' : ¬ "?>".toList <:+: d := fun hi => h (hi.trans ⟨[x], [], by simp⟩)
    rw [List.cons_append, readPI.eq_def]
    split
    · rename_i heq
      exfalso
      simp only [List.cons.injEq] at heq
      obtain ⟨rfl, hr⟩ := heq
      cases d with
      | nil => simp at hr
      | cons y d =>
        simp only [List.cons_append, List.cons.injEq] at hr
        obtain ⟨rfl, -⟩ := hr
        exact h ⟨[], d, by simp⟩
    · rename_i heq
      simp only [List.cons.injEq] at heq
      obtain ⟨rfl, rfl⟩ := heq
      rw [ih h']; rfl
    · rename_i heq; cases heq

theorem skipSpace_mark (d t : Text) : ∃ d', skipSpace (d ++ '?' :: t) = d' ++ '?' :: t ∧ d' <:+ d := by
  induction d with
  | nil => exact ⟨[], by simp [skipSpace], List.suffix_rfl⟩
  | cons c d ih =>
    rw [List.cons_append, skipSpace, List.dropWhile_cons]
    split
    · obtain ⟨d', h1, h2⟩ := ih
      exact ⟨d', h1, h2.trans (List.suffix_cons _ _)⟩
    · exact ⟨c :: d, rfl, List.suffix_rfl⟩

theorem readName_ok {n : Text} (h : NCName n) {c : Char} (hc : nameChar c = false) (t : Text) : readName (n ++ c :: t) = some (n, c :: t) := by
  obtain ⟨⟨a, r, rfl, h1⟩, h2, -⟩ := ncName_ok h
  obtain ⟨e1, e2⟩ := takeWhile_app h2 hc t
  unfold readName
  rw [e1, e2]
  simp [h1]

theorem rawToken_pi {p : Text} (h : PI p) (t : Text) : rawToken (p ++ t) = some (.other, t) := by
  obtain ⟨n, d, rfl, hn, hx, hd, -, hi⟩ := h
  have e : "<?".toList ++ (n ++ (d ++ "?>".toList)) ++ t = '<' :: '?' :: (n ++ (d ++ '?' :: '>' :: t)) := by simp
  rw [e]
  have hname : readName (n ++ (d ++ '?' :: '>' :: t)) = some (n, d ++ '?' :: '>' :: t) := by
    rcases hd with rfl | ⟨c, r, rfl, hc⟩
    · exact readName_ok hn (by decide) _
    · refine readName_ok hn ?_ _
      rcases hc c (by simp) with rfl | rfl | rfl | rfl <;> decide
  obtain ⟨d', h1, h2⟩ := skipSpace_mark d ('>' :: t)
  have hne : n ≠ "xml".toList := by rintro rfl; exact hx (by decide)
  unfold rawToken
  simp only
  rw [hname]
  simp only
  rw [h1, readPI_ok d' (fun hh => hi (hh.trans h2.isInfix)) t]
  simp only [hne, false_and, if_false]

theorem cdata_read (s : Text) (hs : ∀ c ∈ s, IsXmlChar c ∧ c ≠ '\r') : ∀ (acc : Text) (b0 b1 : Option Char) (t : Text),
    (b1 = none → b0 = none) → b1 ≠ some '\r' → ¬ "]]>".toList <:+: lastTwo b0 b1 ++ s →
    ∃ b0' b1', b1' ≠ some '\r' ∧
      readText none true acc (.plain b0 b1) (s ++ t) = readText none true (s.reverse ++ acc) (.plain b0' b1') t := by
  induction s with
  | nil => intro acc b0 b1 t _ hb _; exact ⟨b0, b1, hb, rfl⟩
  | cons c s ih =>
    intro acc b0 b1 t hb hr hi
    have h3 : c ≠ '\r' := (hs c (by simp)).2
    have hcd : ¬ (b0 = some ']' ∧ b1 = some ']' ∧ c = '>') := by
      rintro ⟨rfl, rfl, rfl⟩; exact hi ⟨[], s, by simp [lastTwo]⟩
    obtain ⟨x0, x1, hx, e⟩ := ih (fun d hd => hs d (by simp [hd])) (c :: acc) b1 (some c) t (by simp) (by simp [h3]) (fun h => hi (by
      refine h.trans ?_
      exact ⟨b0.toList, [], by simp [lastTwo]⟩))
    refine ⟨x0, x1, hx, ?_⟩
    rw [List.cons_append, readText, if_neg (fun h => hcd h.2), if_neg (by simp), if_neg (by simp), if_neg (by simp), if_neg h3,
      if_neg (by simp [hr]), e]
    simp

theorem rawToken_cdata (s : Text) (hs : ∀ c ∈ s, IsXmlChar c ∧ c ≠ '\r') (hi : ¬ "]]>".toList <:+: s) (t : Text) :
    rawToken ("<![CDATA[".toList ++ (s ++ ("]]>".toList ++ t))) = some (.data s, t) := by
  have e : "<![CDATA[".toList ++ (s ++ ("]]>".toList ++ t)) = '<' :: '!' :: '[' :: ("CDATA[".toList ++ (s ++ ("]]>".toList ++ t))) := by simp
  rw [e]
  unfold rawToken
  simp only
  rw [if_pos (by simp [List.isPrefixOf])]
  have ed : ("CDATA[".toList ++ (s ++ ("]]>".toList ++ t))).drop 6 = s ++ ("]]>".toList ++ t) := rfl
  rw [ed]
  obtain ⟨b0, b1, hb, h⟩ := cdata_read s hs [] none none ("]]>".toList ++ t) (by simp) (by simp) (by simpa [lastTwo] using hi)
  have hend : readText none true (s.reverse ++ []) (.plain b0 b1) ("]]>".toList ++ t) = some (s, t) := by
    have e3 : "]]>".toList ++ t = ']' :: ']' :: '>' :: t := rfl
    rw [e3, readText, if_neg (by simp), if_neg (by simp), if_neg (by simp), if_neg (by simp), if_neg (by simp), if_neg (by simp),
      readText, if_neg (by simp), if_neg (by simp), if_neg (by simp), if_neg (by simp), if_neg (by simp), if_neg (by simp),
      readText, if_pos (by simp)]
    simp
  unfold textData
  rw [h, hend]
  have : s.all inRange = true := List.all_eq_true.2 (fun c hc => (inRange_iff c).2 (hs c hc).1)
  simp [this]

/-! ### Trees -/

mutual
theorem element_read {raw : Text} {n : XNode} (h : Element raw n) (st : List Open) (t : Text) :
    readTree st (raw ++ t) = go (addKid st n) t := by
  match h with
  | @Element.full n at_ as sp raw ks sp' hn ha hs hc hs' =>
    have e : ('<' :: (n ++ (at_ ++ (sp ++ '>' :: (raw ++ '<' :: '/' :: (n ++ (sp' ++ ['>']))))))) ++ t =
        '<' :: (n ++ (at_ ++ (sp ++ '>' :: (raw ++ '<' :: '/' :: (n ++ (sp' ++ '>' :: t)))))) := by simp
    rw [e, readTree_step (rawToken_open hn ha hs _).1 rfl (by simp; omega)]
    simp only [go]
    rw [content_read hc ⟨n, as, []⟩ st (n ++ (sp' ++ '>' :: t))]
    rw [readTree_step (rawToken_end hn hs' t) (by simp [onToken]; rfl) (by simp; omega)]
    simp [go]
  | @Element.empty n at_ as sp hn ha hs =>
    have e : ('<' :: (n ++ (at_ ++ (sp ++ ['/', '>'])))) ++ t = '<' :: (n ++ (at_ ++ (sp ++ '/' :: '>' :: t))) := by simp
    rw [e, readTree_step (rawToken_open hn ha hs _).2 rfl (by simp; omega)]
theorem content_read {raw : Text} {ks : List XNode} (h : Content raw ks) (o : Open) (os : List Open) (t : Text) :
    readTree (o :: os) (raw ++ '<' :: '/' :: t) = readTree ({ o with kids := ks.reverse ++ o.kids } :: os) ('<' :: '/' :: t) := by
  match h with
  | .nil => simp
  | @Content.text raw s t' ks hne hr hi hnext hc =>
    obtain ⟨w, hw⟩ : ∃ w, t' ++ '<' :: '/' :: t = '<' :: w := by
      rcases hnext with rfl | hnext
      · exact ⟨_, rfl⟩
      · cases t' with
        | nil => simp at hnext
        | cons a b => simp at hnext; subst hnext; exact ⟨_, rfl⟩
    have ih := content_read hc { o with kids := .text s :: o.kids } os t
    rw [hw] at ih
    rw [List.append_assoc, hw, readTree_step (rawToken_data hr hne hi w) rfl (by
      have : 0 < raw.length := List.length_pos_of_ne_nil hne
      simp; omega)]
    simp only [go]
    rw [ih]; simp
  | @Content.cdata s t' ks hs hi hc =>
    have ih := content_read hc { o with kids := .text s :: o.kids } os t
    have e : "<![CDATA[".toList ++ (s ++ ("]]>".toList ++ t')) ++ '<' :: '/' :: t =
        "<![CDATA[".toList ++ (s ++ ("]]>".toList ++ (t' ++ '<' :: '/' :: t))) := by simp
    rw [e, readTree_step (rawToken_cdata s hs hi _) rfl (by simp; omega)]
    simp only [go]
    rw [ih]; simp
  | @Content.comment c t' ks hc hk =>
    have hl : 0 < c.length := by obtain ⟨x, rfl, -⟩ := hc; simp
    rw [List.append_assoc, readTree_step (rawToken_comment hc _) rfl (by simp; omega)]
    exact content_read hk o os t
  | @Content.pi c t' ks hc hk =>
    have hl : 0 < c.length := by obtain ⟨x, d, rfl, -⟩ := hc; simp
    rw [List.append_assoc, readTree_step (rawToken_pi hc _) rfl (by simp; omega)]
    exact content_read hk o os t
  | @Content.elem e n t' ks he hk =>
    have ih := content_read hk { o with kids := n :: o.kids } os t
    rw [List.append_assoc, element_read he (o :: os)]
    simp only [addKid, go]
    rw [ih]; simp
end

/-! ### Documents -/

theorem space_charData : ∀ sp : Text, Space sp → ∃ s, CharData sp s
  | [], _ => ⟨[], .nil⟩
  | '\r' :: '\n' :: t, h => by
    obtain ⟨s, hs⟩ := space_charData t (fun c hc => h c (by simp [hc]))
    exact ⟨_, .crlf hs⟩
  | c :: t, h => by
    obtain ⟨s, hs⟩ := space_charData t (fun d hd => h d (by simp [hd]))
    by_cases hcr : c = '\r'
    · subst hcr
      by_cases hn : t.head? = some '\n'
      · cases t with
        | nil => simp at hn
        | cons a b =>
          simp at hn; subst hn
          obtain ⟨s', hs'⟩ := space_charData b (fun d hd => h d (by simp [hd]))
          exact ⟨_, .crlf hs'⟩
      · exact ⟨_, .cr hn hs⟩
    · refine ⟨c :: s, .char ?_ ?_ ?_ hcr hs⟩ <;> rcases h c (by simp) with rfl | rfl | rfl | rfl <;> first | decide | exact absurd rfl hcr

theorem space_noEnd {sp : Text} (h : Space sp) : ¬ "]]>".toList <:+: sp := by
  intro hi
  have := h ']' (hi.subset (by simp))
  revert this; decide

theorem misc_read {m : Text} (h : Misc m) (t : Text) : readTree [] (m ++ '<' :: t) = readTree [] ('<' :: t) := by
  induction h with
  | nil => rfl
  | @space sp t' hne hsp hnext _ ih =>
    obtain ⟨w, hw⟩ : ∃ w, t' ++ '<' :: t = '<' :: w := by
      rcases hnext with rfl | hnext
      · exact ⟨_, rfl⟩
      · cases t' with
        | nil => simp at hnext
        | cons a b => simp at hnext; subst hnext; exact ⟨_, rfl⟩
    obtain ⟨s, hs⟩ := space_charData sp hsp
    rw [hw] at ih
    rw [List.append_assoc, hw, readTree_step (rawToken_data hs hne (space_noEnd hsp) w) rfl (by
      have : 0 < sp.length := List.length_pos_of_ne_nil hne
      simp; omega)]
    exact ih
  | @comment c t' hc _ ih =>
    have hl : 0 < c.length := by obtain ⟨x, rfl, -⟩ := hc; simp
    rw [List.append_assoc, readTree_step (rawToken_comment hc _) rfl (by simp; omega)]
    exact ih
  | @pi c t' hc _ ih =>
    have hl : 0 < c.length := by obtain ⟨x, d, rfl, -⟩ := hc; simp
    rw [List.append_assoc, readTree_step (rawToken_pi hc _) rfl (by simp; omega)]
    exact ih

end Verif.Xml
