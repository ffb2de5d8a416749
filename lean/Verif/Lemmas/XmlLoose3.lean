import Verif.Lemmas.XmlLoose2
import Verif.Lemmas.XmlCut
/-!
# What is loosely XML is read
-/
set_option linter.unusedSimpArgs false
namespace Verif.Xml

theorem looseQName_ok {n : Text} (h : LooseQName n) : nameOk n = true := by
  obtain ⟨⟨c, r, rfl, h1, h2⟩, h3⟩ := h
  unfold nameOk
  simp only [Bool.and_eq_true, decide_eq_true_eq]
  refine ⟨⟨(nameStart_iff c).2 h1, ?_⟩, h3⟩
  rw [List.all_eq_true]
  intro d hd
  rw [nameChar_iff]
  rcases List.mem_cons.1 hd with rfl | hd
  · exact .inl h1
  · exact h2 d hd

theorem looseName_read {n : Text} (h : LooseName n) {c : Char} (hc : nameChar c = false) (t : Text) : readName (n ++ c :: t) = some (n, c :: t) := by
  obtain ⟨a, r, rfl, h1, h2⟩ := h
  have hall : (a :: r).all nameChar = true := by
    rw [List.all_eq_true]
    intro d hd
    rw [nameChar_iff]
    rcases List.mem_cons.1 hd with rfl | hd
    · exact .inl h1
    · exact h2 d hd
  obtain ⟨e1, e2⟩ := takeWhile_app hall hc t
  unfold readName
  rw [e1, e2]
  simp [(nameStart_iff a).2 h1]

theorem numbered_rune {k : Nat} {c : Char} (h : Numbered k c) : k ≤ 0x10FFFF ∧ runeOf k = c := by
  rcases h with rfl | ⟨h1, h2, rfl⟩
  · exact ⟨toNat_le c, runeOf_toNat c⟩
  · refine ⟨by omega, ?_⟩
    unfold runeOf
    rw [dif_neg]
    unfold Nat.isValidChar
    omega

theorem looseRef_entity {e : Text} {c : Char} (h : LooseRef e c) : entity e = some c ∧ (∀ x ∈ e, x ≠ ';') ∧ IsXmlChar c := by
  cases h with
  | lt => exact ⟨by decide, by decide, by decide⟩
  | gt => exact ⟨by decide, by decide, by decide⟩
  | amp => exact ⟨by decide, by decide, by decide⟩
  | apos => exact ⟨by decide, by decide, by decide⟩
  | quot => exact ⟨by decide, by decide, by decide⟩
  | @dec t k c hn hk hc =>
    have hp := numeral_plain hn
    obtain ⟨hle, hk⟩ := numbered_rune hk
    obtain ⟨hne, vs, hf, hv⟩ := hn
    refine ⟨?_, ?_, hc⟩
    · obtain ⟨d, u, rfl⟩ : ∃ d u, t = d :: u := by
        cases t with
        | nil => exact absurd rfl hne
        | cons d u => exact ⟨d, u, rfl⟩
      have hx : d ≠ 'x' := (hp d (by simp)).2
      unfold entity
      rw [if_neg (by simp), if_neg (by simp), if_neg (by simp), if_neg (by simp), if_neg (by simp)]
      split
      · rename_i heq; simp at heq; exact absurd heq.1 hx
      · rename_i heq
        simp only [List.cons.injEq, true_and] at heq
        obtain ⟨rfl, rfl⟩ := heq
        rw [number_eq hf, ← hv]
        simp only [hle, if_true, hk]
      · rename_i h1 h2; exact absurd rfl (h2 d u)
    · intro x hx
      rcases List.mem_cons.1 hx with rfl | hx
      · decide
      · exact (hp x hx).1
  | @hex t k c hn hk hc =>
    have hp := numeral_plain hn
    obtain ⟨hle, hk⟩ := numbered_rune hk
    obtain ⟨hne, vs, hf, hv⟩ := hn
    refine ⟨?_, ?_, hc⟩
    · obtain ⟨d, u, rfl⟩ : ∃ d u, t = d :: u := by
        cases t with
        | nil => exact absurd rfl hne
        | cons d u => exact ⟨d, u, rfl⟩
      unfold entity
      rw [if_neg (by simp), if_neg (by simp), if_neg (by simp), if_neg (by simp), if_neg (by simp)]
      simp only
      rw [number_eq hf, ← hv]
      simp only [hle, if_true, hk]
    · intro x hx
      rcases List.mem_cons.1 hx with rfl | hx
      · decide
      · rcases List.mem_cons.1 hx with rfl | hx
        · decide
        · exact (hp x hx).1

theorem readText_looseRef {e : Text} {c : Char} (h : LooseRef e c) (q : Option Char) (hq : q ≠ some '&') (acc : Text) (b0 b1 : Option Char) (t : Text) :
    readText q false acc (.plain b0 b1) ('&' :: (e ++ ';' :: t)) = readText q false (c :: acc) (.plain none none) t := by
  obtain ⟨h1, h2, -⟩ := looseRef_entity h
  rw [readText]
  rw [if_neg (by simp), if_neg (by simp), if_neg hq, if_pos (by simp), readText_ent q acc [] e h2 t]
  simp [h1]

theorem looseChars_read {q : Option Char} (hq : q = none ∨ q = some '"' ∨ q = some '\'') {raw s : Text} (h : LooseChars q raw s) :
    ∀ (acc : Text) (b0 b1 : Option Char) (t : Text),
    (b1 = some '\r' → raw.head? ≠ some '\n') → (q = none → ¬ "]]>".toList <:+: lastTwo b0 b1 ++ raw) →
    ∃ b0' b1', readText q false acc (.plain b0 b1) (raw ++ t) = readText q false (s.reverse ++ acc) (.plain b0' b1') t := by
  have hamp : q ≠ some '&' := by rcases hq with rfl | rfl | rfl <;> decide
  have hcr : q ≠ some '\r' := by rcases hq with rfl | rfl | rfl <;> decide
  have hlf : q ≠ some '\n' := by rcases hq with rfl | rfl | rfl <;> decide
  induction h with
  | nil => intro acc b0 b1 t _ _; exact ⟨b0, b1, rfl⟩
  | @char c t' u hx h1 h2 h3 h4 _ ih =>
    intro acc b0 b1 t hr hi
    have hcd : ¬ (q = none ∧ b0 = some ']' ∧ b1 = some ']' ∧ c = '>') := by
      rintro ⟨hn, rfl, rfl, rfl⟩; exact hi hn ⟨[], t', by simp [lastTwo]⟩
    have hnl : ¬ (b1 = some '\r' ∧ c = '\n') := by
      rintro ⟨h, rfl⟩; exact hr h rfl
    obtain ⟨x0, x1, e⟩ := ih (c :: acc) b1 (some c) t (by simp [h3]) (fun hn h => hi hn (by
      refine h.trans ?_
      exact ⟨b0.toList, [], by simp [lastTwo]⟩))
    refine ⟨x0, x1, ?_⟩
    rw [List.cons_append, readText, if_neg hcd, if_neg (by simp [h1]), if_neg h4, if_neg (by simp [h2]), if_neg h3,
      if_neg hnl, e]
    simp
  | @crlf t' u _ ih =>
    intro acc b0 b1 t hr hi
    obtain ⟨x0, x1, e⟩ := ih ('\n' :: acc) (some '\r') (some '\n') t (by simp) (fun hn h => hi hn (by
      refine h.trans ?_
      exact ⟨lastTwo b0 b1, [], by simp [lastTwo]⟩))
    refine ⟨x0, x1, ?_⟩
    rw [List.cons_append, List.cons_append, readText, if_neg (by simp), if_neg (by simp), if_neg hcr, if_neg (by simp), if_pos rfl,
      readText, if_neg (by simp), if_neg (by simp), if_neg hlf, if_neg (by simp), if_neg (by simp), if_pos (by simp), e]
    simp
  | @cr t' u hnl _ ih =>
    intro acc b0 b1 t hr hi
    obtain ⟨x0, x1, e⟩ := ih ('\n' :: acc) b1 (some '\r') t (fun _ => hnl) (fun hn h => hi hn (by
      refine h.trans ?_
      exact ⟨b0.toList, [], by simp [lastTwo]⟩))
    refine ⟨x0, x1, ?_⟩
    rw [List.cons_append, readText, if_neg (by simp), if_neg (by simp), if_neg hcr, if_neg (by simp), if_pos rfl, e]
    simp
  | @ref e c t' u he _ ih =>
    intro acc b0 b1 t hr hi
    obtain ⟨x0, x1, e'⟩ := ih (c :: acc) none none t (by simp) (fun hn h => hi hn (by
      refine h.trans ?_
      exact ⟨lastTwo b0 b1 ++ '&' :: (e ++ [';']), [], by simp [lastTwo]⟩))
    refine ⟨x0, x1, ?_⟩
    rw [List.cons_append, List.append_assoc, List.cons_append, readText_looseRef he q hamp, e']
    simp

theorem looseChars_chars {q : Option Char} {raw s : Text} (h : LooseChars q raw s) : s.all inRange = true := by
  induction h with
  | nil => rfl
  | char hx _ _ _ _ _ ih => simp only [List.all_cons, (inRange_iff _).2 hx, ih, Bool.and_self]
  | crlf _ ih => simp only [List.all_cons, ih, Bool.and_true]; decide
  | cr _ _ ih => simp only [List.all_cons, ih, Bool.and_true]; decide
  | ref hr _ ih => simp only [List.all_cons, (inRange_iff _).2 (looseRef_entity hr).2.2, ih, Bool.and_self]

theorem looseText_read {raw s t : Text} (h : LooseText raw s t) : textData none false (raw ++ t) = some (s, t) := by
  obtain ⟨-, h, hi, ht⟩ := h
  obtain ⟨b0, b1, e⟩ := looseChars_read (.inl rfl) h [] none none t (by simp) (by simpa [lastTwo] using hi)
  unfold textData
  rw [e]
  rcases ht with rfl | ht
  · simp [readText, looseChars_chars h]
  · cases t with
    | nil => cases ht
    | cons c t => cases ht; simp [readText, looseChars_chars h]

theorem looseValue_read {q : Char} (hq : q = '"' ∨ q = '\'') {raw s : Text} (h : LooseChars (some q) raw s) (t : Text) :
    textData (some q) false (raw ++ q :: t) = some (s, t) := by
  obtain ⟨b0, b1, e⟩ := looseChars_read (by rcases hq with rfl | rfl <;> simp) h [] none none (q :: t) (by simp) (by simp)
  have hlt : q ≠ '<' := by rcases hq with rfl | rfl <;> decide
  unfold textData
  rw [e, readText, if_neg (by simp), if_neg (by simp [hlt]), if_pos rfl]
  simp only [List.append_nil, List.reverse_reverse, looseChars_chars h, if_true]

theorem verbatim_lineFeeds {raw s : Text} (h : Verbatim raw s) : s.all inRange = true ∧
    ∀ b1, (b1 = some '\r' → raw.head? ≠ some '\n') → lineFeeds b1 raw = s := by
  induction h with
  | nil => exact ⟨rfl, fun _ _ => rfl⟩
  | @char c t u hc hr _ ih =>
    refine ⟨by simp only [List.all_cons, (inRange_iff _).2 hc, ih.1, Bool.and_self], fun b1 hb => ?_⟩
    rw [lineFeeds, if_neg hr, if_neg (by rintro ⟨h, rfl⟩; exact hb h rfl), ih.2 _ (by simp [hr])]
  | @crlf t u _ ih =>
    refine ⟨by simp only [List.all_cons, ih.1, Bool.and_true]; decide, fun b1 _ => ?_⟩
    rw [lineFeeds, if_pos rfl, lineFeeds, if_neg (by decide), if_pos ⟨rfl, rfl⟩, ih.2 _ (by simp)]
  | @cr t u hn _ ih =>
    refine ⟨by simp only [List.all_cons, ih.1, Bool.and_true]; decide, fun b1 _ => ?_⟩
    rw [lineFeeds, if_pos rfl, ih.2 _ (fun _ => hn)]

theorem brackets_snoc {raw : Text} (h : ¬ "]]>".toList <:+: raw) : ¬ "]]>".toList <:+: raw ++ [']', ']'] := by
  induction raw with
  | nil => decide
  | cons c raw ih =>
    intro hi
    rcases List.infix_cons_iff.1 hi with hp | hp
    · apply h
      match raw with
      | [] => simp [List.cons_prefix_cons] at hp
      | [a] => 
        change "]]>".toList <+: [c, a, ']', ']'] at hp
        simp [List.cons_prefix_cons] at hp
      | a :: b :: raw =>
        change "]]>".toList <+: c :: a :: b :: (raw ++ [']', ']']) at hp
        simp only [String.reduceToList, List.cons_prefix_cons] at hp
        obtain ⟨rfl, rfl, rfl, -⟩ := hp
        exact ⟨[], raw, by simp⟩
    · exact ih (fun hx => h (hx.trans ⟨[c], [], by simp⟩)) hp

theorem looseCData_read {raw s : Text} (h : LooseCData raw s) (t : Text) : rawToken (raw ++ t) = some (.data s, t) := by
  obtain ⟨raw, rfl, hv, hi⟩ := h
  have e : "<![CDATA[".toList ++ (raw ++ "]]>".toList) ++ t = '<' :: '!' :: '[' :: ("CDATA[".toList ++ (raw ++ ("]]>".toList ++ t))) := by simp
  rw [e]
  unfold rawToken
  simp only
  rw [if_pos (by simp [List.isPrefixOf])]
  have ed : ("CDATA[".toList ++ (raw ++ ("]]>".toList ++ t))).drop 6 = raw ++ ("]]>".toList ++ t) := rfl
  rw [ed]
  have hc : readText none true [] (.plain none none) (raw ++ ("]]>".toList ++ t)) = some (s, t) := by
    have := cdata_some raw t [] none none (by simp) (by simpa using brackets_snoc hi)
    rw [(verbatim_lineFeeds hv).2 none (by simp)] at this
    exact this
  unfold textData
  rw [hc]
  simp [(verbatim_lineFeeds hv).1]

theorem nameEnds_cons {t : Text} {c : Char} {r : Text} (h : NameEnds t) (hc : nameChar c = false) : ∃ d u, t ++ c :: r = d :: u ∧ nameChar d = false := by
  cases t with
  | nil => exact ⟨c, r, rfl, hc⟩
  | cons d t => exact ⟨d, t ++ c :: r, rfl, by rw [Bool.eq_false_iff]; exact fun hd => h d t rfl ((nameChar_iff d).1 hd)⟩

theorem looseAttrs_read {at_ : Text} {as : List (Text × Text)} (h : LooseAttrs at_ as) {sp : Text} (hs : Space sp) (e : Bool) (t : Text) :
    readAttrs (at_ ++ (sp ++ ((if e then ['/', '>'] else ['>']) ++ t))) = some (as, e, t) := by
  induction h with
  | nil =>
    cases e
    · simp only [Bool.false_eq_true, if_false, List.nil_append, List.cons_append]
      rw [readAttrs, space_skip hs, skipSpace_cons (by decide)]
      rfl
    · simp only [if_true, List.nil_append, List.cons_append]
      rw [readAttrs, space_skip hs, skipSpace_cons (by decide)]
      rfl
  | @cons sp0 n sp1 sp2 q raw v t' as hsp hn hs1 hs2 hq hv _ ih =>
    generalize sp ++ ((if e = true then ['/', '>'] else ['>']) ++ t) = w at *
    have hnk := looseQName_ok hn
    obtain ⟨c, u, hc, hst⟩ := name_head hnk
    obtain ⟨n1, n2, n3, n4, n5, n6⟩ := nameStart_ne hst
    have e0 : (sp0 ++ (n ++ (sp1 ++ '=' :: (sp2 ++ q :: (raw ++ q :: t'))))) ++ w =
        sp0 ++ (n ++ (sp1 ++ '=' :: (sp2 ++ q :: (raw ++ q :: (t' ++ w))))) := by simp
    have e1 : skipSpace (sp0 ++ (n ++ (sp1 ++ '=' :: (sp2 ++ q :: (raw ++ q :: (t' ++ w)))))) =
        n ++ (sp1 ++ '=' :: (sp2 ++ q :: (raw ++ q :: (t' ++ w)))) := by
      rw [space_skip hsp, hc, List.cons_append]; exact skipSpace_cons n6 _
    obtain ⟨d, x, hd, hdn⟩ := space_notName hs1 (c := '=') (by decide) (sp2 ++ q :: (raw ++ q :: (t' ++ w)))
    have e2 : readNsName (n ++ (sp1 ++ '=' :: (sp2 ++ q :: (raw ++ q :: (t' ++ w))))) =
        some (n, sp1 ++ '=' :: (sp2 ++ q :: (raw ++ q :: (t' ++ w)))) := by
      rw [hd]; exact readNsName_ok hnk hdn x
    have hqs : (q == ' ' || q == '\r' || q == '\n' || q == '\t') = false := by rcases hq with rfl | rfl <;> decide
    rw [e0, readAttrs, e1]
    split
    · rename_i hh; rw [hc] at hh; simp at hh; exact absurd hh.1 n4
    · rename_i hh; rw [hc] at hh; simp at hh; exact absurd hh.1 n1
    · rename_i hh; rw [hc] at hh; simp at hh; exact absurd hh.1 n1
    · rw [e2]
      simp only
      rw [space_skip hs1, skipSpace_cons (by decide)]
      simp only
      rw [space_skip hs2, skipSpace_cons hqs]
      simp only [hq, if_true]
      rw [looseValue_read hq hv]
      simp only
      rw [if_pos (by simp; omega), ih]

theorem looseOpen_read {n : Text} (hn : LooseQName n) {at_ : Text} {as : List (Text × Text)} (h : LooseAttrs at_ as) {sp : Text} (hs : Space sp)
    (he : NameEnds (at_ ++ sp)) (e : Bool) (t : Text) :
    rawToken ('<' :: (n ++ (at_ ++ (sp ++ ((if e then ['/', '>'] else ['>']) ++ t))))) = some (.start n as e, t) := by
  have hnk := looseQName_ok hn
  obtain ⟨c, u, hc, hst⟩ := name_head hnk
  obtain ⟨n1, n2, n3, n4, n5, n6⟩ := nameStart_ne hst
  have hr := looseAttrs_read h hs e t
  have e2 : readNsName (n ++ (at_ ++ (sp ++ ((if e then ['/', '>'] else ['>']) ++ t)))) =
      some (n, at_ ++ (sp ++ ((if e then ['/', '>'] else ['>']) ++ t))) := by
    have : ∃ d u, at_ ++ (sp ++ ((if e then ['/', '>'] else ['>']) ++ t)) = d :: u ∧ nameChar d = false := by
      rw [← List.append_assoc]
      cases e
      · exact nameEnds_cons he (by decide)
      · exact nameEnds_cons he (by decide)
    obtain ⟨d, v, hd, hv⟩ := this
    rw [hd]; exact readNsName_ok hnk hv v
  generalize at_ ++ (sp ++ ((if e then ['/', '>'] else ['>']) ++ t)) = w at *
  unfold rawToken
  split
  · rename_i hh; cases hh
  · rename_i hh; rw [hc] at hh; simp at hh; exact absurd hh.1 n1
  · rename_i hh; rw [hc] at hh; simp at hh; exact absurd hh.1 n2
  · rename_i hh; rw [hc] at hh; simp at hh; exact absurd hh.1 n3
  · rename_i hh; rw [hc] at hh; simp at hh; exact absurd hh.1 n3
  · rename_i hh; rw [hc] at hh; simp at hh; exact absurd hh.1 n3
  · rename_i y _ _ _ _ _ hh
    have hw : y = n ++ w := by simpa using hh.symm
    rw [hw, e2]
    simp only [hr]
  · rename_i hno
    exact absurd rfl (hno _)

theorem looseEnd_read {n : Text} (hn : LooseQName n) {sp : Text} (hs : Space sp) (t : Text) :
    rawToken ('<' :: '/' :: (n ++ (sp ++ '>' :: t))) = some (.close n, t) := by
  obtain ⟨d, u, hd, hv⟩ := space_notName hs (c := '>') (by decide) t
  unfold rawToken
  simp only
  have : readNsName (n ++ (sp ++ '>' :: t)) = some (n, sp ++ '>' :: t) := by rw [hd]; exact readNsName_ok (looseQName_ok hn) hv u
  rw [this]
  simp only
  rw [space_skip hs, skipSpace_cons (by decide)]
  rfl

theorem looseData_read {raw s t : Text} (h : LooseText raw s t) : rawToken (raw ++ t) = some (.data s, t) := by
  have ht := looseText_read h
  obtain ⟨hne, h, -, -⟩ := h
  obtain ⟨c, r, rfl, hc⟩ : ∃ c r, raw = c :: r ∧ c ≠ '<' := by
    cases h with
    | nil => exact absurd rfl hne
    | char _ h1 => exact ⟨_, _, rfl, h1⟩
    | crlf => exact ⟨_, _, rfl, by decide⟩
    | cr => exact ⟨_, _, rfl, by decide⟩
    | ref => exact ⟨_, _, rfl, by decide⟩
  rw [List.cons_append] at ht ⊢
  generalize r ++ t = w at *
  unfold rawToken
  split <;> rename_i hh
  · cases hh
  all_goals try (simp only [List.cons.injEq] at hh; exact absurd hh.1 hc)
  rw [ht]; rfl

theorem readDirective_quote {q : Char} (n : Nat) (s t : Text) (h : q ∉ s) : readDirective (some q) n (s ++ q :: t) = readDirective none n t := by
  induction s with
  | nil => simp [readDirective]
  | cons c s ih =>
    simp only [List.mem_cons, not_or] at h
    rw [List.cons_append, readDirective, if_neg (by simp), if_neg (by simpa using h.1), if_pos (by simp)]
    exact ih h.2

theorem inside_read {d : Text} (h : Inside d) : ∀ (n : Nat) (t : Text), readDirective none n (d ++ t) = readDirective none n t := by
  induction h with
  | nil => intro n t; rfl
  | @char c t' h1 h2 h3 h4 _ ih =>
    intro n t
    rw [List.cons_append, readDirective, if_neg (by simp [h2]), if_neg (by simp), if_neg (by simp), if_neg (by simp [h3, h4]), if_neg h2, if_neg h1]
    exact ih n t
  | @quoted q s t' hq hs _ ih =>
    intro n t
    have hgt : q ≠ '>' := by rcases hq with rfl | rfl <;> decide
    rw [List.cons_append, readDirective, if_neg (by simp [hgt]), if_neg (by simp), if_neg (by simp), if_pos hq.symm,
      List.append_assoc, List.cons_append, readDirective_quote n s _ hs]
    exact ih n t
  | @angle s t' _ _ ih1 ih2 =>
    intro n t
    rw [List.cons_append, readDirective, if_neg (by simp), if_neg (by simp), if_neg (by simp), if_neg (by simp), if_neg (by simp), if_pos rfl,
      List.append_assoc, List.cons_append, ih1 (n + 1), readDirective, if_neg (by simp), if_neg (by simp), if_neg (by simp), if_neg (by simp), if_pos rfl]
    exact ih2 n t

theorem skipped_read {raw : Text} (h : Skipped raw) (t : Text) : rawToken (raw ++ t) = some (.other, t) := by
  rcases h with ⟨c, rfl, hc⟩ | ⟨n, d, rfl, hn, hi, he, hx⟩ | ⟨c, d, rfl, h1, h2, hd⟩
  · have e : "<!--".toList ++ (c ++ "-->".toList) ++ t = '<' :: '!' :: '-' :: '-' :: (c ++ ("-->".toList ++ t)) := by simp
    rw [e]
    unfold rawToken
    simp only
    rw [readComment_ok c hc t]; rfl
  · have e : "<?".toList ++ (n ++ (d ++ "?>".toList)) ++ t = '<' :: '?' :: (n ++ (d ++ '?' :: '>' :: t)) := by simp
    rw [e]
    have hname : readName (n ++ (d ++ '?' :: '>' :: t)) = some (n, d ++ '?' :: '>' :: t) := by
      obtain ⟨x, u, hu, hx⟩ : ∃ x u, d ++ '?' :: '>' :: t = x :: u ∧ nameChar x = false :=
        nameEnds_cons (nameEnds_left he) (by decide)
      rw [hu]
      exact looseName_read hn hx u
    obtain ⟨sp, hsp, hd⟩ := skipSpace_split (d ++ '?' :: '>' :: t)
    obtain ⟨d', g1, g2⟩ := skipSpace_mark d ('>' :: t)
    rw [g1] at hd
    have hd' : d = sp ++ d' := by
      have : d ++ ('?' :: '>' :: t) = (sp ++ d') ++ ('?' :: '>' :: t) := by rw [hd]; simp
      exact List.append_cancel_right this
    unfold rawToken
    simp only
    rw [hname]
    simp only
    rw [g1, readPI_ok d' (fun hh => hi (hh.trans g2.isInfix)) t]
    simp only
    rw [if_neg]
    rintro ⟨hxml, hdecl⟩
    have := hx hxml
    rw [hd', ← declOk_iff hsp, hdecl] at this
    cases this
  · have e : '<' :: '!' :: c :: (d ++ ['>']) ++ t = '<' :: '!' :: c :: (d ++ '>' :: t) := by simp
    rw [e]
    have hr : readDirective none 0 (d ++ '>' :: t) = some t := by rw [inside_read hd]; simp [readDirective]
    unfold rawToken
    split
    · rename_i hh; cases hh
    · rename_i hh; simp at hh
    · rename_i hh; simp at hh
    · rename_i hh; simp at hh; exact absurd hh.1 h1
    · rename_i hh; simp at hh; exact absurd hh.1 h2
    · rename_i hh
      simp only [List.cons.injEq, true_and] at hh
      rw [← hh]
      simp only [hr, Option.map_some]
    · rename_i hno hh
      simp only [List.cons.injEq, true_and] at hh
      exact absurd hh.symm (hno _)
    · rename_i hno
      exact absurd rfl (hno _)

/-! ### Trees -/

theorem lt_next {t w : Text} (h : t = [] ∨ t.head? = some '<') : ∃ u, t ++ '<' :: w = '<' :: u := by
  rcases h with rfl | h
  · exact ⟨_, rfl⟩
  · cases t with
    | nil => cases h
    | cons a b => cases h; exact ⟨_, rfl⟩

theorem looseText_more {raw s t : Text} (h : LooseText raw s t) (w : Text) : LooseText raw s (t ++ '<' :: w) := by
  obtain ⟨h1, h2, h3, h4⟩ := h
  obtain ⟨u, hu⟩ := lt_next (w := w) h4
  exact ⟨h1, h2, h3, .inr (by rw [hu]; rfl)⟩

theorem skipped_ne {raw : Text} (h : Skipped raw) : 0 < raw.length := by
  rcases h with ⟨c, rfl, -⟩ | ⟨n, d, rfl, -⟩ | ⟨c, d, rfl, -⟩ <;> simp

theorem cdata_ne {raw s : Text} (h : LooseCData raw s) : 0 < raw.length := by
  obtain ⟨r, rfl, -⟩ := h; simp

mutual
theorem looseElement_read {raw : Text} {n : XNode} (h : LooseElement raw n) (st : List Open) (t : Text) :
    readRest st (raw ++ t) = goRest (addKid st n) t := by
  match h with
  | @LooseElement.full n at_ as sp raw ks sp' hn ha hs he hc hs' =>
    have e : ('<' :: (n ++ (at_ ++ (sp ++ '>' :: (raw ++ '<' :: '/' :: (n ++ (sp' ++ ['>']))))))) ++ t =
        '<' :: (n ++ (at_ ++ (sp ++ ((if false then ['/', '>'] else ['>']) ++ (raw ++ '<' :: '/' :: (n ++ (sp' ++ '>' :: t))))))) := by simp
    rw [e, readRest_step (looseOpen_read hn ha hs he false _) rfl (by simp; omega)]
    simp only [goRest]
    rw [looseContent_read hc ⟨n, as, []⟩ st (n ++ (sp' ++ '>' :: t))]
    rw [readRest_step (looseEnd_read hn hs' t) (by simp [onToken]; rfl) (by simp; omega)]
    simp [goRest]
  | @LooseElement.empty n at_ as sp hn ha hs he =>
    have e : ('<' :: (n ++ (at_ ++ (sp ++ ['/', '>'])))) ++ t = '<' :: (n ++ (at_ ++ (sp ++ ((if true then ['/', '>'] else ['>']) ++ t)))) := by simp
    rw [e, readRest_step (looseOpen_read hn ha hs he true _) rfl (by simp; omega)]
theorem looseContent_read {raw : Text} {ks : List XNode} (h : LooseContent raw ks) (o : Open) (os : List Open) (t : Text) :
    readRest (o :: os) (raw ++ '<' :: '/' :: t) = readRest ({ o with kids := ks.reverse ++ o.kids } :: os) ('<' :: '/' :: t) := by
  match h with
  | .nil => simp
  | @LooseContent.text raw s t' ks hr hc =>
    have ih := looseContent_read hc { o with kids := .text s :: o.kids } os t
    rw [List.append_assoc, readRest_step (looseData_read (looseText_more hr _)) rfl (by
      have : 0 < raw.length := List.length_pos_of_ne_nil hr.1
      simp; omega)]
    simp only [goRest]
    rw [ih]; simp
  | @LooseContent.cdata raw s t' ks hr hc =>
    have ih := looseContent_read hc { o with kids := .text s :: o.kids } os t
    have hl := cdata_ne hr
    rw [List.append_assoc, readRest_step (looseCData_read hr _) rfl (by simp; omega)]
    simp only [goRest]
    rw [ih]; simp
  | @LooseContent.skipped c t' ks hc hk =>
    have hl := skipped_ne hc
    rw [List.append_assoc, readRest_step (skipped_read hc _) rfl (by simp; omega)]
    exact looseContent_read hk o os t
  | @LooseContent.elem e n t' ks he hk =>
    have ih := looseContent_read hk { o with kids := n :: o.kids } os t
    rw [List.append_assoc, looseElement_read he (o :: os)]
    simp only [addKid, goRest]
    rw [ih]; simp
end

theorem looseMisc_read {m : Text} (h : LooseMisc m) (t : Text) : readRest [] (m ++ '<' :: t) = readRest [] ('<' :: t) := by
  induction h with
  | nil => rfl
  | @text raw s t' hr _ ih =>
    rw [List.append_assoc, readRest_step (looseData_read (looseText_more hr _)) rfl (by
      have : 0 < raw.length := List.length_pos_of_ne_nil hr.1
      simp; omega)]
    exact ih
  | @cdata raw s t' hr _ ih =>
    have hl := cdata_ne hr
    rw [List.append_assoc, readRest_step (looseCData_read hr _) rfl (by simp; omega)]
    exact ih
  | @skipped raw t' hr _ ih =>
    have hl := skipped_ne hr
    rw [List.append_assoc, readRest_step (skipped_read hr _) rfl (by simp; omega)]
    exact ih

/-- A loosely written document is read up to the end of its root element. -/
theorem loose_read {misc root : Text} {n : XNode} (hm : LooseMisc misc) (hr : LooseElement root n) (rest : Text) :
    readRest [] (misc ++ (root ++ rest)) = some (n, rest) := by
  obtain ⟨r, hroot⟩ : ∃ r, root = '<' :: r := by cases hr <;> exact ⟨_, rfl⟩
  rw [hroot, List.cons_append, looseMisc_read hm, ← List.cons_append, ← hroot, looseElement_read hr]
  obtain ⟨a, b, c, rfl⟩ : ∃ a b c, n = .elem a b c := by cases hr <;> exact ⟨_, _, _, rfl⟩
  rfl

/-- Exactly the loosely written documents are accepted, with their trees. -/
theorem parseXml_iff (t : Text) (n : XNode) : parseXml t = some n ↔ LooseDocument t n := by
  refine ⟨parseXml_sound, ?_⟩
  rintro ⟨misc, root, rest, rfl, hm, hr⟩
  unfold parseXml
  rw [readTree_rest, loose_read hm hr]
  rfl

/-- The strict grammar is part of the loose one. -/
theorem document_loose {t : Text} {n : XNode} (h : Document t n) : LooseDocument t n := parseXml_sound (document_read h)

/-- The tree and the end of the root element are unique. -/
theorem loose_unique {misc root rest misc' root' rest' : Text} {n n' : XNode} (hm : LooseMisc misc) (hr : LooseElement root n)
    (hm' : LooseMisc misc') (hr' : LooseElement root' n') (e : misc ++ (root ++ rest) = misc' ++ (root' ++ rest')) :
    n = n' ∧ rest = rest' := by
  have h1 := loose_read hm hr rest
  rw [e, loose_read hm' hr' rest'] at h1
  simp only [Option.some.injEq, Prod.mk.injEq] at h1
  exact ⟨h1.1.symm, h1.2.symm⟩

end Verif.Xml
