import Verif.Model.XmlText
import Verif.Spec.XmlText
/-!
# Reading back a printed tree
-/
set_option linter.unusedSimpArgs false
namespace Verif.Xml

theorem inRange_iff (c : Char) : inRange c = true ↔ IsXmlChar c := by
  simp [inRange, IsXmlChar, or_assoc]

theorem inRange_clean (c : Char) : inRange (cleanChar c) = true := by
  rw [inRange_iff]
  unfold cleanChar
  split
  · assumption
  · decide

theorem cleanText_length (s : Text) : (cleanText s).length = s.length := by simp [cleanText]

theorem cleanText_nil_iff (s : Text) : cleanText s = [] ↔ s = [] := by simp [cleanText]

/-- A name the decoder reads as a whole. -/
def nameOk (n : Text) : Bool :=
  (match n with | [] => false | c :: _ => nameStart c) && n.all nameChar && decide (n.count ':' ≤ 1)

mutual
/-- Names are names, and no character data is empty or next to other character data. -/
def tidy : XNode → Bool
  | .text s => !s.isEmpty
  | .elem n as ks => nameOk n && as.all (fun a => nameOk a.1) && tidys false ks
/-- The same for siblings; the flag is that character data came before. -/
def tidys (prev : Bool) : List XNode → Bool
  | [] => true
  | .text s :: ks => !prev && !s.isEmpty && tidys true ks
  | .elem n as cs :: ks => tidy (.elem n as cs) && tidys false ks
end

/-! ### Texts -/

theorem special_cases (c : Char) : c = '"' ∨ c = '\'' ∨ c = '&' ∨ c = '<' ∨ c = '>' ∨ c = '\t' ∨ c = '\n' ∨ c = '\r' ∨
    (c ≠ '"' ∧ c ≠ '\'' ∧ c ≠ '&' ∧ c ≠ '<' ∧ c ≠ '>' ∧ c ≠ '\t' ∧ c ≠ '\n' ∧ c ≠ '\r') := by
  by_cases h1 : c = '"' <;> by_cases h2 : c = '\'' <;> by_cases h3 : c = '&' <;> by_cases h4 : c = '<' <;>
  by_cases h5 : c = '>' <;> by_cases h6 : c = '\t' <;> by_cases h7 : c = '\n' <;> by_cases h8 : c = '\r' <;> simp [*]

theorem escape_other {c : Char} (h : c ≠ '"' ∧ c ≠ '\'' ∧ c ≠ '&' ∧ c ≠ '<' ∧ c ≠ '>' ∧ c ≠ '\t' ∧ c ≠ '\n' ∧ c ≠ '\r') :
    escape c = [cleanChar c] := by
  obtain ⟨h1, h2, h3, h4, h5, h6, h7, h8⟩ := h
  unfold escape cleanChar
  simp only [h1, h2, h3, h4, h5, h6, h7, h8, if_false, inRange_iff]
  split <;> rfl

theorem clean_other {c : Char} (h : c ≠ '"' ∧ c ≠ '\'' ∧ c ≠ '&' ∧ c ≠ '<' ∧ c ≠ '>' ∧ c ≠ '\t' ∧ c ≠ '\n' ∧ c ≠ '\r') :
    cleanChar c ≠ '"' ∧ cleanChar c ≠ '&' ∧ cleanChar c ≠ '<' ∧ cleanChar c ≠ '>' ∧ cleanChar c ≠ '\n' ∧
      cleanChar c ≠ '\r' := by
  unfold cleanChar
  split
  · exact ⟨h.1, h.2.2.1, h.2.2.2.1, h.2.2.2.2.1, h.2.2.2.2.2.2.1, h.2.2.2.2.2.2.2⟩
  · decide

theorem ent1 : entity ['#', '3', '4'] = some '"' := by decide
theorem ent2 : entity ['#', '3', '9'] = some '\'' := by decide
theorem ent3 : entity ['a', 'm', 'p'] = some '&' := by decide
theorem ent4 : entity ['l', 't'] = some '<' := by decide
theorem ent5 : entity ['g', 't'] = some '>' := by decide
theorem ent6 : entity ['#', 'x', '9'] = some '\t' := by decide
theorem ent7 : entity ['#', 'x', 'A'] = some '\n' := by decide
theorem ent8 : entity ['#', 'x', 'D'] = some '\r' := by decide

/-- The decoder reads an escaped character as that character. -/
theorem readText_char {q : Option Char} (hq : q = none ∨ q = some '"') (acc : Text) (b0 b1 : Option Char) (c : Char)
    (t : Text) : ∃ b0' b1', readText q false acc (.plain b0 b1) (escape c ++ t) =
      readText q false (cleanChar c :: acc) (.plain b0' b1') t := by
  rcases special_cases c with h | h | h | h | h | h | h | h | h
  case inr.inr.inr.inr.inr.inr.inr.inr =>
    obtain ⟨h1, h2, h3, h4, h5, h6⟩ := clean_other h
    refine ⟨b1, some (cleanChar c), ?_⟩
    rw [escape_other h]
    have hq' : ¬ q = some (cleanChar c) := by rcases hq with rfl | rfl <;> simp [Ne.symm h1]
    simp [readText, h1, h2, h3, h4, h5, h6, hq']
  all_goals
    subst h
    refine ⟨none, none, ?_⟩
    rcases hq with rfl | rfl <;>
      simp [escape, readText, ent1, ent2, ent3, ent4, ent5, ent6, ent7, ent8, cleanChar, IsXmlChar]

theorem readText_escaped {q : Option Char} (hq : q = none ∨ q = some '"') (s : Text) : ∀ (acc : Text) (b0 b1 : Option Char)
    (t : Text), ∃ b0' b1', readText q false acc (.plain b0 b1) (s.flatMap escape ++ t) =
      readText q false ((cleanText s).reverse ++ acc) (.plain b0' b1') t := by
  induction s with
  | nil => intro acc b0 b1 t; exact ⟨b0, b1, rfl⟩
  | cons c s ih =>
    intro acc b0 b1 t
    obtain ⟨x0, x1, h⟩ := readText_char hq acc b0 b1 c (s.flatMap escape ++ t)
    obtain ⟨y0, y1, h'⟩ := ih (cleanChar c :: acc) x0 x1 t
    refine ⟨y0, y1, ?_⟩
    rw [List.flatMap_cons, List.append_assoc, h, h']
    simp [cleanText]

theorem cleanText_all (s : Text) : (cleanText s).all inRange = true := by
  simp [cleanText, inRange_clean]

/-- Character data up to the next tag. -/
theorem textData_text (s t : Text) : textData none false (s.flatMap escape ++ '<' :: t) = some (cleanText s, '<' :: t) := by
  obtain ⟨b0, b1, h⟩ := readText_escaped (q := none) (Or.inl rfl) s [] none none ('<' :: t)
  have : readText none false ((cleanText s).reverse ++ []) (.plain b0 b1) ('<' :: t) = some (cleanText s, '<' :: t) := by
    simp [readText]
  rw [this] at h
  unfold textData
  rw [h]
  simp [cleanText_all]

/-- An attribute value. -/
theorem textData_attr (s t : Text) : textData (some '"') false (s.flatMap escape ++ '"' :: t) = some (cleanText s, t) := by
  obtain ⟨b0, b1, h⟩ := readText_escaped (q := some '"') (Or.inr rfl) s [] none none ('"' :: t)
  have : readText (some '"') false ((cleanText s).reverse ++ []) (.plain b0 b1) ('"' :: t) = some (cleanText s, t) := by
    simp [readText]
  rw [this] at h
  unfold textData
  rw [h]
  simp [cleanText_all]

/-! ### Tags -/

theorem takeWhile_app {p : Char → Bool} {n : Text} (hn : n.all p = true) {c : Char} (hc : p c = false) (t : Text) :
    (n ++ c :: t).takeWhile p = n ∧ (n ++ c :: t).dropWhile p = c :: t := by
  induction n with
  | nil => simp [hc]
  | cons a n ih =>
    simp only [List.all_cons, Bool.and_eq_true] at hn
    simp [hn.1, ih hn.2]

theorem readNsName_ok {n : Text} (h : nameOk n = true) {c : Char} (hc : nameChar c = false) (t : Text) :
    readNsName (n ++ c :: t) = some (n, c :: t) := by
  unfold nameOk at h
  simp only [Bool.and_eq_true, decide_eq_true_eq] at h
  obtain ⟨⟨h1, h2⟩, h3⟩ := h
  obtain ⟨e1, e2⟩ := takeWhile_app h2 hc t
  unfold readNsName readName
  rw [e1, e2]
  cases n with
  | nil => simp at h1
  | cons a n =>
    simp only at h1
    simp only [h1, if_true]
    rw [if_pos h3]

theorem skipSpace_cons {c : Char} (h : (c == ' ' || c == '\r' || c == '\n' || c == '\t') = false) (t : Text) :
    skipSpace (c :: t) = c :: t := by
  simp only [Bool.or_eq_false_iff, beq_eq_false_iff_ne] at h
  simp [skipSpace, h]

theorem name_head {n : Text} (h : nameOk n = true) : ∃ c u, n = c :: u ∧ nameStart c = true := by
  unfold nameOk at h
  cases n with
  | nil => simp at h
  | cons c u =>
    simp only [Bool.and_eq_true] at h
    exact ⟨c, u, rfl, h.1.1⟩

theorem nameStart_ne {c : Char} (h : nameStart c = true) : c ≠ '/' ∧ c ≠ '?' ∧ c ≠ '!' ∧ c ≠ '>' ∧ c ≠ '<' ∧
    (c == ' ' || c == '\r' || c == '\n' || c == '\t') = false := by
  refine ⟨?_, ?_, ?_, ?_, ?_, ?_⟩ <;> try (rintro rfl; revert h; decide)
  simp only [Bool.or_eq_false_iff, beq_eq_false_iff_ne]
  refine ⟨⟨⟨?_, ?_⟩, ?_⟩, ?_⟩ <;> (rintro rfl; revert h; decide)

theorem readAttrs_ok (as : List (Text × Text)) (h : as.all (fun a => nameOk a.1) = true) (t : Text) :
    readAttrs (as.flatMap printAttr ++ '>' :: t) = some (as.map (fun a => (a.1, cleanText a.2)), false, t) := by
  induction as with
  | nil =>
    rw [readAttrs]
    simp [skipSpace]
  | cons a as ih =>
    simp only [List.all_cons, Bool.and_eq_true] at h
    obtain ⟨c, u, hc, hs⟩ := name_head h.1
    obtain ⟨n1, n2, n3, n4, n5, n6⟩ := nameStart_ne hs
    have e : (a :: as).flatMap printAttr ++ '>' :: t =
        ' ' :: (a.1 ++ '=' :: ('"' :: (a.2.flatMap escape ++ '"' :: (as.flatMap printAttr ++ '>' :: t)))) := by
      simp [printAttr]
    rw [e]
    generalize hrest : as.flatMap printAttr ++ '>' :: t = rest at *
    have e1 : skipSpace (' ' :: (a.1 ++ '=' :: ('"' :: (a.2.flatMap escape ++ '"' :: rest)))) =
        a.1 ++ '=' :: ('"' :: (a.2.flatMap escape ++ '"' :: rest)) := by
      rw [show skipSpace (' ' :: (a.1 ++ '=' :: ('"' :: (a.2.flatMap escape ++ '"' :: rest)))) =
        skipSpace (a.1 ++ '=' :: ('"' :: (a.2.flatMap escape ++ '"' :: rest))) from by simp [skipSpace], hc, List.cons_append]
      exact skipSpace_cons n6 _
    have e2 := readNsName_ok h.1 (c := '=') (by decide) ('"' :: (a.2.flatMap escape ++ '"' :: rest))
    rw [readAttrs, e1]
    split
    · rename_i hh; rw [hc] at hh; simp at hh; exact absurd hh.1 n4
    · rename_i hh; rw [hc] at hh; simp at hh; exact absurd hh.1 n1
    · rename_i hh; rw [hc] at hh; simp at hh; exact absurd hh.1 n1
    · rw [e2]
      simp only
      rw [skipSpace_cons (by decide)]
      simp only
      rw [skipSpace_cons (by decide)]
      simp only [true_or, if_true, textData_attr]
      rw [if_pos (by simp; omega), ih h.2]
      rfl

theorem rawToken_start {n : Text} {as : List (Text × Text)} (hn : nameOk n = true)
    (ha : as.all (fun a => nameOk a.1) = true) (t : Text) :
    rawToken ('<' :: (n ++ (as.flatMap printAttr ++ '>' :: t))) =
      some (.start n (as.map (fun a => (a.1, cleanText a.2))) false, t) := by
  obtain ⟨c, u, hc, hs⟩ := name_head hn
  obtain ⟨n1, n2, n3, n4, n5, n6⟩ := nameStart_ne hs
  have hr := readAttrs_ok as ha t
  obtain ⟨d, v, hd, hv⟩ : ∃ d v, as.flatMap printAttr ++ '>' :: t = d :: v ∧ nameChar d = false := by
    cases as with
    | nil => exact ⟨'>', t, rfl, by decide⟩
    | cons a as => exact ⟨' ', _, by simp [printAttr]; rfl, by decide⟩
  have e2 : readNsName (n ++ (as.flatMap printAttr ++ '>' :: t)) = some (n, as.flatMap printAttr ++ '>' :: t) := by
    rw [hd]; exact readNsName_ok hn hv v
  unfold rawToken
  split
  · rename_i hh; cases hh
  · rename_i hh; rw [hc] at hh; simp at hh; exact absurd hh.1 n1
  · rename_i hh; rw [hc] at hh; simp at hh; exact absurd hh.1 n2
  · rename_i hh; rw [hc] at hh; simp at hh; exact absurd hh.1 n3
  · rename_i hh; rw [hc] at hh; simp at hh; exact absurd hh.1 n3
  · rename_i hh; rw [hc] at hh; simp at hh; exact absurd hh.1 n3
  · rename_i w _ _ _ _ _ hh
    have hw : w = n ++ (as.flatMap printAttr ++ '>' :: t) := by simpa using hh.symm
    rw [hw, e2]
    simp only [hr]
  · rename_i hno
    exact absurd rfl (hno _)

theorem rawToken_close {n : Text} (hn : nameOk n = true) (t : Text) :
    rawToken ('<' :: '/' :: (n ++ '>' :: t)) = some (.close n, t) := by
  unfold rawToken
  simp only
  rw [readNsName_ok hn (by decide)]
  simp only
  rw [skipSpace_cons (by decide)]
  rfl

theorem escape_head (c : Char) : ∃ d u, escape c = d :: u ∧ d ≠ '<' := by
  rcases special_cases c with h | h | h | h | h | h | h | h | h
  case inr.inr.inr.inr.inr.inr.inr.inr => exact ⟨_, _, escape_other h, (clean_other h).2.2.1⟩
  all_goals (subst h; exact ⟨'&', _, by simp [escape]; rfl, by decide⟩)

theorem rawToken_text {s : Text} (hs : s ≠ []) (t : Text) :
    rawToken (s.flatMap escape ++ '<' :: t) = some (.data (cleanText s), '<' :: t) := by
  cases s with
  | nil => exact absurd rfl hs
  | cons c s =>
    obtain ⟨d, u, hd, hne⟩ := escape_head c
    have e : (c :: s).flatMap escape ++ '<' :: t = d :: (u ++ (s.flatMap escape ++ '<' :: t)) := by
      rw [List.flatMap_cons, hd]; simp
    have ht := textData_text (c :: s) t
    rw [e] at ht ⊢
    generalize u ++ (s.flatMap escape ++ '<' :: t) = w at *
    unfold rawToken
    split <;> rename_i hh
    · cases hh
    all_goals try (simp only [List.cons.injEq] at hh; exact absurd hh.1 hne)
    rw [ht]; rfl

/-! ### Trees -/

/-- What the reader does next. -/
def go (x : List Open ⊕ XNode) (t : Text) : Option XNode :=
  match x with
  | .inr n => some n
  | .inl st => readTree st t

theorem readTree_step {st : List Open} {t r : Text} {k : Tok} {x : List Open ⊕ XNode} (h1 : rawToken t = some (k, r))
    (h2 : onToken st k = some x) (h3 : r.length < t.length) : readTree st t = go x r := by
  rw [readTree, h1]
  simp only [h2]
  cases x with
  | inl st' => simp [go, h3]
  | inr n => rfl

mutual
theorem readTree_elem (st : List Open) (t : Text) (n : Text) (as : List (Text × Text)) (ks : List XNode)
    (h : tidy (.elem n as ks) = true) :
    readTree st (print (.elem n as ks) ++ t) = go (addKid st (cleanNode (.elem n as ks))) t := by
  simp only [tidy, Bool.and_eq_true] at h
  obtain ⟨⟨hn, ha⟩, hk⟩ := h
  have e : print (.elem n as ks) ++ t =
      '<' :: (n ++ (as.flatMap printAttr ++ '>' :: (prints ks ++ '<' :: '/' :: (n ++ '>' :: t)))) := by
    simp [print]
  rw [e, readTree_step (rawToken_start hn ha _) rfl (by simp; omega)]
  simp only [go, onToken]
  have := readTree_kids ⟨n, as.map (fun a => (a.1, cleanText a.2)), []⟩ st ('/' :: (n ++ '>' :: t)) false ks hk
  rw [this, readTree_step (rawToken_close hn t) (by simp [onToken]; rfl) (by simp; omega)]
  simp [cleanNode, go]
theorem readTree_kids (o : Open) (os : List Open) (t : Text) (prev : Bool) (ks : List XNode) (h : tidys prev ks = true) :
    readTree (o :: os) (prints ks ++ '<' :: t) =
      readTree ({ o with kids := (cleanNodes ks).reverse ++ o.kids } :: os) ('<' :: t) := by
  match ks with
  | [] => simp [prints, cleanNodes]
  | .text s :: ks =>
    simp only [tidys, Bool.and_eq_true, Bool.not_eq_true', List.isEmpty_eq_false_iff] at h
    have hs : s ≠ [] := h.1.2
    have hnext : ∃ w, prints ks ++ '<' :: t = '<' :: w := by
      match ks, h with
      | [], _ => exact ⟨t, rfl⟩
      | .text _ :: _, h => simp [tidys] at h
      | .elem _ _ _ :: _, _ => exact ⟨_, by simp [prints, print]; rfl⟩
    obtain ⟨w, hw⟩ := hnext
    have ih := readTree_kids { o with kids := .text (cleanText s) :: o.kids } os t true ks h.2
    rw [hw] at ih
    have hlen : ('<' :: w).length < (s.flatMap escape ++ '<' :: w).length := by
      cases s with
      | nil => exact absurd rfl hs
      | cons c s =>
        obtain ⟨d, u, hd, -⟩ := escape_head c
        simp [hd]; omega
    rw [prints, print, List.append_assoc, hw, readTree_step (rawToken_text hs w) rfl hlen]
    simp only [go]
    rw [ih]
    simp [cleanNodes, cleanNode]
  | .elem n as cs :: ks =>
    simp only [tidys, Bool.and_eq_true] at h
    have ih := readTree_kids { o with kids := cleanNode (.elem n as cs) :: o.kids } os t false ks h.2
    rw [prints, List.append_assoc, readTree_elem (o :: os) _ n as cs h.1]
    simp only [addKid, go]
    rw [ih]
    simp [cleanNodes]
end

/-- A printed tree is read as itself, with the characters XML does not have replaced. -/
theorem parse_print {n : XNode} (h : tidy n = true) (he : ∃ a b c, n = .elem a b c) (t : Text) :
    parseXml (print n ++ t) = some (cleanNode n) := by
  obtain ⟨a, b, c, rfl⟩ := he
  exact readTree_elem [] t a b c h

end Verif.Xml
