import Verif.Spec.SoapLayout
import Verif.Lemmas.SoapDoc
/-!
# What is written over SOAP is a document
-/
set_option linter.unusedSimpArgs false
namespace Verif.Xml
open Soap

/-! ### Names -/

/-- `NCName`, as a test. -/
def isNC : Text → Bool
  | [] => false
  | c :: r => (c.isAlpha || c == '_') && r.all fun d => d.isAlpha || d == '_' || d.isDigit || d == '.' || d == '-'

theorem isNC_iff (n : Text) : isNC n = true ↔ NCName n := by
  cases n with
  | nil => simp [isNC, NCName]
  | cons c r =>
    simp only [isNC, NCName, Letter, List.cons.injEq, Bool.and_eq_true, Bool.or_eq_true, beq_iff_eq, List.all_eq_true]
    constructor
    · rintro ⟨h1, h2⟩
      refine ⟨c, r, ⟨rfl, rfl⟩, h1, fun d hd => ?_⟩
      have := h2 d hd
      tauto
    · rintro ⟨c', r', ⟨rfl, rfl⟩, h1, h2⟩
      refine ⟨h1, fun d hd => ?_⟩
      have := h2 d hd
      tauto

/-- `QName`, as a test. -/
def isQ (n : Text) : Bool :=
  isNC n || (isNC (n.takeWhile (· ≠ ':')) && isNC ((n.dropWhile (· ≠ ':')).drop 1))

theorem isQ_sound {n : Text} (h : isQ n = true) : QName n := by
  unfold isQ at h
  simp only [Bool.or_eq_true, Bool.and_eq_true, isNC_iff] at h
  rcases h with h | ⟨h1, h2⟩
  · exact Or.inl h
  · refine Or.inr ⟨_, _, h1, h2, ?_⟩
    cases hd : n.dropWhile (· ≠ ':') with
    | nil =>
      rw [hd] at h2
      obtain ⟨c, r, e, -⟩ := h2
      cases e
    | cons c r =>
      have hc : c = ':' := by
        have := List.head?_dropWhile_not (p := fun x => decide (x ≠ ':')) (l := n)
        rw [hd] at this
        simpa using this
      subst hc
      conv_lhs => rw [← List.takeWhile_append_dropWhile (p := fun x => decide (x ≠ ':')) (l := n), hd]
      simp

mutual
/-- All names are names. -/
def qTree : XNode → Bool
  | .text _ => true
  | .elem n as ks => isQ n && as.all (fun a => isQ a.1) && qTrees ks
/-- The same for siblings. -/
def qTrees : List XNode → Bool
  | [] => true
  | k :: ks => qTree k && qTrees ks
end

/-! ### Texts -/

theorem digit_ref (t : Text) (vs : List Nat) (base : Nat) (h : List.Forall₂ (fun c v => v < base ∧ HexDigit c v) t vs) (ht : t ≠ []) (n : Nat)
    (hn : n = vs.foldl (fun a v => a * base + v) 0) : Numeral base t n := ⟨ht, vs, h, hn⟩

theorem ref34 : Ref "#34".toList '"' :=
  .dec (t := "34".toList) (digit_ref _ [3, 4] 10 (.cons ⟨by decide, Or.inl (by decide)⟩ (.cons ⟨by decide, Or.inl (by decide)⟩ .nil)) (by decide) _ (by decide)) (by decide)
theorem ref39 : Ref "#39".toList '\'' :=
  .dec (t := "39".toList) (digit_ref _ [3, 9] 10 (.cons ⟨by decide, Or.inl (by decide)⟩ (.cons ⟨by decide, Or.inl (by decide)⟩ .nil)) (by decide) _ (by decide)) (by decide)
theorem refx9 : Ref "#x9".toList '\t' :=
  .hex (t := "9".toList) (digit_ref _ [9] 16 (.cons ⟨by decide, Or.inl (by decide)⟩ .nil) (by decide) _ (by decide)) (by decide)
theorem refxA : Ref "#xA".toList '\n' :=
  .hex (t := "A".toList) (digit_ref _ [10] 16 (.cons ⟨by decide, Or.inr (by decide)⟩ .nil) (by decide) _ (by decide)) (by decide)
theorem refxD : Ref "#xD".toList '\r' :=
  .hex (t := "D".toList) (digit_ref _ [13] 16 (.cons ⟨by decide, Or.inr (by decide)⟩ .nil) (by decide) _ (by decide)) (by decide)

theorem clean_char (c : Char) : IsXmlChar (cleanChar c) := (inRange_iff _).1 (inRange_clean c)

/-- How a character is escaped: as itself or by a reference. -/
theorem escape_cases (c : Char) : (∃ e, Ref e (cleanChar c) ∧ escape c = '&' :: (e ++ [';'])) ∨
    (escape c = [cleanChar c] ∧ cleanChar c ≠ '<' ∧ cleanChar c ≠ '&' ∧ cleanChar c ≠ '"' ∧ cleanChar c ≠ '>' ∧ cleanChar c ≠ '\t' ∧
      cleanChar c ≠ '\n' ∧ cleanChar c ≠ '\r') := by
  rcases special_cases c with rfl | rfl | rfl | rfl | rfl | rfl | rfl | rfl | h
  · exact Or.inl ⟨"#34".toList, ref34, rfl⟩
  · exact Or.inl ⟨"#39".toList, ref39, rfl⟩
  · exact Or.inl ⟨"amp".toList, .amp, rfl⟩
  · exact Or.inl ⟨"lt".toList, .lt, rfl⟩
  · exact Or.inl ⟨"gt".toList, .gt, rfl⟩
  · exact Or.inl ⟨"#x9".toList, refx9, rfl⟩
  · exact Or.inl ⟨"#xA".toList, refxA, rfl⟩
  · exact Or.inl ⟨"#xD".toList, refxD, rfl⟩
  · refine Or.inr ⟨escape_other h, ?_⟩
    obtain ⟨h1, h2, h3, h4, h5, h6⟩ := clean_other h
    refine ⟨h3, h2, h1, h4, ?_, h5, h6⟩
    unfold cleanChar
    split
    · exact h.2.2.2.2.2.1
    · decide

theorem escaped_charData (s : Text) : CharData (s.flatMap escape) (cleanText s) := by
  induction s with
  | nil => exact .nil
  | cons c s ih =>
    rw [List.flatMap_cons]
    rcases escape_cases c with ⟨e, h1, h2⟩ | ⟨h1, h2, h3, h4, h5, h6, h7, h8⟩
    · rw [h2]
      simp only [List.cons_append, List.append_assoc, List.nil_append]
      exact .ref h1 ih
    · rw [h1]
      exact .char (clean_char c) h2 h3 h8 ih

theorem escaped_attValue (s : Text) : AttValue '"' (s.flatMap escape) (cleanText s) := by
  induction s with
  | nil => exact .nil
  | cons c s ih =>
    rw [List.flatMap_cons]
    rcases escape_cases c with ⟨e, h1, h2⟩ | ⟨h1, h2, h3, h4, h5, h6, h7, h8⟩
    · rw [h2]
      simp only [List.cons_append, List.append_assoc, List.nil_append]
      exact .ref h1 ih
    · rw [h1]
      exact .char (clean_char c) h2 h3 h4 h6 h7 h8 ih

theorem escape_noGt (c : Char) : '>' ∉ escape c := by
  rcases special_cases c with rfl | rfl | rfl | rfl | rfl | rfl | rfl | rfl | h
  all_goals first
    | decide
    | skip
  rw [escape_other h]
  have := (clean_other h).2.2.2.1
  simpa using fun h => this h.symm

theorem escaped_noGt (s : Text) : ¬ "]]>".toList <:+: s.flatMap escape := by
  rintro ⟨a, b, h⟩
  have : '>' ∈ s.flatMap escape := by rw [← h]; simp
  rw [List.mem_flatMap] at this
  obtain ⟨c, -, hc⟩ := this
  exact escape_noGt c hc

/-! ### Trees -/

theorem attrs_print (as : List (Text × Text)) (h : as.all (fun a => isQ a.1) = true) :
    Attrs (as.flatMap printAttr) (as.map fun a => (a.1, cleanText a.2)) := by
  induction as with
  | nil => exact .nil
  | cons a as ih =>
    simp only [List.all_cons, Bool.and_eq_true] at h
    have := Attrs.cons (sp := [' ']) (sp1 := []) (sp2 := []) (q := '"') (by simp) (by intro c hc; simp_all) (isQ_sound h.1)
      (by intro c hc; simp at hc) (by intro c hc; simp at hc) (Or.inl rfl) (escaped_attValue a.2) (ih h.2)
    simpa [printAttr, List.flatMap_cons] using this

theorem prints_head (ks : List XNode) (h : tidys true ks = true) : prints ks = [] ∨ (prints ks).head? = some '<' := by
  match ks, h with
  | [], _ => exact Or.inl rfl
  | .text _ :: _, h => simp [tidys] at h
  | .elem n as cs :: ks, _ => exact Or.inr (by simp [prints, print])

mutual
/-- What is printed is an element. -/
theorem element_print (n : Text) (as : List (Text × Text)) (ks : List XNode) (h : tidy (.elem n as ks) = true)
    (hq : qTree (.elem n as ks) = true) : Element (print (.elem n as ks)) (cleanNode (.elem n as ks)) := by
  simp only [tidy, Bool.and_eq_true] at h
  simp only [qTree, Bool.and_eq_true] at hq
  have := Element.full (sp := []) (sp' := []) (isQ_sound hq.1.1) (attrs_print as hq.1.2) (by intro c hc; simp at hc)
    (content_print false ks h.2 hq.2) (by intro c hc; simp at hc)
  simpa [print, cleanNode] using this
/-- And its content. -/
theorem content_print (prev : Bool) (ks : List XNode) (h : tidys prev ks = true) (hq : qTrees ks = true) :
    Content (prints ks) (cleanNodes ks) := by
  match ks with
  | [] => exact .nil
  | .text s :: ks =>
    simp only [tidys, Bool.and_eq_true, Bool.not_eq_true', List.isEmpty_eq_false_iff] at h
    simp only [qTrees, Bool.and_eq_true] at hq
    simp only [prints, print, cleanNodes, cleanNode]
    refine .text ?_ (escaped_charData s) (escaped_noGt s) (prints_head ks h.2) (content_print true ks h.2 hq.2)
    obtain ⟨c, r, rfl⟩ := List.exists_cons_of_ne_nil h.1.2
    obtain ⟨d, u, e, -⟩ := escape_head c
    rw [List.flatMap_cons, e]; simp
  | .elem n as cs :: ks =>
    simp only [tidys, Bool.and_eq_true] at h
    simp only [qTrees, Bool.and_eq_true] at hq
    simp only [prints, cleanNodes]
    exact .elem (element_print n as cs h.1 hq.1) (content_print false ks h.2 hq.2)
end

theorem document_print {x : XNode} (h : tidy x = true) (hq : qTree x = true) (he : isElem x = true) : Document (print x) (cleanNode x) := by
  cases x with
  | text s => cases he
  | elem n as ks => exact ⟨[], [], [], _, [], by simp, Or.inl rfl, Or.inl rfl, .nil, element_print n as ks h hq, .nil⟩

/-! ### Trees without prefixes -/

mutual
/-- Names without colon; only the default name space is declared. -/
def ncTree : XNode → Bool
  | .text _ => true
  | .elem n as ks => isNC n && n != "xmlns".toList && as.all (fun a => isNC a.1) && ncTrees ks
/-- The same for siblings. -/
def ncTrees : List XNode → Bool
  | [] => true
  | k :: ks => ncTree k && ncTrees ks
end

/-- The default name space inside an element. -/
def inner (D : Text) (as : List (Text × Text)) : Text :=
  ((as.filter fun a => a.1 = "xmlns".toList).getLast?.map (·.2)).getD D

/-- The attributes that are not declarations. -/
def ownAttrs (as : List (Text × Text)) : List (XName × Text) :=
  (as.filter fun a => a.1 ≠ "xmlns".toList).map fun a => (⟨[], a.1⟩, a.2)

/-- The character data. -/
def textOf : List XNode → Text
  | [] => []
  | .text s :: ks => s ++ textOf ks
  | _ :: ks => textOf ks

mutual
/-- What a tree without prefixes says, in a default name space. -/
def infoOf (D : Text) : XNode → Info
  | .text s => .elem ⟨[], []⟩ [] s []
  | .elem n as ks => .elem ⟨inner D as, n⟩ (ownAttrs as) (textOf ks) (infosOf (inner D as) ks)
/-- The same for the elements among siblings. -/
def infosOf (D : Text) : List XNode → List Info
  | [] => []
  | .text _ :: ks => infosOf D ks
  | .elem n as cs :: ks => infoOf D (.elem n as cs) :: infosOf D ks
end

theorem nc_noColon {n : Text} (h : isNC n = true) : ':' ∉ n := (ncName_noColon ((isNC_iff n).1 h)).1

theorem attrs_says (σ : Scope) (as : List (Text × Text)) (h : as.all (fun a => isNC a.1) = true) : AttrsSay σ as (ownAttrs as) := by
  induction as with
  | nil => exact .nil
  | cons a as ih =>
    simp only [List.all_cons, Bool.and_eq_true] at h
    obtain ⟨n, v⟩ := a
    by_cases hn : n = "xmlns".toList
    · have : ownAttrs ((n, v) :: as) = ownAttrs as := by simp [ownAttrs, hn]
      rw [this, hn]
      exact .decl (p := []) (Or.inl rfl) (ih h.2)
    · have : ownAttrs ((n, v) :: as) = (⟨[], n⟩, v) :: ownAttrs as := by
        unfold ownAttrs
        rw [List.filter_cons_of_pos (by simpa using hn), List.map_cons]
      rw [this]
      exact .attr (.default ((isNC_iff n).1 h.1) hn) (ih h.2)

theorem within_inner {σ : Scope} {D : Text} (hσ : (σ []).getD [] = D) (as : List (Text × Text)) :
    ((σ.within as) []).getD [] = inner D as := by
  unfold Scope.within inner
  simp only [declName, if_true]
  cases ((as.filter fun a => a.1 = "xmlns".toList).getLast?.map (·.2)) with
  | none => simpa using hσ
  | some v => rfl

mutual
theorem says_infoOf {σ : Scope} {D : Text} (hσ : (σ []).getD [] = D) (n : Text) (as : List (Text × Text)) (ks : List XNode)
    (h : ncTree (.elem n as ks) = true) : Says σ (.elem n as ks) (infoOf D (.elem n as ks)) := by
  simp only [ncTree, Bool.and_eq_true, bne_iff_ne] at h
  rw [infoOf, ← within_inner hσ as]
  exact .elem (.default ((isNC_iff n).1 h.1.1.1) h.1.1.2) (attrs_says _ as h.1.2) (kidsSay_infosOf rfl ks h.2)
theorem kidsSay_infosOf {σ : Scope} {D : Text} (hσ : (σ []).getD [] = D) (ks : List XNode) (h : ncTrees ks = true) :
    KidsSay σ ks (textOf ks) (infosOf D ks) := by
  match ks with
  | [] => exact .nil
  | .text s :: ks =>
    simp only [ncTrees, Bool.and_eq_true] at h
    exact .text (kidsSay_infosOf hσ ks h.2)
  | .elem n as cs :: ks =>
    simp only [ncTrees, Bool.and_eq_true] at h
    exact .elem (says_infoOf hσ n as cs h.1) (kidsSay_infosOf hσ ks h.2)
end

theorem isNC_isQ {n : Text} (h : isNC n = true) : isQ n = true := by simp [isQ, h]

mutual
theorem nc_qTree (x : XNode) (h : ncTree x = true) : qTree x = true := by
  match x with
  | .text s => rfl
  | .elem n as ks =>
    simp only [ncTree, Bool.and_eq_true] at h
    simp only [qTree, Bool.and_eq_true, isNC_isQ h.1.1.1, nc_qTrees ks h.2, and_true, true_and, List.all_eq_true]
    intro a ha
    exact isNC_isQ (List.all_eq_true.1 h.1.2 a ha)
theorem nc_qTrees (ks : List XNode) (h : ncTrees ks = true) : qTrees ks = true := by
  match ks with
  | [] => rfl
  | k :: ks =>
    simp only [ncTrees, Bool.and_eq_true] at h
    simp only [qTrees, nc_qTree k h.1, nc_qTrees ks h.2, Bool.and_self]
end

theorem nc_noDecl {n : Text} (h : isNC n = true) : "xmlns:".toList.isPrefixOf n = false := by
  by_contra hc
  simp only [Bool.not_eq_false, List.isPrefixOf_iff_prefix] at hc
  obtain ⟨r, rfl⟩ := hc
  exact nc_noColon h (by simp)

mutual
theorem nc_prefixes (x : XNode) (h : ncTree x = true) : prefixes x = [] := by
  match x with
  | .text s => rfl
  | .elem n as ks =>
    simp only [ncTree, Bool.and_eq_true, List.all_eq_true] at h
    rw [prefixes, nc_prefixesAll ks h.2, List.append_nil, List.map_eq_nil_iff, List.filter_eq_nil_iff]
    intro a ha
    rw [nc_noDecl (h.1.2 a ha)]
    simp
theorem nc_prefixesAll (ks : List XNode) (h : ncTrees ks = true) : prefixesAll ks = [] := by
  match ks with
  | [] => rfl
  | k :: ks =>
    simp only [ncTrees, Bool.and_eq_true] at h
    rw [prefixesAll, nc_prefixes k h.1, nc_prefixesAll ks h.2]; rfl
end

mutual
theorem nc_clean (x : XNode) : ncTree (cleanNode x) = ncTree x := by
  match x with
  | .text s => rfl
  | .elem n as ks => simp [cleanNode, ncTree, nc_cleans ks, List.all_map, Function.comp_def]
theorem nc_cleans (ks : List XNode) : ncTrees (cleanNodes ks) = ncTrees ks := by
  match ks with
  | [] => rfl
  | k :: ks => simp [cleanNodes, ncTrees, nc_clean k, nc_cleans ks]
end

theorem ncTrees_append (a b : List XNode) : ncTrees (a ++ b) = (ncTrees a && ncTrees b) := by
  induction a with
  | nil => rfl
  | cons k a ih => simp [ncTrees, ih, Bool.and_assoc]

theorem ncTrees_all {ks : List XNode} (h : ∀ k ∈ ks, ncTree k = true) : ncTrees ks = true := by
  induction ks with
  | nil => rfl
  | cons k ks ih => simp [ncTrees, h k (by simp), ih fun k hk => h k (by simp [hk])]

theorem infosOf_append (D : Text) (a b : List XNode) : infosOf D (a ++ b) = infosOf D a ++ infosOf D b := by
  induction a with
  | nil => rfl
  | cons k a ih => cases k <;> simp [infosOf, ih]

theorem textOf_append (a b : List XNode) : textOf (a ++ b) = textOf a ++ textOf b := by
  induction a with
  | nil => rfl
  | cons k a ih => cases k <;> simp [textOf, ih]

theorem infosOf_elems (D : Text) {ks : List XNode} (h : ∀ k ∈ ks, isElem k = true) : infosOf D ks = ks.map (infoOf D) ∧ textOf ks = [] := by
  induction ks with
  | nil => exact ⟨rfl, rfl⟩
  | cons k ks ih =>
    obtain ⟨h1, h2⟩ := ih fun k hk => h k (by simp [hk])
    cases k with
    | text s => exact absurd (h (.text s) (by simp)) (by simp [isElem])
    | elem n as cs => exact ⟨by simp [infosOf, h1], h2⟩

/-! ### Values -/

/-- The names of the fields are names. -/
def ncField (f : FieldInfo) : Bool :=
  match f.xmlKind with
  | .elem => isNC f.xml && f.xml != "xmlns".toList
  | .attr => isNC f.xml && f.xml != "xmlns".toList
  | _ => true

mutual
/-- In all structs; nested ones have no name of their own. -/
def ncTy : Ty → Bool
  | .ptr t => ncTy t && !optional t
  | .slice t => ncTy t && !many t
  | .struct info ts => info.xmlName.isNone && info.fields.all ncField && ncTys ts
  | _ => true
/-- The same for a list. -/
def ncTys : List Ty → Bool
  | [] => true
  | t :: ts => ncTy t && ncTys ts
end

theorem inner_mkElem {n : XName} {D : Text} (hD : cleanText D = D) (hs : n.space = [] ∨ n.space = D) {as : List (Text × Text)}
    (ha : ∀ a ∈ as, a.1 ≠ "xmlns".toList) (ks : List XNode) :
    infoOf D (cleanNode (mkElem n as ks)) = .elem ⟨D, n.loc⟩ (as.map fun a => (⟨[], a.1⟩, cleanText a.2)) (textOf (cleanNodes ks))
      (infosOf D (cleanNodes ks)) := by
  have h0 : (as.map fun a => (a.1, cleanText a.2)).filter (fun a => a.1 = "xmlns".toList) = [] := by
    rw [List.filter_eq_nil_iff]
    intro b hb
    rw [List.mem_map] at hb
    obtain ⟨a, h1, rfl⟩ := hb
    simpa using ha a h1
  have h1 : (as.map fun a => (a.1, cleanText a.2)).filter (fun a => a.1 ≠ "xmlns".toList) = as.map fun a => (a.1, cleanText a.2) := by
    rw [List.filter_eq_self]
    intro b hb
    rw [List.mem_map] at hb
    obtain ⟨a, h1, rfl⟩ := hb
    simpa using ha a h1
  unfold mkElem
  simp only [cleanNode, infoOf]
  have hin : inner D (((if n.space = [] then [] else [("xmlns".toList, n.space)]) ++ as).map fun a => (a.1, cleanText a.2)) = D := by
    unfold inner
    rw [List.map_append, List.filter_append, h0, List.append_nil]
    split
    · rfl
    · rcases hs with h | h
      · contradiction
      · simp [h, hD]
  have how : ownAttrs (((if n.space = [] then [] else [("xmlns".toList, n.space)]) ++ as).map fun a => (a.1, cleanText a.2)) =
      as.map fun a => (⟨[], a.1⟩, cleanText a.2) := by
    unfold ownAttrs
    rw [List.map_append, List.filter_append, h1]
    split <;> simp
  rw [hin, how]

theorem nc_mkElem {n : XName} (hn : isNC n.loc = true) (hx : n.loc ≠ "xmlns".toList) {as : List (Text × Text)}
    (ha : ∀ a ∈ as, isNC a.1 = true) {ks : List XNode} (hk : ncTrees ks = true) : ncTree (mkElem n as ks) = true := by
  unfold mkElem
  simp only [ncTree, hn, hk, Bool.and_true, Bool.true_and, Bool.and_eq_true, bne_iff_ne, List.all_append]
  refine ⟨hx, ?_, List.all_eq_true.2 ha⟩
  split
  · rfl
  · simp; decide

/-- What is known of the nodes of a field. -/
structure LaidNode (D : Text) (t : Ty) (n : XName) (k : XNode) : Prop where
  elem : isElem k = true
  nc : ncTree k = true
  name : (infoOf D (cleanNode k)).name = ⟨D, n.loc⟩
  laid : Laid D t (infoOf D (cleanNode k))

theorem laid_txt (D : Text) (s : Text) : ncTrees (txt s) = true ∧ infosOf D (cleanNodes (txt s)) = [] := by
  unfold txt
  split <;> exact ⟨rfl, rfl⟩

theorem laid_simple (G : FloatText) {t : Ty} (ht : simpleTy t = true) {n : XName} (hn : isNC n.loc = true) (hx : n.loc ≠ "xmlns".toList)
    {D : Text} (hD : cleanText D = D) (hs : n.space = [] ∨ n.space = D) {om : Bool} {v : Val} {ks : List XNode}
    (h : toXml G t n om v = .ok ks) : (∀ k ∈ ks, LaidNode D t n k) ∧ ks.length ≤ 1 ∧ (om = false → ks.length = 1) := by
  rw [toXml_simple G ht] at h
  split at h
  · rename_i ho
    simp only [GoRes.ok.injEq] at h
    subst h
    exact ⟨by simp, by simp, by simp [ho.1]⟩
  · rw [GoRes.bind_eq_ok] at h
    obtain ⟨s, -, h⟩ := h
    simp only [GoRes.ok.injEq] at h
    subst h
    refine ⟨?_, by simp, by simp⟩
    intro k hk
    simp only [List.mem_singleton] at hk
    subst hk
    obtain ⟨h1, h2⟩ := laid_txt D s
    have hi := inner_mkElem (n := n) hD hs (as := []) (by simp) (txt s)
    refine ⟨rfl, nc_mkElem hn hx (by simp) h1, by rw [hi]; rfl, ?_⟩
    rw [hi, h2]
    cases t <;> first | exact ⟨rfl, rfl⟩ | cases ht

theorem joinAll_eq_ok {α : Type} {x : GoRes (List α)} {xs : List (GoRes (List α))} {c : List α} :
    joinAll (x :: xs) = .ok c ↔ ∃ a b, x = .ok a ∧ joinAll xs = .ok b ∧ c = a ++ b := by
  rw [joinAll, GoRes.bind_eq_ok]
  constructor
  · rintro ⟨a, h1, h2⟩
    rw [GoRes.bind_eq_ok] at h2
    obtain ⟨b, h3, h4⟩ := h2
    simp only [GoRes.ok.injEq] at h4
    exact ⟨a, b, h1, h3, h4.symm⟩
  · rintro ⟨a, b, h1, h3, rfl⟩
    exact ⟨a, h1, GoRes.bind_eq_ok.2 ⟨b, h3, rfl⟩⟩

theorem fieldName_space {info : StructInfo} {D : Text} (h : ∀ x, info.xmlName = some x → x.1 = D) (f : FieldInfo) :
    (fieldName info f).space = [] ∨ (fieldName info f).space = D := by
  unfold fieldName
  simp only
  split
  · exact Or.inl rfl
  · cases hx : info.xmlName with
    | none => exact Or.inl rfl
    | some x => exact Or.inr (h x hx)

/-- What is known of the attributes and children of a struct. -/
structure LaidStruct (D : Text) (fs : List FieldInfo) (ts : List Ty) (as : List (Text × Text)) (ks : List XNode) : Prop where
  attrs : ∀ a ∈ as, isNC a.1 = true ∧ a.1 ≠ "xmlns".toList
  nc : ncTrees ks = true
  laid : LaidFields D fs ts (as.map fun a => (⟨[], a.1⟩, cleanText a.2)) (infosOf D (cleanNodes ks))
  data : (∀ f ∈ fs, f.xmlKind ≠ .chardata) → textOf (cleanNodes ks) = []

mutual
/-- Values are laid out. -/
theorem laid_ty (G : FloatText) (t : Ty) (ht : ncTy t = true) (hw : wfTy t = true) {n : XName} (hn : isNC n.loc = true) (hx : n.loc ≠ "xmlns".toList)
    {D : Text} (hD : cleanText D = D) (hs : n.space = [] ∨ n.space = D) {om : Bool} {v : Val} (hv : HasTy t v) {ks : List XNode}
    (h : toXml G t n om v = .ok ks) :
    (∀ k ∈ ks, LaidNode D t n k) ∧ (many t = false → ks.length ≤ 1) ∧ (om = false → optional t = false → ks.length = 1) := by
  match t with
  | .str => obtain ⟨h1, h2, h3⟩ := laid_simple G (t := .str) rfl hn hx hD hs h; exact ⟨h1, fun _ => h2, fun a _ => h3 a⟩
  | .int b => obtain ⟨h1, h2, h3⟩ := laid_simple G (t := .int b) rfl hn hx hD hs h; exact ⟨h1, fun _ => h2, fun a _ => h3 a⟩
  | .float => obtain ⟨h1, h2, h3⟩ := laid_simple G (t := .float) rfl hn hx hD hs h; exact ⟨h1, fun _ => h2, fun a _ => h3 a⟩
  | .bool => obtain ⟨h1, h2, h3⟩ := laid_simple G (t := .bool) rfl hn hx hD hs h; exact ⟨h1, fun _ => h2, fun a _ => h3 a⟩
  | .time => obtain ⟨h1, h2, h3⟩ := laid_simple G (t := .time) rfl hn hx hD hs h; exact ⟨h1, fun _ => h2, fun a _ => h3 a⟩
  | .ptr t =>
    simp only [ncTy, Bool.and_eq_true, Bool.not_eq_true'] at ht
    rw [wfTy] at hw
    match v with
    | .ptr v =>
      rw [toXml] at h
      obtain ⟨h1, h2, -⟩ := laid_ty G t ht.1 hw hn hx hD hs hv h
      refine ⟨fun k hk => ⟨(h1 k hk).elem, (h1 k hk).nc, (h1 k hk).name, ?_⟩, fun _ => h2 ?_, by simp [optional]⟩
      · rw [Laid]; exact (h1 k hk).laid
      · cases t <;> simp_all [optional, many]
    | .nil =>
      rw [toXml] at h
      simp only [GoRes.ok.injEq] at h
      subst h
      exact ⟨by simp, by simp, by simp [optional]⟩
    | .str _ => exact absurd hv (by simp [HasTy])
    | .int _ => exact absurd hv (by simp [HasTy])
    | .float _ => exact absurd hv (by simp [HasTy])
    | .bool _ => exact absurd hv (by simp [HasTy])
    | .time _ => exact absurd hv (by simp [HasTy])
    | .slice _ => exact absurd hv (by simp [HasTy])
    | .struct _ => exact absurd hv (by simp [HasTy])
  | .slice t =>
    simp only [ncTy, Bool.and_eq_true, Bool.not_eq_true'] at ht
    rw [wfTy] at hw
    match v with
    | .slice vs =>
      rw [toXml] at h
      have hv' : ∀ v ∈ vs, HasTy t v := hv
      have hall : ∀ (vs : List Val) (ks : List XNode), (∀ v ∈ vs, HasTy t v) → joinAll (vs.map (toXml G t n om)) = .ok ks →
          ∀ k ∈ ks, LaidNode D t n k := by
        intro vs
        induction vs with
        | nil => intro ks _ h; simp only [List.map_nil, joinAll, GoRes.ok.injEq] at h; subst h; simp
        | cons v vs ih =>
          intro ks hv h
          rw [List.map_cons, joinAll_eq_ok] at h
          obtain ⟨a, b, h1, h2, rfl⟩ := h
          intro k hk
          rcases List.mem_append.1 hk with hk | hk
          · exact (laid_ty G t ht.1 hw hn hx hD hs (hv v (by simp)) h1).1 k hk
          · exact ih b (fun v hm => hv v (by simp [hm])) h2 k hk
      have h1 := hall vs ks hv' h
      refine ⟨fun k hk => ⟨(h1 k hk).elem, (h1 k hk).nc, (h1 k hk).name, ?_⟩, by simp [many], by simp [optional]⟩
      rw [Laid]; exact (h1 k hk).laid
    | .nil =>
      rw [toXml] at h
      simp only [GoRes.ok.injEq] at h
      subst h
      exact ⟨by simp, by simp, by simp [optional]⟩
    | .str _ => exact absurd hv (by simp [HasTy])
    | .int _ => exact absurd hv (by simp [HasTy])
    | .float _ => exact absurd hv (by simp [HasTy])
    | .bool _ => exact absurd hv (by simp [HasTy])
    | .time _ => exact absurd hv (by simp [HasTy])
    | .ptr _ => exact absurd hv (by simp [HasTy])
    | .struct _ => exact absurd hv (by simp [HasTy])
  | .struct info ts =>
    simp only [ncTy, Bool.and_eq_true, Option.isNone_iff_eq_none] at ht
    simp only [wfTy, Bool.and_eq_true, beq_iff_eq] at hw
    match v with
    | .struct vs =>
      rw [toXml] at h
      simp only [GoRes.bind_eq_ok, GoRes.ok.injEq, ht.1.1] at h
      obtain ⟨as, h1, cs, h2, rfl⟩ := h
      have hst := laid_fields G info info.fields ts ht.1.2 ht.2 hw.2 hD (by simp [ht.1.1]) hv hw.1 h1 h2
      refine ⟨?_, by simp, by simp⟩
      intro k hk
      simp only [List.mem_singleton] at hk
      subst hk
      have hi := inner_mkElem (n := n) hD hs (fun a ha => (hst.attrs a ha).2) cs
      refine ⟨rfl, nc_mkElem hn hx (fun a ha => (hst.attrs a ha).1) hst.nc, by rw [hi]; rfl, ?_⟩
      rw [hi, Laid]
      exact ⟨hst.laid, hst.data⟩
    | .nil => exact absurd hv (by simp [HasTy])
    | .slice _ => exact absurd hv (by simp [HasTy])
    | .ptr _ => exact absurd hv (by simp [HasTy])
    | .str _ => exact absurd hv (by simp [HasTy])
    | .int _ => exact absurd hv (by simp [HasTy])
    | .float _ => exact absurd hv (by simp [HasTy])
    | .bool _ => exact absurd hv (by simp [HasTy])
    | .time _ => exact absurd hv (by simp [HasTy])
/-- And the fields of structs. -/
theorem laid_fields (G : FloatText) (info : StructInfo) (fs : List FieldInfo) (ts : List Ty) (hf : fs.all ncField = true)
    (ht : ncTys ts = true) (hw : wfTys ts = true) {D : Text} (hD : cleanText D = D) (hi : ∀ x, info.xmlName = some x → x.1 = D) {vs : List Val} (hv : HasTys ts vs)
    (hl : fs.length = ts.length)
    {as : List (Text × Text)} {ks : List XNode} (h1 : joinAll ((fs.zip vs).map fun x => attrOf G x.1 x.2) = .ok as)
    (h2 : joinAll ((fs.zip (vs.zip (toXmls G info fs ts vs))).map fun x => kidOf G x.1 x.2.1 x.2.2) = .ok ks) :
    LaidStruct D fs ts as ks := by
  match ts, fs, vs with
  | [], [], [] =>
    simp only [List.zip_nil_left, List.map_nil, joinAll, GoRes.ok.injEq] at h1 h2
    subst h1 h2
    exact ⟨by simp, rfl, ⟨rfl, rfl⟩, fun _ => rfl⟩
  | t :: ts, f :: fs, v :: vs =>
    simp only [List.all_cons, Bool.and_eq_true] at hf
    simp only [ncTys, Bool.and_eq_true] at ht
    simp only [wfTys, Bool.and_eq_true] at hw
    rw [List.zip_cons_cons, List.map_cons, joinAll_eq_ok] at h1
    rw [toXmls, List.zip_cons_cons, List.zip_cons_cons, List.map_cons, joinAll_eq_ok] at h2
    obtain ⟨a0, a1, h3, h4, rfl⟩ := h1
    obtain ⟨k0, k1, h5, h6, rfl⟩ := h2
    have ih := laid_fields G info fs ts hf.2 ht.2 hw.2 hD hi hv.2 (by simpa using hl) h4 h6
    cases hk : f.xmlKind with
    | elem =>
      have h0 : a0 = [] := by simpa [attrOf, hk] using h3.symm
      subst h0
      simp only [kidOf, hk] at h5
      simp only [ncField, hk, Bool.and_eq_true, bne_iff_ne] at hf
      obtain ⟨h7, h8, h9⟩ := laid_ty G t ht.1 hw.1 (n := fieldName info f) hf.1.1 hf.1.2 hD (fieldName_space hi f) hv.1 h5
      have hel := infosOf_elems D (ks := cleanNodes k0) (by
        intro k hk'
        rw [cleanNodes_eq_map, List.mem_map] at hk'
        obtain ⟨k', hk', rfl⟩ := hk'
        have := (h7 k' hk').elem
        cases k' <;> simp_all [isElem, cleanNode])
      refine ⟨by simpa using ih.attrs, by rw [ncTrees_append, ncTrees_all fun k hk => (h7 k hk).nc, ih.nc]; rfl, ?_, ?_⟩
      · rw [LaidFields]
        simp only [hk]
        refine ⟨infosOf D (cleanNodes k0), infosOf D (cleanNodes k1), by rw [cleanNodes_append, infosOf_append], ?_, ?_, ?_, by simpa using ih.laid⟩
        · intro i hi'
          rw [hel.1, cleanNodes_eq_map, List.map_map, List.mem_map] at hi'
          obtain ⟨k, hk', rfl⟩ := hi'
          exact ⟨(h7 k hk').name, (h7 k hk').laid⟩
        · intro hm; rw [hel.1, cleanNodes_eq_map]; simpa using h8 hm
        · intro ho hp; rw [hel.1, cleanNodes_eq_map]; simpa using h9 ho hp
      · intro hc
        rw [cleanNodes_append, textOf_append, hel.2, ih.data fun g hg => hc g (by simp [hg])]; rfl
    | attr =>
      have h0 : k0 = [] := by simpa [kidOf, hk] using h5.symm
      subst h0
      simp only [ncField, hk, Bool.and_eq_true, bne_iff_ne] at hf
      have ha : a0 = [] ∨ ∃ s, a0 = [(f.xml, s)] := by
        unfold attrOf at h3
        split at h3
        · rw [GoRes.bind_eq_ok] at h3
          obtain ⟨s, -, h3⟩ := h3
          simp only [GoRes.ok.injEq] at h3
          exact Or.inr ⟨s, h3.symm⟩
        · simp only [GoRes.ok.injEq] at h3
          exact Or.inl h3.symm
      refine ⟨?_, ih.nc, ?_, fun hc => ih.data fun g hg => hc g (by simp [hg])⟩
      · intro a hm
        rcases List.mem_append.1 hm with hm | hm
        · rcases ha with rfl | ⟨s, rfl⟩
          · cases hm
          · simp only [List.mem_singleton] at hm; subst hm; exact hf.1
        · exact ih.attrs a hm
      · rw [LaidFields]
        simp only [hk]
        refine ⟨a0.map fun a => (⟨[], a.1⟩, cleanText a.2), a1.map fun a => (⟨[], a.1⟩, cleanText a.2), by simp, ?_, ?_, ih.laid⟩
        · rcases ha with rfl | ⟨s, rfl⟩ <;> simp
        · rcases ha with rfl | ⟨s, rfl⟩ <;> simp
    | chardata =>
      have h0 : a0 = [] := by simpa [attrOf, hk] using h3.symm
      subst h0
      simp only [kidOf, hk, GoRes.bind_eq_ok, GoRes.ok.injEq] at h5
      obtain ⟨s, -, rfl⟩ := h5
      obtain ⟨h7, h8⟩ := laid_txt D s
      refine ⟨by simpa using ih.attrs, by rw [ncTrees_append, h7, ih.nc]; rfl, ?_, fun hc => absurd hk (hc f (by simp))⟩
      rw [LaidFields]
      simp only [hk]
      rw [cleanNodes_append, infosOf_append, h8]
      simpa using ih.laid
    | skip =>
      have h0 : a0 = [] := by simpa [attrOf, hk] using h3.symm
      have h0' : k0 = [] := by simpa [kidOf, hk] using h5.symm
      subst h0 h0'
      refine ⟨by simpa using ih.attrs, ih.nc, ?_, fun hc => ih.data fun g hg => hc g (by simp [hg])⟩
      rw [LaidFields]
      simp only [hk]
      simpa using ih.laid
  | [], _ :: _, _ => simp at hl
  | _ :: _, [], _ => simp at hl
  | [], [], _ :: _ => cases hv
  | _ :: _, _ :: _, [] => cases hv
end

end Verif.Xml
