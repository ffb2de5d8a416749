import Verif.Spec.XmlText
/-!
# XML documents

The grammar of XML 1.0 (with the productions' numbers), for documents in UTF-8 without a document type declaration (SOAP forbids
one), with ASCII names with at most one colon, no literal line ends or tabs in attribute values and no carriage returns in CDATA
sections.  `Document t n` says that `t` is a document and `n` its tree.
-/
namespace Verif.Xml

/-- S (3), or nothing. -/
def Space (t : Text) : Prop := ∀ c ∈ t, c = ' ' ∨ c = '\t' ∨ c = '\r' ∨ c = '\n'

/-- ASCII letters and the underscore. -/
def Letter (c : Char) : Prop := c.isAlpha = true ∨ c = '_'

/-- NCName of "Namespaces in XML" (4), ASCII only. -/
def NCName (n : Text) : Prop :=
  ∃ c r, n = c :: r ∧ Letter c ∧ ∀ d ∈ r, Letter d ∨ d.isDigit = true ∨ d = '.' ∨ d = '-'

/-- QName of "Namespaces in XML" (7). -/
def QName (n : Text) : Prop := NCName n ∨ ∃ p l, NCName p ∧ NCName l ∧ n = p ++ ':' :: l

/-- A digit with its value. -/
def HexDigit (c : Char) (v : Nat) : Prop :=
  "0123456789abcdef".toList[v]? = some c ∨ "0123456789ABCDEF".toList[v]? = some c

/-- A numeral in a base with its value. -/
def Numeral (base : Nat) (t : Text) (n : Nat) : Prop :=
  t ≠ [] ∧ ∃ vs, List.Forall₂ (fun c v => v < base ∧ HexDigit c v) t vs ∧ n = vs.foldl (fun a v => a * base + v) 0

/-- What stands between `&` and `;` in a reference to a character (66, 68). -/
inductive Ref : Text → Char → Prop where
  | lt : Ref "lt".toList '<'
  | gt : Ref "gt".toList '>'
  | amp : Ref "amp".toList '&'
  | apos : Ref "apos".toList '\''
  | quot : Ref "quot".toList '"'
  | dec {t : Text} {c : Char} : Numeral 10 t c.toNat → IsXmlChar c → Ref ('#' :: t) c
  | hex {t : Text} {c : Char} : Numeral 16 t c.toNat → IsXmlChar c → Ref ('#' :: 'x' :: t) c

/-- Character data with references (14, 67), and the text it stands for: line ends are a line feed each (2.11). -/
inductive CharData : Text → Text → Prop where
  | nil : CharData [] []
  | char {c t u} : IsXmlChar c → c ≠ '<' → c ≠ '&' → c ≠ '\r' → CharData t u → CharData (c :: t) (c :: u)
  | crlf {t u} : CharData t u → CharData ('\r' :: '\n' :: t) ('\n' :: u)
  | cr {t u} : t.head? ≠ some '\n' → CharData t u → CharData ('\r' :: t) ('\n' :: u)
  | ref {e c t u} : Ref e c → CharData t u → CharData ('&' :: (e ++ ';' :: t)) (c :: u)

/-- An attribute value (10) between quotes `q`. -/
inductive AttValue (q : Char) : Text → Text → Prop where
  | nil : AttValue q [] []
  | char {c t u} : IsXmlChar c → c ≠ '<' → c ≠ '&' → c ≠ q → c ≠ '\t' → c ≠ '\n' → c ≠ '\r' → AttValue q t u → AttValue q (c :: t) (c :: u)
  | ref {e c t u} : Ref e c → AttValue q t u → AttValue q ('&' :: (e ++ ';' :: t)) (c :: u)

/-- Attributes (41), each after white space. -/
inductive Attrs : Text → List (Text × Text) → Prop where
  | nil : Attrs [] []
  | cons {sp n sp1 sp2 q raw v t as} : sp ≠ [] → Space sp → QName n → Space sp1 → Space sp2 → q = '"' ∨ q = '\'' →
      AttValue q raw v → Attrs t as →
      Attrs (sp ++ (n ++ (sp1 ++ '=' :: (sp2 ++ q :: (raw ++ q :: t))))) ((n, v) :: as)

/-- A comment (15). -/
def Comment (t : Text) : Prop :=
  ∃ c, t = "<!--".toList ++ (c ++ "-->".toList) ∧ (∀ x ∈ c, IsXmlChar x) ∧ ¬ "--".toList <:+: c ++ ['-']

/-- A processing instruction (16); its name is not `xml`. -/
def PI (t : Text) : Prop :=
  ∃ n d, t = "<?".toList ++ (n ++ (d ++ "?>".toList)) ∧ NCName n ∧ n.map Char.toLower ≠ "xml".toList ∧
    (d = [] ∨ ∃ c r, d = c :: r ∧ Space [c]) ∧ (∀ x ∈ d, IsXmlChar x) ∧ ¬ "?>".toList <:+: d

mutual
/-- An element (39) and its tree. -/
inductive Element : Text → XNode → Prop where
  | full {n at_ as sp raw ks sp'} : QName n → Attrs at_ as → Space sp → Content raw ks → Space sp' →
      Element ('<' :: (n ++ (at_ ++ (sp ++ '>' :: (raw ++ '<' :: '/' :: (n ++ (sp' ++ ['>']))))))) (.elem n as ks)
  | empty {n at_ as sp} : QName n → Attrs at_ as → Space sp →
      Element ('<' :: (n ++ (at_ ++ (sp ++ ['/', '>'])))) (.elem n as [])
/-- The content of an element (43). -/
inductive Content : Text → List XNode → Prop where
  | nil : Content [] []
  | text {raw s t ks} : raw ≠ [] → CharData raw s → ¬ "]]>".toList <:+: raw → t = [] ∨ t.head? = some '<' → Content t ks →
      Content (raw ++ t) (.text s :: ks)
  | cdata {s t ks} : (∀ c ∈ s, IsXmlChar c ∧ c ≠ '\r') → ¬ "]]>".toList <:+: s → Content t ks →
      Content ("<![CDATA[".toList ++ (s ++ ("]]>".toList ++ t))) (.text s :: ks)
  | comment {c t ks} : Comment c → Content t ks → Content (c ++ t) ks
  | pi {p t ks} : PI p → Content t ks → Content (p ++ t) ks
  | elem {e n t ks} : Element e n → Content t ks → Content (e ++ t) (n :: ks)
end

/-- What may stand around the root element (27). -/
inductive Misc : Text → Prop where
  | nil : Misc []
  | space {sp t} : sp ≠ [] → Space sp → t = [] ∨ t.head? = some '<' → Misc t → Misc (sp ++ t)
  | comment {c t} : Comment c → Misc t → Misc (c ++ t)
  | pi {p t} : PI p → Misc t → Misc (p ++ t)

/-- A text in quotes of either kind. -/
def Quoted (v t : Text) : Prop := t = '"' :: (v ++ ['"']) ∨ t = '\'' :: (v ++ ['\''])

/-- The XML declaration (23) of version 1.0 in UTF-8. -/
def Decl (t : Text) : Prop :=
  ∃ sp v enc sa sp', t = "<?xml".toList ++ (sp ++ ("version=".toList ++ (v ++ (enc ++ (sa ++ (sp' ++ "?>".toList)))))) ∧
    sp ≠ [] ∧ Space sp ∧ Quoted "1.0".toList v ∧
    (enc = [] ∨ ∃ s e q, enc = s ++ ("encoding=".toList ++ q) ∧ s ≠ [] ∧ Space s ∧ Quoted e q ∧ e.map Char.toLower = "utf-8".toList) ∧
    (sa = [] ∨ ∃ s e q, sa = s ++ ("standalone=".toList ++ q) ∧ s ≠ [] ∧ Space s ∧ Quoted e q ∧ (e = "yes".toList ∨ e = "no".toList)) ∧
    Space sp'

/-- A document (1) and the tree of its root element; it may begin with a byte order mark. -/
def Document (t : Text) (n : XNode) : Prop :=
  ∃ bom decl misc root rest, t = bom ++ (decl ++ (misc ++ (root ++ rest))) ∧ (bom = [] ∨ bom = ['\uFEFF']) ∧
    (decl = [] ∨ Decl decl) ∧ Misc misc ∧ Element root n ∧ Misc rest

end Verif.Xml
