import Verif.Spec.XmlDoc
/-!
# Texts that are XML at least loosely

The grammar of XML 1.0 with liberties: names may have any characters beyond ASCII, white space between attributes may be missing,
attributes may be repeated, a document type declaration is whatever has balanced angle brackets, before the root element there may be
character data, and after it anything.  What stays is what makes a document safe to read: quoted attribute values, no bare `<` or `&`,
known references, characters of XML only, elements that nest, and an end tag with the name of its start tag for each of them.
`LooseDocument t n` says that `t` is such a document and `n` its tree.
-/
namespace Verif.Xml

/-- A character a name can begin with. -/
def NameStart (c : Char) : Prop := Letter c ∨ c = ':' ∨ 0x80 ≤ c.toNat

/-- A character of a name. -/
def NameChar (c : Char) : Prop := NameStart c ∨ c.isDigit = true ∨ c = '.' ∨ c = '-'

/-- A name. -/
def LooseName (n : Text) : Prop := ∃ c r, n = c :: r ∧ NameStart c ∧ ∀ d ∈ r, NameChar d

/-- A name of an element or attribute. -/
def LooseQName (n : Text) : Prop := LooseName n ∧ n.count ':' ≤ 1

/-- What follows does not go on with the name. -/
def NameEnds (t : Text) : Prop := ∀ c r, t = c :: r → ¬ NameChar c

/-- The character with a number; a surrogate is read as U+FFFD. -/
def Numbered (k : Nat) (c : Char) : Prop := c.toNat = k ∨ 0xD800 ≤ k ∧ k ≤ 0xDFFF ∧ c = '\uFFFD'

/-- What stands between `&` and `;` in a reference to a character. -/
inductive LooseRef : Text → Char → Prop where
  | lt : LooseRef "lt".toList '<'
  | gt : LooseRef "gt".toList '>'
  | amp : LooseRef "amp".toList '&'
  | apos : LooseRef "apos".toList '\''
  | quot : LooseRef "quot".toList '"'
  | dec {t : Text} {k : Nat} {c : Char} : Numeral 10 t k → Numbered k c → IsXmlChar c → LooseRef ('#' :: t) c
  | hex {t : Text} {k : Nat} {c : Char} : Numeral 16 t k → Numbered k c → IsXmlChar c → LooseRef ('#' :: 'x' :: t) c

/-- Characters with references (without the quote `q`, if there is one), and the text they stand for. -/
inductive LooseChars (q : Option Char) : Text → Text → Prop where
  | nil : LooseChars q [] []
  | char {c t u} : IsXmlChar c → c ≠ '<' → c ≠ '&' → c ≠ '\r' → q ≠ some c → LooseChars q t u → LooseChars q (c :: t) (c :: u)
  | crlf {t u} : LooseChars q t u → LooseChars q ('\r' :: '\n' :: t) ('\n' :: u)
  | cr {t u} : t.head? ≠ some '\n' → LooseChars q t u → LooseChars q ('\r' :: t) ('\n' :: u)
  | ref {e c t u} : LooseRef e c → LooseChars q t u → LooseChars q ('&' :: (e ++ ';' :: t)) (c :: u)

/-- Verbatim text (of a CDATA section): only line ends are read as a line feed each. -/
inductive Verbatim : Text → Text → Prop where
  | nil : Verbatim [] []
  | char {c t u} : IsXmlChar c → c ≠ '\r' → Verbatim t u → Verbatim (c :: t) (c :: u)
  | crlf {t u} : Verbatim t u → Verbatim ('\r' :: '\n' :: t) ('\n' :: u)
  | cr {t u} : t.head? ≠ some '\n' → Verbatim t u → Verbatim ('\r' :: t) ('\n' :: u)

/-- Attributes; white space before them may be missing. -/
inductive LooseAttrs : Text → List (Text × Text) → Prop where
  | nil : LooseAttrs [] []
  | cons {sp n sp1 sp2 q raw v t as} : Space sp → LooseQName n → Space sp1 → Space sp2 → q = '"' ∨ q = '\'' →
      LooseChars (some q) raw v → LooseAttrs t as →
      LooseAttrs (sp ++ (n ++ (sp1 ++ '=' :: (sp2 ++ q :: (raw ++ q :: t))))) ((n, v) :: as)

/-- A comment, with any characters. -/
def LooseComment (t : Text) : Prop := ∃ c, t = "<!--".toList ++ (c ++ "-->".toList) ∧ ¬ "--".toList <:+: c ++ ['-']

/-- What the data of an XML declaration have for the parameter `p` (the equals sign included): the text in quotes right after the
first `p` that has a quote after it; nothing if there is none. -/
inductive Param (p : Text) : Text → Text → Prop where
  | absent {d} : ¬ p <:+: d → Param p d []
  | quoted {pre q v r} : ¬ p <:+: pre ++ p.dropLast → q = '"' ∨ q = '\'' → q ∉ v → Param p (pre ++ (p ++ q :: (v ++ q :: r))) v
  | unclosed {pre q r} : ¬ p <:+: pre ++ p.dropLast → q = '"' ∨ q = '\'' → q ∉ r → Param p (pre ++ (p ++ q :: r)) []
  | last {pre} : ¬ p <:+: pre ++ p.dropLast → Param p (pre ++ p) []
  | other {pre c r v} : ¬ p <:+: pre ++ p.dropLast → c ≠ '"' → c ≠ '\'' → Param p r v → Param p (pre ++ (p ++ c :: r)) v

/-- A processing instruction; the XML declaration must not ask for a version other than 1.0 or an encoding other than UTF-8. -/
def LoosePI (t : Text) : Prop :=
  ∃ n d, t = "<?".toList ++ (n ++ (d ++ "?>".toList)) ∧ LooseName n ∧ ¬ "?>".toList <:+: d ∧ NameEnds (d ++ ['?']) ∧
    (n = "xml".toList → (∃ v, Param "version=".toList d v ∧ (v = [] ∨ v = "1.0".toList)) ∧
      ∃ e, Param "encoding=".toList d e ∧ (e = [] ∨ e.map Char.toLower = "utf-8".toList))

/-- The inside of a document type declaration or the like: quotes are closed, and so are angle brackets outside of them. -/
inductive Inside : Text → Prop where
  | nil : Inside []
  | char {c t} : c ≠ '<' → c ≠ '>' → c ≠ '"' → c ≠ '\'' → Inside t → Inside (c :: t)
  | quoted {q s t} : q = '"' ∨ q = '\'' → q ∉ s → Inside t → Inside (q :: (s ++ q :: t))
  | angle {s t} : Inside s → Inside t → Inside ('<' :: (s ++ '>' :: t))

/-- A document type declaration or the like. -/
def Directive (t : Text) : Prop :=
  ∃ c d, t = '<' :: '!' :: c :: (d ++ ['>']) ∧ c ≠ '-' ∧ c ≠ '[' ∧ Inside d

/-- What is skipped. -/
def Skipped (t : Text) : Prop := LooseComment t ∨ LoosePI t ∨ Directive t

/-- Character data with references, up to the next tag or the end. -/
def LooseText (raw s t : Text) : Prop :=
  raw ≠ [] ∧ LooseChars none raw s ∧ ¬ "]]>".toList <:+: raw ∧ (t = [] ∨ t.head? = some '<')

/-- A CDATA section. -/
def LooseCData (t s : Text) : Prop :=
  ∃ raw, t = "<![CDATA[".toList ++ (raw ++ "]]>".toList) ∧ Verbatim raw s ∧ ¬ "]]>".toList <:+: raw

mutual
/-- An element and its tree: the end tag has the name of the start tag. -/
inductive LooseElement : Text → XNode → Prop where
  | full {n at_ as sp raw ks sp'} : LooseQName n → LooseAttrs at_ as → Space sp → NameEnds (at_ ++ sp) → LooseContent raw ks → Space sp' →
      LooseElement ('<' :: (n ++ (at_ ++ (sp ++ '>' :: (raw ++ '<' :: '/' :: (n ++ (sp' ++ ['>']))))))) (.elem n as ks)
  | empty {n at_ as sp} : LooseQName n → LooseAttrs at_ as → Space sp → NameEnds (at_ ++ sp) →
      LooseElement ('<' :: (n ++ (at_ ++ (sp ++ ['/', '>'])))) (.elem n as [])
/-- The content of an element. -/
inductive LooseContent : Text → List XNode → Prop where
  | nil : LooseContent [] []
  | text {raw s t ks} : LooseText raw s t → LooseContent t ks → LooseContent (raw ++ t) (.text s :: ks)
  | cdata {raw s t ks} : LooseCData raw s → LooseContent t ks → LooseContent (raw ++ t) (.text s :: ks)
  | skipped {raw t ks} : Skipped raw → LooseContent t ks → LooseContent (raw ++ t) ks
  | elem {e n t ks} : LooseElement e n → LooseContent t ks → LooseContent (e ++ t) (n :: ks)
end

/-- What may stand before the root element: character data is skipped, too. -/
inductive LooseMisc : Text → Prop where
  | nil : LooseMisc []
  | text {raw s t} : LooseText raw s t → LooseMisc t → LooseMisc (raw ++ t)
  | cdata {raw s t} : LooseCData raw s → LooseMisc t → LooseMisc (raw ++ t)
  | skipped {raw t} : Skipped raw → LooseMisc t → LooseMisc (raw ++ t)

/-- A document and the tree of its root element. -/
def LooseDocument (t : Text) (n : XNode) : Prop :=
  ∃ misc root rest, t = misc ++ (root ++ rest) ∧ LooseMisc misc ∧ LooseElement root n

end Verif.Xml
