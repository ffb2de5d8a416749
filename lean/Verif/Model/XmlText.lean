import Verif.Model.Xml
/-!
# encoding/xml: the text of trees

Models the printer of `xml.Marshal` (marshal.go `writeStart`, `writeEnd`; xml.go `EscapeText`) and the
decoder of `xml.Unmarshal` in its default strict mode (xml.go `rawToken`, `text`, `Token`), used at
soap/marshal.go:16, 30 and soap/client.go:58-62.

Simplifications.  A name may contain any character beyond ASCII (Go has tables of letters).  Comments
inside a directive (`<!DOCTYPE …>`) are not looked for separately.  Entities are those every parser knows
and numeric ones: the decoder's `Entity` map is nil.
-/
namespace Verif.Xml

/-! ### Writing -/

/-- xml.go `isInCharacterRange`. -/
def inRange (c : Char) : Bool :=
  c.toNat == 0x9 || c.toNat == 0xA || c.toNat == 0xD || (0x20 ≤ c.toNat && c.toNat ≤ 0xD7FF) ||
  (0xE000 ≤ c.toNat && c.toNat ≤ 0xFFFD) || (0x10000 ≤ c.toNat && c.toNat ≤ 0x10FFFF)

/-- xml.go `escapeText` on one character. -/
def escape (c : Char) : Text :=
  if c = '"' then "&#34;".toList
  else if c = '\'' then "&#39;".toList
  else if c = '&' then "&amp;".toList
  else if c = '<' then "&lt;".toList
  else if c = '>' then "&gt;".toList
  else if c = '\t' then "&#x9;".toList
  else if c = '\n' then "&#xA;".toList
  else if c = '\r' then "&#xD;".toList
  else if inRange c then [c]
  else ['\uFFFD']

/-- An attribute in a start tag (marshal.go `writeStart`). -/
def printAttr (a : Text × Text) : Text := ' ' :: (a.1 ++ '=' :: '"' :: (a.2.flatMap escape ++ ['"']))

mutual
/-- The text of a tree: elements are never written in the short form. -/
def print : XNode → Text
  | .text s => s.flatMap escape
  | .elem n as ks =>
    '<' :: (n ++ (as.flatMap printAttr ++ '>' :: (prints ks ++ '<' :: '/' :: (n ++ ['>']))))
/-- The text of siblings. -/
def prints : List XNode → Text
  | [] => []
  | k :: ks => print k ++ prints ks
end

/-! ### Reading -/

/-- Hexadecimal digit value. -/
def hexVal (c : Char) : Option Nat :=
  if '0' ≤ c ∧ c ≤ '9' then some (c.toNat - '0'.toNat)
  else if 'a' ≤ c ∧ c ≤ 'f' then some (c.toNat - 'a'.toNat + 10)
  else if 'A' ≤ c ∧ c ≤ 'F' then some (c.toNat - 'A'.toNat + 10)
  else none

/-- Number in a base at most 16 (`strconv.ParseUint`, without the 64 bit limit: what exceeds it exceeds
`unicode.MaxRune`, too). -/
def number (base acc : Nat) : Text → Option Nat
  | [] => some acc
  | c :: t =>
    match hexVal c with
    | some d => if d < base then number base (acc * base + d) t else none
    | none => none

/-- `string(rune(n))`; surrogates become U+FFFD. -/
def runeOf (n : Nat) : Char := if h : n.isValidChar then Char.ofNatAux n h else '\uFFFD'

/-- The character an entity (the text between `&` and `;`) stands for (xml.go `text`). -/
def entity (t : Text) : Option Char :=
  if t = "lt".toList then some '<'
  else if t = "gt".toList then some '>'
  else if t = "amp".toList then some '&'
  else if t = "apos".toList then some '\''
  else if t = "quot".toList then some '"'
  else
    match t with
    | '#' :: 'x' :: c :: u =>
      match number 16 0 (c :: u) with
      | some n => if n ≤ 0x10FFFF then some (runeOf n) else none
      | none => none
    | '#' :: c :: u =>
      match number 10 0 (c :: u) with
      | some n => if n ≤ 0x10FFFF then some (runeOf n) else none
      | none => none
    | _ => none

/-- State of the text reader: the last two characters, or the entity read so far, backwards. -/
inductive TextMode where
  | plain (b0 b1 : Option Char)
  | ent (acc : Text)

/-- xml.go `text`: character data up to `<` (no quote), an attribute value up to its quote, or a CDATA
section up to `]]>`; `acc` is what has been read, backwards.  (An entity is collected up to the next `;`
before it is looked up; Go stops at the first character that cannot belong to one, which is the same
error.) -/
def readText (quote : Option Char) (cdata : Bool) : Text → TextMode → Text → Option (Text × Text)
  | acc, .plain _ _, [] => if cdata then none else some (acc.reverse, [])
  | _, .ent _, [] => none
  | acc, .plain b0 b1, c :: t =>
    if quote = none ∧ b0 = some ']' ∧ b1 = some ']' ∧ c = '>' then
      if cdata then some ((acc.drop 2).reverse, t) else none
    else if c = '<' ∧ cdata = false then
      if quote = none then some (acc.reverse, c :: t) else none
    else if quote = some c then some (acc.reverse, t)
    else if c = '&' ∧ cdata = false then readText quote cdata acc (.ent []) t
    else if c = '\r' then readText quote cdata ('\n' :: acc) (.plain b1 (some c)) t
    else if b1 = some '\r' ∧ c = '\n' then readText quote cdata acc (.plain b1 (some c)) t
    else readText quote cdata (c :: acc) (.plain b1 (some c)) t
  | acc, .ent e, c :: t =>
    if c = ';' then
      match entity e.reverse with
      | some x => readText quote cdata (x :: acc) (.plain none none) t
      | none => none
    else readText quote cdata acc (.ent (c :: e)) t

/-- Text whose characters are all allowed. -/
def textData (quote : Option Char) (cdata : Bool) (t : Text) : Option (Text × Text) :=
  match readText quote cdata [] (.plain none none) t with
  | some (s, r) => if s.all inRange then some (s, r) else none
  | none => none

/-- xml.go `isNameByte`, and any character beyond ASCII. -/
def nameChar (c : Char) : Bool := c.isAlphanum || c == '_' || c == ':' || c == '.' || c == '-' || 0x80 ≤ c.toNat

/-- Characters a name can start with. -/
def nameStart (c : Char) : Bool := c.isAlpha || c == '_' || c == ':' || 0x80 ≤ c.toNat

/-- xml.go `name`. -/
def readName (t : Text) : Option (Text × Text) :=
  match t.takeWhile nameChar with
  | [] => none
  | c :: n => if nameStart c then some (c :: n, t.dropWhile nameChar) else none

/-- xml.go `nsname`: at most one colon. -/
def readNsName (t : Text) : Option (Text × Text) :=
  match readName t with
  | some (n, r) => if n.count ':' ≤ 1 then some (n, r) else none
  | none => none

/-- xml.go `space`. -/
def skipSpace (t : Text) : Text := t.dropWhile fun c => c == ' ' || c == '\r' || c == '\n' || c == '\t'

/-- Attributes and the end of a start tag; the flag is the short form `/>` (xml.go `rawToken`). -/
def readAttrs (t : Text) : Option (List (Text × Text) × Bool × Text) :=
  match skipSpace t with
  | '>' :: r => some ([], false, r)
  | '/' :: '>' :: r => some ([], true, r)
  | '/' :: _ => none
  | u =>
    match readNsName u with
    | none => none
    | some (n, v) =>
      match skipSpace v with
      | '=' :: w =>
        match skipSpace w with
        | q :: x =>
          if q = '"' ∨ q = '\'' then
            match textData (some q) false x with
            | none => none
            | some (s, y) =>
              if y.length < t.length then
                match readAttrs y with
                | some (as, e, r) => some ((n, s) :: as, e, r)
                | none => none
              else none
          else none
        | [] => none
      | _ => none
termination_by t.length

/-- Up to and including `?>`. -/
def readPI : Text → Option (Text × Text)
  | '?' :: '>' :: r => some ([], r)
  | c :: r => (readPI r).map fun p => (c :: p.1, p.2)
  | [] => none

/-- xml.go `procInst`: the quoted value of a parameter of the XML declaration, empty if there is none;
`p` includes the equals sign. -/
def procInst (p : Text) : Text → Text
  | [] => []
  | c :: r =>
    if p.isPrefixOf (c :: r) = true ∧ p ≠ [] then
      match (c :: r).drop p.length with
      | [] => []
      | q :: u =>
        if q = '"' ∨ q = '\'' then
          if q ∈ u then u.takeWhile (· ≠ q) else []
        else procInst p (r.drop p.length)
    else procInst p r
termination_by t => t.length
decreasing_by all_goals (simp only [List.length_drop, List.length_cons]; omega)

/-- The XML declaration must not ask for another version or encoding (xml.go `rawToken`). -/
def declOk (data : Text) : Bool :=
  let v := procInst "version=".toList data
  let e := procInst "encoding=".toList data
  (v == [] || v == "1.0".toList) && (e == [] || e.map Char.toLower == "utf-8".toList)

/-- Rest after a comment, whose text must not contain `--`; the text begins after `<!--`. -/
def readComment : Text → Option Text
  | '-' :: '-' :: '>' :: r => some r
  | '-' :: '-' :: _ => none
  | _ :: r => readComment r
  | [] => none

/-- Rest after a directive (quoted angle brackets do not count). -/
def readDirective (inquote : Option Char) (depth : Nat) : Text → Option Text
  | [] => none
  | c :: r =>
    if inquote = none ∧ c = '>' ∧ depth = 0 then some r
    else if inquote = some c then readDirective none depth r
    else if inquote ≠ none then readDirective inquote depth r
    else if c = '\'' ∨ c = '"' then readDirective (some c) depth r
    else if c = '>' then readDirective none (depth - 1) r
    else if c = '<' then readDirective none (depth + 1) r
    else readDirective none depth r

/-- Tokens (xml.go `Token`). -/
inductive Tok where
  | start (name : Text) (attrs : List (Text × Text)) (empty : Bool)
  | close (name : Text)
  | data (s : Text)
  /-- processing instruction, comment or directive -/
  | other

/-- xml.go `rawToken`; `none` is a syntax error or the end of the text. -/
def rawToken (t : Text) : Option (Tok × Text) :=
  match t with
  | [] => none
  | '<' :: '/' :: u =>
    match readNsName u with
    | some (n, v) =>
      match skipSpace v with
      | '>' :: r => some (.close n, r)
      | _ => none
    | none => none
  | '<' :: '?' :: u =>
    match readName u with
    | some (n, v) =>
      match readPI (skipSpace v) with
      | some (d, r) => if n = "xml".toList ∧ declOk d = false then none else some (.other, r)
      | none => none
    | none => none
  | '<' :: '!' :: '-' :: u =>
    match u with
    | '-' :: v => (readComment v).map fun r => (.other, r)
    | _ => none
  | '<' :: '!' :: '[' :: u =>
    if "CDATA[".toList.isPrefixOf u then
      (textData none true (u.drop 6)).map fun p => (.data p.1, p.2)
    else none
  | '<' :: '!' :: u =>
    match u with
    | _ :: v => (readDirective none 0 v).map fun r => (.other, r)
    | [] => none
  | '<' :: u =>
    match readNsName u with
    | some (n, v) =>
      match readAttrs v with
      | some (as, e, r) => some (.start n as e, r)
      | none => none
    | none => none
  | t => (textData none false t).map fun p => (.data p.1, p.2)

/-- An element whose end tag has not been seen: name, attributes, children so far, backwards. -/
structure Open where
  name : Text
  attrs : List (Text × Text)
  kids : List XNode

/-- A complete child for the innermost open element; without one it is the root. -/
def addKid (st : List Open) (k : XNode) : List Open ⊕ XNode :=
  match st with
  | [] => .inr k
  | o :: os => .inl ({ o with kids := k :: o.kids } :: os)

/-- The effect of a token (xml.go `Token`, `pushElement`, `popElement`): the root, or the elements that are
open then; `none` is a syntax error.  Character data outside the root is skipped. -/
def onToken (st : List Open) : Tok → Option (List Open ⊕ XNode)
  | .start n as e => if e then some (addKid st (.elem n as [])) else some (.inl (⟨n, as, []⟩ :: st))
  | .close n =>
    match st with
    | [] => none
    | o :: os => if o.name = n then some (addKid os (.elem o.name o.attrs o.kids.reverse)) else none
  | .data s =>
    match st with
    | [] => some (.inl [])
    | o :: os => some (.inl ({ o with kids := .text s :: o.kids } :: os))
  | .other => some (.inl st)

/-- Tokens until the root element is complete. -/
def readTree (st : List Open) (t : Text) : Option XNode :=
  match rawToken t with
  | none => none
  | some (k, r) =>
    match onToken st k with
    | none => none
    | some (.inr n) => some n
    | some (.inl st') => if r.length < t.length then readTree st' r else none
termination_by t.length

/-- The root element of a document, as `xml.Unmarshal` sees it; `none` is an error. -/
def parseXml (t : Text) : Option XNode := readTree [] t

end Verif.Xml
