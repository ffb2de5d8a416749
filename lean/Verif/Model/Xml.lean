import Verif.Model.Messages
import Verif.Model.Ocppj
/-!
# encoding/xml: structs and trees

Models `xml.Marshal` / `xml.Unmarshal` (used at soap/marshal.go:16, 30 and soap/client.go:58-62) between
Go values of the message types and XML trees.  `Verif.Model.XmlText` has the text of trees.

Simplifications.
* `XMLName` fields (which `Unmarshal` fills with the name found) are left out of values; the tag decides
  the name that is written whatever the field holds (marshal.go `marshalValue`).
* The depth limit of the decoder (10000) is not modelled.
* Pointers occur only to structs and times, so `omitempty` is not looked at again behind a pointer.
-/
namespace Verif

/-- An XML tree as it is written: names with their prefix, name space declarations among the attributes. -/
inductive XNode where
  | text (s : Text)
  | elem (name : Text) (attrs : List (Text × Text)) (kids : List XNode)

/-- `xml.Name`: name space and local name. -/
structure XName where
  space : Text
  loc : Text
  deriving DecidableEq, Repr

/-- An XML tree with the names resolved, as the decoder's `Token` returns it (xml.go `Decoder.Token`). -/
inductive RNode where
  | text (s : Text)
  | elem (name : XName) (attrs : List (XName × Text)) (kids : List RNode)

namespace Xml
open Json

/-! ### Name spaces -/

/-- `nsname` (xml.go): prefix and local part of a name with one colon, both non-empty. -/
def splitName (n : Text) : XName :=
  let p := n.takeWhile (· ≠ ':')
  match n.dropWhile (· ≠ ':') with
  | _ :: l => if p = [] ∨ l = [] then ⟨[], n⟩ else ⟨p, l⟩
  | [] => ⟨[], n⟩

/-- The name spaces declared by an element, put before those in force (xml.go:300-315). -/
def declare (ns : List (Text × Text)) : List (Text × Text) → List (Text × Text)
  | [] => ns
  | (n, v) :: as =>
    let m := splitName n
    if m.space = "xmlns".toList then declare ((m.loc, v) :: ns) as
    else if m.space = [] ∧ m.loc = "xmlns".toList then declare (([], v) :: ns) as
    else declare ns as

/-- xml.go `translate`. -/
def translate (ns : List (Text × Text)) (isElem : Bool) (n : XName) : XName :=
  if n.space = "xmlns".toList then n
  else if n.space = [] ∧ isElem = false then n
  else if n.space = "xml".toList then ⟨"http://www.w3.org/XML/1998/namespace".toList, n.loc⟩
  else if n.space = [] ∧ n.loc = "xmlns".toList then n
  else
    match ns.lookup n.space with
    | some u => ⟨u, n.loc⟩
    | none => n

mutual
/-- The tree with its names resolved. -/
def resolve (ns : List (Text × Text)) : XNode → RNode
  | .text s => .text s
  | .elem n as ks =>
    .elem (translate (declare ns as) true (splitName n))
      (as.map fun a => (translate (declare ns as) false (splitName a.1), a.2))
      (resolves (declare ns as) ks)
/-- The same for children. -/
def resolves (ns : List (Text × Text)) : List XNode → List RNode
  | [] => []
  | k :: ks => resolve ns k :: resolves ns ks
end

/-! ### Numbers and booleans -/

/-- All characters are digits, and there is one. -/
def digitsOf (t : Text) : Option (List (Fin 10)) :=
  match takeDigits t with
  | (d :: ds, []) => some (d :: ds)
  | _ => none

/-- `strconv.ParseInt(t, 10, bits)`. -/
def parseInt (bits : Nat) (t : Text) : Option Int :=
  let (neg, u) := match t with
    | '-' :: u => (true, u)
    | '+' :: u => (false, u)
    | u => (false, u)
  match digitsOf u with
  | none => none
  | some ds =>
    let n : Int := if neg then -(digitsVal 0 ds : Int) else (digitsVal 0 ds : Int)
    if -(2 ^ (bits - 1)) ≤ n ∧ n < 2 ^ (bits - 1) then some n else none

/-- Optional sign: negative, present, rest. -/
def splitSign (t : Text) : Bool × Bool × Text :=
  match t with
  | '-' :: u => (true, true, u)
  | '+' :: u => (false, true, u)
  | u => (false, false, u)

/-- Value of a digit (atof.go `readFloat`: `'0' <= c && c <= '9'`, `base == 16 && 'a' <= lower(c) && lower(c) <= 'f'`). -/
def floatDigit (hex : Bool) (c : Char) : Option Nat :=
  if 48 ≤ c.toNat ∧ c.toNat ≤ 57 then some (c.toNat - 48)
  else if hex = true ∧ 97 ≤ c.toLower.toNat ∧ c.toLower.toNat ≤ 102 then some (c.toLower.toNat - 87)
  else none

/-- The loop over the mantissa (atof.go `readFloat`, `loop:`): digits before and after the point (`dot`: there was one), rest.
Underscores are skipped here; `underscoreOK` looks at them again. -/
def mantissa (hex : Bool) : Bool → Text → List Nat × List Nat × Text
  | _, [] => ([], [], [])
  | dot, c :: t =>
    if c = '_' then mantissa hex dot t
    else if c = '.' then (if dot then ([], [], c :: t) else mantissa hex true t)
    else
      match floatDigit hex c with
      | none => ([], [], c :: t)
      | some d =>
        match mantissa hex dot t with
        | (ip, fp, r) => if dot then (ip, d :: fp, r) else (d :: ip, fp, r)

/-- The loop over the digits of the exponent. -/
def expDigits : Text → List Nat × Text
  | [] => ([], [])
  | c :: t =>
    if c = '_' then expDigits t
    else
      match floatDigit false c with
      | none => ([], c :: t)
      | some d => (d :: (expDigits t).1, (expDigits t).2)

/-- The number with these digits. -/
def digitsIn (base : Nat) (ds : List Nat) : Nat := ds.foldl (fun a d => a * base + d) 0

/-- The number with these digits after the point. -/
def fracIn (base : Nat) : List Nat → ℚ
  | [] => 0
  | d :: ds => ((d : ℚ) + fracIn base ds) / base

/-- The exponent (atof.go `readFloat`): `p` and required for hexadecimal floats, `e` and optional otherwise; a digit must follow the
letter and the sign, and nothing the exponent (`ParseFloat`: `n != len(s)`).  `none` is a syntax error.  Not modelled: from 10000 on
the exponent ignores further digits, which matters to numerals with thousands of digits only. -/
def readExp (hex : Bool) (t : Text) : Option Int :=
  match t with
  | [] => if hex then none else some 0
  | c :: u =>
    if c.toLower = (if hex then 'p' else 'e') then
      match splitSign u with
      | (neg, _, v) =>
        match v with
        | [] => none
        | d :: _ =>
          if (floatDigit false d).isSome then
            match expDigits v with
            | (ds, []) => some (if neg then -(digitsIn 10 ds : Int) else (digitsIn 10 ds : Int))
            | _ => none
          else none
    else none

/-- What `underscoreOK` saw last: the beginning, a digit or base prefix, an underscore, something else. -/
inductive Saw where
  | beginning | digit | underscore | other
  deriving DecidableEq

/-- The loop of `underscoreOK` (atoi.go). -/
def scanUnderscores (hex : Bool) : Saw → Text → Bool
  | saw, [] => saw != .underscore
  | saw, c :: t =>
    if (floatDigit hex c).isSome then scanUnderscores hex .digit t
    else if c = '_' then (saw == .digit) && scanUnderscores hex .underscore t
    else (saw != .underscore) && scanUnderscores hex .other t

/-- `underscoreOK` (atoi.go), after the sign. -/
def underscoreOK (u : Text) : Bool :=
  match u with
  | '0' :: p :: r =>
    if p.toLower = 'b' ∨ p.toLower = 'o' ∨ p.toLower = 'x' then scanUnderscores (p.toLower = 'x') .digit r
    else scanUnderscores false .beginning u
  | _ => scanUnderscores false .beginning u

/-- The base prefix of a hexadecimal float and the rest (atof.go `readFloat`: `i+2 < len(s)`). -/
def hexPrefix (u : Text) : Bool × Text :=
  match u with
  | '0' :: x :: c :: r => if x.toLower = 'x' then (true, c :: r) else (false, u)
  | _ => (false, u)

/-- `readFloat` (atof.go) after the sign: the exact value; `none` is a syntax error. -/
def readFloat (u : Text) : Option ℚ :=
  match hexPrefix u with
  | (hex, v) =>
    match mantissa hex false v with
    | (ip, fp, r) =>
      if ip = [] ∧ fp = [] then none
      else
        match readExp hex r with
        | none => none
        | some e =>
          if u.contains '_' && !underscoreOK u then none
          else
            let base := if hex then 16 else 10
            some (((digitsIn base ip : ℚ) + fracIn base fp) * (if hex then 2 else 10 : ℚ) ^ e)

/-- `strconv.ParseFloat(t, 64)`: decimal and hexadecimal floats and the special values. -/
def parseFloat (t : Text) : Option GoFloat :=
  match splitSign t with
  | (neg, signed, u) =>
    let low := u.map Char.toLower
    if low = "inf".toList ∨ low = "infinity".toList then some (.inf neg)
    else if low = "nan".toList ∧ signed = false then some .nan
    else
      match readFloat u with
      | none => none
      | some m => (fl64 ((if neg then -1 else 1) * m)).map .fin

/-- `strconv.ParseBool`. -/
def parseBool (t : Text) : Option Bool :=
  if t ∈ ["1".toList, "t".toList, "T".toList, "TRUE".toList, "true".toList, "True".toList] then some true
  else if t ∈ ["0".toList, "f".toList, "F".toList, "FALSE".toList, "false".toList, "False".toList] then some false
  else none

/-- What is assumed of `strconv.FormatFloat(f, 'g', -1, 64)` (marshal.go `marshalSimple`): digits, signs,
point and exponent letter only, and `ParseFloat` reads the same float64 back.  `exactText` in
`Verif.Lemmas.Xml` meets it. -/
structure FloatText where
  fmt : ℚ → Text
  chars : ∀ q, ∀ c ∈ fmt q, c.isDigit = true ∨ c = '+' ∨ c = '-' ∨ c = '.' ∨ c = 'e'
  roundtrip : ∀ q, IsF64 q → parseFloat (fmt q) = some (.fin q)

/-! ### Writing -/

/-- Character data, if there is any. -/
def txt (s : Text) : List XNode := if s = [] then [] else [.text s]

/-- `writeStart`, `writeEnd` (marshal.go): an element; its name space is declared as the default. -/
def mkElem (n : XName) (attrs : List (Text × Text)) (kids : List XNode) : XNode :=
  .elem n.loc ((if n.space = [] then [] else [("xmlns".toList, n.space)]) ++ attrs) kids

/-- A field's element name (typeinfo.go `structFieldInfo`): the tag's name in the name space of the
enclosing struct, or, without a name in the tag, the Go name in no name space.  (No field is tagged with
its own Go name.) -/
def fieldName (info : StructInfo) (f : FieldInfo) : XName :=
  ⟨if f.xml = f.go.toList then [] else (match info.xmlName with | some n => n.1 | none => []), f.xml⟩

/-- Text of a value that is not a struct or list (marshal.go `marshalSimple`, `marshalTextInterface`). -/
def simpleText (G : FloatText) : Val → GoRes Text
  | .str s => .ok s
  | .int n => .ok (Codec.intText n)
  | .float (.fin q) => .ok (G.fmt q)
  | .float .nan => .ok "NaN".toList
  | .float (.inf neg) => .ok (if neg then "-Inf".toList else "+Inf".toList)
  | .bool b => .ok (if b then "true".toList else "false".toList)
  | .time t =>
    if 0 ≤ t.year ∧ t.year ≤ 9999 then .ok t.formatNano
    else .err "Time.MarshalText: year outside of range [0,9999]"
  | _ => .panic "not a simple value"

/-- Concatenated results. -/
def joinAll {α : Type} : List (GoRes (List α)) → GoRes (List α)
  | [] => .ok []
  | x :: xs => x.bind fun a => (joinAll xs).bind fun b => .ok (a ++ b)

/-- The attribute of a field, if it is one (marshal.go `marshalValue`, the loop over attribute fields). -/
def attrOf (G : FloatText) (f : FieldInfo) (v : Val) : GoRes (List (Text × Text)) :=
  if f.xmlKind = .attr ∧ ¬ (f.xmlOmit = true ∧ Codec.isEmpty v = true) then
    (simpleText G v).bind fun s => .ok [(f.xml, s)]
  else .ok []

/-- Attributes of a struct (marshal.go `marshalValue`). -/
def attrsOf (G : FloatText) (info : StructInfo) (vs : List Val) : GoRes (List (Text × Text)) :=
  joinAll ((info.fields.zip vs).map fun x => attrOf G x.1 x.2)

/-- The nodes of a field inside its struct's element (marshal.go `marshalStruct`); `r` are those of a field with its
own element. -/
def kidOf (G : FloatText) (f : FieldInfo) (v : Val) (r : GoRes (List XNode)) : GoRes (List XNode) :=
  match f.xmlKind with
  | .elem => r
  | .chardata => (simpleText G v).bind fun s => .ok (txt s)
  | _ => .ok []

/-- Children of a struct's element (marshal.go `marshalStruct`); `rs` are the fields' own nodes. -/
def kidsOf (G : FloatText) (info : StructInfo) (vs : List Val) (rs : List (GoRes (List XNode))) : GoRes (List XNode) :=
  joinAll ((info.fields.zip (vs.zip rs)).map fun x => kidOf G x.1 x.2.1 x.2.2)

mutual
/-- marshal.go `marshalValue`: the nodes written for a value in a field of this element name. -/
def toXml (G : FloatText) : Ty → XName → Bool → Val → GoRes (List XNode)
  | .ptr t, n, _, v =>
    match v with
    | .ptr v => toXml G t n false v
    | .nil => .ok []
    | _ => .panic "ill-typed value"
  | .slice t, n, om, v =>
    match v with
    | .nil => .ok []
    | .slice vs => joinAll (vs.map (toXml G t n om))
    | _ => .panic "ill-typed value"
  | .struct info fs, n, _, v =>
    match v with
    | .struct vs =>
      (attrsOf G info vs).bind fun as =>
      (kidsOf G info vs (toXmls G info info.fields fs vs)).bind fun ks =>
        .ok [mkElem (match info.xmlName with | some x => ⟨x.1, x.2⟩ | none => n) as ks]
    | _ => .panic "ill-typed value"
  | _, n, om, v =>
    if om = true ∧ Codec.isEmpty v = true then .ok []
    else (simpleText G v).bind fun s => .ok [mkElem n [] (txt s)]
/-- The nodes of each field. -/
def toXmls (G : FloatText) (info : StructInfo) : List FieldInfo → List Ty → List Val → List (GoRes (List XNode))
  | f :: fs, t :: ts, v :: vs => toXml G t (fieldName info f) f.xmlOmit v :: toXmls G info fs ts vs
  | _, _, _ => []
end

/-! ### Reading -/

/-- read.go `copyValue` and `unmarshalTextInterface`: a value from character data. -/
def fromText (t : Ty) (s : Text) : GoRes Val :=
  match t with
  | .str => .ok (.str s)
  | .int b =>
    if s = [] then .ok (.int 0)
    else match parseInt b (Ocppj.trimSpace s) with
      | some n => .ok (.int n)
      | none => .err "strconv.ParseInt"
  | .float =>
    if s = [] then .ok (.float (.fin 0))
    else match parseFloat (Ocppj.trimSpace s) with
      | some f => .ok (.float f)
      | none => .err "strconv.ParseFloat"
  | .bool =>
    if s = [] then .ok (.bool false)
    else match parseBool (Ocppj.trimSpace s) with
      | some b => .ok (.bool b)
      | none => .err "strconv.ParseBool"
  | .time =>
    match GoTime.parseTime s with
    | some t => .ok (.time t)
    | none => .err "parsing time"
  | _ => .err "cannot unmarshal into"

/-- The character data directly in an element. -/
def dataOf : List RNode → Text
  | [] => []
  | .text s :: ks => s ++ dataOf ks
  | _ :: ks => dataOf ks

/-- A decoder of an element (name, attributes, children) into a variable that holds the last argument. -/
abbrev ElemDec := XName → List (XName × Text) → List RNode → Val → GoRes Val

/-- The element name `n` is the one asked for; an empty name space asks for none. -/
def matches_ (want n : XName) : Bool := (want.space == [] || want.space == n.space) && want.loc == n.loc

/-- Position of the first field for which a child element (read.go `unmarshalPath`) is. -/
def fieldOf (info : StructInfo) (n : XName) : Option Nat :=
  info.fields.findIdx? fun f => f.xmlKind == .elem && matches_ (fieldName info f) n

/-- One attribute: every attribute field of that name is set (read.go:411-440). -/
def setAttr (n : XName) (s : Text) : List FieldInfo → List Ty → List Val → GoRes (List Val)
  | f :: fs, t :: ts, v :: vs =>
    (if f.xmlKind = .attr ∧ f.xml = n.loc then fromText t s else .ok v).bind fun v' =>
      (setAttr n s fs ts vs).bind fun vs' => .ok (v' :: vs')
  | _, _, vs => .ok vs

/-- All attributes, in order. -/
def setAttrs (info : StructInfo) (ts : List Ty) : List (XName × Text) → List Val → GoRes (List Val)
  | [], vs => .ok vs
  | (n, s) :: as, vs => (setAttr n s info.fields ts vs).bind (setAttrs info ts as)

/-- The child elements, in order; those without a field are skipped. -/
def setKids (info : StructInfo) (decs : List ElemDec) : List RNode → List Val → GoRes (List Val)
  | [], vs => .ok vs
  | .text _ :: ks, vs => setKids info decs ks vs
  | .elem n as cs :: ks, vs =>
    match fieldOf info n with
    | some i =>
      ((decs.getD i (fun _ _ _ _ => .panic "no such field")) n as cs (vs.getD i .nil)).bind fun v =>
        setKids info decs ks (vs.set i v)
    | none => setKids info decs ks vs

/-- The character data goes to the field for it. -/
def setData (s : Text) : List FieldInfo → List Ty → List Val → GoRes (List Val)
  | f :: fs, t :: ts, v :: vs =>
    if f.xmlKind = .chardata then (fromText t s).bind fun v' => .ok (v' :: vs)
    else (setData s fs ts vs).bind fun vs' => .ok (v :: vs')
  | _, _, vs => .ok vs

/-- The element has the name that the struct's XMLName tag asks for. -/
def checkName (info : StructInfo) (n : XName) : GoRes Unit :=
  match info.xmlName with
  | none => .ok ()
  | some x => if matches_ ⟨x.1, x.2⟩ n then .ok () else .err "expected element type"

mutual
/-- read.go `unmarshal`: an element into a variable of a Go type. -/
def fromXml : Ty → ElemDec
  | .ptr t => fun n as ks old =>
    (fromXml t n as ks (match old with | .ptr v => v | _ => zeroVal t)).bind fun v => .ok (.ptr v)
  | .slice t => fun n as ks old =>
    (fromXml t n as ks (zeroVal t)).bind fun v =>
      .ok (.slice ((match old with | .slice vs => vs | _ => []) ++ [v]))
  | .struct info ts => fun n as ks old =>
    (checkName info n).bind fun _ =>
    (setAttrs info ts as (Codec.fieldsOf old)).bind fun vs =>
    (setKids info (fromXmls ts) ks vs).bind fun vs =>
    (setData (dataOf ks) info.fields ts vs).bind fun vs => .ok (.struct vs)
  | t => fun _ _ ks _ => fromText t (dataOf ks)
/-- The decoders of a struct's fields. -/
def fromXmls : List Ty → List ElemDec
  | [] => []
  | t :: ts => fromXml t :: fromXmls ts
end

end Xml
end Verif
