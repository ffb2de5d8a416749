import Verif.Spec.SoapMeans
/-!
# XML Schema

The fragment of XML Schema 1.0 used by the WSDL files of OCPP 1.5: sequences of elements, strings with enumerations or lengths,
`int`, `boolean`, `dateTime`, `anyURI`, and strings with attributes.  Attributes of the schema-instance name space (`xsi:type`,
`xsi:nil`, ...) are left out.
-/
namespace Verif.Xml
open Json

/-- Simple types. -/
inductive XSimple where
  | string
  | max (n : Nat)
  | enum (l : List Text)
  | int
  | boolean
  | dateTime
  | uri
  deriving DecidableEq

/-- Types of elements.  A sequence is a chain of `elem` (name, minOccurs = 1, maxOccurs = unbounded, type of the element) that ends in
`empty`. -/
inductive XType where
  | simple (s : XSimple)
  | attributed (attrs : List (Text × XSimple))
  | empty
  | elem (name : Text) (required many : Bool) (content rest : XType)
  deriving DecidableEq

/-- A text with white space of XML around it, which does not count (whiteSpace = collapse). -/
def Around (a u b t : Text) : Prop := Space a ∧ Space b ∧ t = a ++ (u ++ b)

/-- The parts of a `dateTime` (section 3.2.7): sign and digits of the year, month, day, hour, minute, second, fraction and zone
(`none`: no zone; `some none`: `Z`). -/
structure DateTime where
  neg : Bool
  year : List (Fin 10)
  month : Nat
  day : Nat
  hour : Nat
  min : Nat
  sec : Nat
  frac : List (Fin 10)
  zone : Option (Option (Bool × Nat × Nat))

/-- Its text. -/
def DateTime.text (d : DateTime) : Text :=
  (if d.neg then ['-'] else []) ++ d.year.map digitChar ++ ['-'] ++ Cal.two d.month ++ ['-'] ++ Cal.two d.day ++ ['T'] ++
    Cal.two d.hour ++ [':'] ++ Cal.two d.min ++ [':'] ++ Cal.two d.sec ++
    (if d.frac = [] then [] else '.' :: d.frac.map digitChar) ++ (match d.zone with | none => [] | some z => Cal.zoneSpelled z)

/-- It is a moment: the year has at least four digits, more only if it needs them, and is not zero; the day exists; the hour 24 is
midnight; the zone is at most 14 hours. -/
def DateTime.Valid (d : DateTime) : Prop :=
  4 ≤ d.year.length ∧ (4 < d.year.length → d.year.head? ≠ some 0) ∧ digitsVal 0 d.year ≠ 0 ∧
  (⟨if d.neg then -(digitsVal 0 d.year : Int) else (digitsVal 0 d.year : Int), d.month, d.day⟩ : Cal.Date).Valid ∧
  (d.hour < 24 ∨ (d.hour = 24 ∧ d.min = 0 ∧ d.sec = 0 ∧ ∀ x ∈ d.frac, x = 0)) ∧ d.min < 60 ∧ d.sec < 60 ∧
  ∀ neg h m, d.zone = some (some (neg, h, m)) → m < 60 ∧ h * 60 + m ≤ 14 * 60

/-- The text is of the type. -/
def XSimple.Lexical : XSimple → Text → Prop
  | .string, _ => True
  | .max n, t => t.length ≤ n
  | .enum l, t => t ∈ l
  | .int, t => ∃ a u b n, Around a u b t ∧ IntText u n ∧ -(2 ^ 31) ≤ n ∧ n < 2 ^ 31
  | .boolean, t => ∃ a u b, Around a u b t ∧ u ∈ ["true".toList, "false".toList, "1".toList, "0".toList]
  | .dateTime, t => ∃ (a b : Text) (d : DateTime), Around a d.text b t ∧ d.Valid
  | .uri, _ => True

/-- The content of an element (attributes, character data, child elements) is of the type; child elements are in the name space
`D`. -/
def OfType (D : Text) : XType → List (XName × Text) → Text → List Info → Prop
  | .simple s, as, d, ks => as = [] ∧ ks = [] ∧ s.Lexical d
  | .attributed l, as, _, ks => ks = [] ∧ (as.map (·.1)).Nodup ∧ ∀ a ∈ as, ∃ s, (a.1.loc, s) ∈ l ∧ a.1.space = [] ∧ s.Lexical a.2
  | .empty, as, d, ks => as = [] ∧ ks = [] ∧ Space d
  | .elem n required many c rest, as, d, ks =>
    ∃ own more, ks = own ++ more ∧ (required = true → own ≠ []) ∧ (many = false → own.length ≤ 1) ∧
      (∀ k ∈ own, k.name = ⟨D, n⟩ ∧ OfType D c k.attrs k.data k.kids) ∧ OfType D rest as d more

/-- The element is valid against a global element of the schema. -/
def XValid (decl : XName × XType) (i : Info) : Prop := i.name = decl.1 ∧ OfType decl.1.space decl.2 i.attrs i.data i.kids

end Verif.Xml
