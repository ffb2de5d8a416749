import Verif.Spec.Infoset
import Verif.Spec.Soap
import Verif.Spec.Calendar
/-!
# What a SOAP message means

The values of Go variables of the message types after XML elements have been decoded into them.  Of the model only the types, the
tables of fields and the rounding to float64 are used.
-/
namespace Verif.Xml
open Json

/-- White space of Unicode. -/
def WhiteSpace (c : Char) : Prop :=
  c.toNat ∈ [0x9, 0xA, 0xB, 0xC, 0xD, 0x20, 0x85, 0xA0, 0x1680, 0x2028, 0x2029, 0x202F, 0x205F, 0x3000] ∨ (0x2000 ≤ c.toNat ∧ c.toNat ≤ 0x200A)

/-- A text with white space around it. -/
def Padded (t u : Text) : Prop := ∃ a b, (∀ c ∈ a, WhiteSpace c) ∧ (∀ c ∈ b, WhiteSpace c) ∧ t = a ++ (u ++ b)

/-- A text with a sign; plus may be left out. -/
def Signed (neg : Bool) (t u : Text) : Prop := (neg = false ∧ (t = u ∨ t = '+' :: u)) ∨ (neg = true ∧ t = '-' :: u)

/-- A decimal integer. -/
def IntText (t : Text) (n : Int) : Prop :=
  ∃ neg ds, ds ≠ [] ∧ Signed neg t (ds.map digitChar) ∧ n = if neg then -(digitsVal 0 ds : Int) else (digitsVal 0 ds : Int)

/-- The exponent of a decimal number, if there is one. -/
def ExpText (t : Text) (e : Int) : Prop := (t = [] ∧ e = 0) ∨ ∃ c u, (c = 'e' ∨ c = 'E') ∧ t = c :: u ∧ IntText u e

/-- The digits after the point, if there is one. -/
def FracPart (t : Text) (ds : List (Fin 10)) : Prop := (t = [] ∧ ds = []) ∨ t = '.' :: ds.map digitChar

/-- A decimal number: digits before or after the point, or both. -/
def DecText (t : Text) (q : ℚ) : Prop :=
  ∃ ip fp ft et e, (ip ≠ [] ∨ fp ≠ []) ∧ FracPart ft fp ∧ ExpText et e ∧ t = ip.map digitChar ++ (ft ++ et) ∧
    q = ((digitsVal 0 ip : ℚ) + fracVal fp) * (10 : ℚ) ^ e

/-- The number with these hexadecimal digits. -/
def hexNum (t : Text) : Nat := t.foldl (fun a c => a * 16 + (hexVal c).getD 0) 0

/-- A hexadecimal digit. -/
def IsHex (c : Char) : Prop := (hexVal c).isSome = true

/-- A hexadecimal number, after the `0x`: digits before or after the point, or both, and a binary exponent that may not be left out. -/
def HexText (t : Text) (q : ℚ) : Prop :=
  ∃ ip fp ft x et e, (ip ≠ [] ∨ fp ≠ []) ∧ (∀ c ∈ ip, IsHex c) ∧ (∀ c ∈ fp, IsHex c) ∧ ((ft = [] ∧ fp = []) ∨ ft = '.' :: fp) ∧
    (x = 'p' ∨ x = 'P') ∧ IntText et e ∧ t = ip ++ (ft ++ x :: et) ∧
    q = ((hexNum ip : ℚ) + hexNum fp / 16 ^ fp.length) * (2 : ℚ) ^ e

/-- `u` is `t` without underscores, each of which is between two digits in `t`. -/
def Separated (digit : Char → Prop) (t u : Text) : Prop :=
  u = t.filter (· ≠ '_') ∧
  ∀ a b, t = a ++ '_' :: b → (∃ a' c, a = a' ++ [c] ∧ digit c) ∧ ∃ c b', b = c :: b' ∧ digit c

/-- A number without sign, as in Go programs: decimal or hexadecimal, with underscores between digits or after the `0x`. -/
def NumberText (t : Text) (q : ℚ) : Prop :=
  (∃ u, Separated (fun c => c.isDigit = true) t u ∧ DecText u q) ∨
  (∃ x v w, (x = 'x' ∨ x = 'X') ∧ t = '0' :: x :: v ∧ Separated IsHex ('0' :: v) ('0' :: w) ∧ HexText w q)

/-- A number (rounded to float64), infinite or not a number. -/
def FloatSpelled (t : Text) (f : GoFloat) : Prop :=
  (∃ neg u q r, Signed neg t u ∧ NumberText u q ∧ fl64 (if neg then -q else q) = some r ∧ f = .fin r) ∨
  (∃ neg u, Signed neg t u ∧ (u.map Char.toLower = "inf".toList ∨ u.map Char.toLower = "infinity".toList) ∧ f = .inf neg) ∨
  (t.map Char.toLower = "nan".toList ∧ f = .nan)

/-- The words for truth values. -/
def BoolText (t : Text) (b : Bool) : Prop :=
  t ∈ if b then ["1".toList, "t".toList, "T".toList, "TRUE".toList, "true".toList, "True".toList]
    else ["0".toList, "f".toList, "F".toList, "FALSE".toList, "false".toList, "False".toList]

/-- The value a text stands for.  Numbers and truth values may be left empty. -/
def Scalar : Ty → Text → Val → Prop
  | .str, s, v => v = .str s
  | .int b, s, v => (s = [] ∧ v = .int 0) ∨
      ∃ u n, Padded s u ∧ IntText u n ∧ -(2 ^ (b - 1)) ≤ n ∧ n < 2 ^ (b - 1) ∧ v = .int n
  | .float, s, v => (s = [] ∧ v = .float (.fin 0)) ∨ ∃ u f, Padded s u ∧ FloatSpelled u f ∧ v = .float f
  | .bool, s, v => (s = [] ∧ v = .bool false) ∨ ∃ u b, Padded s u ∧ BoolText u b ∧ v = .bool b
  | .time, s, v => ∃ (st : Cal.Stamp) (t : GoTime), st.Valid ∧ st.Spelled s ∧ st.Denotes t ∧ v = .time t
  | _, _, _ => False

/-- The value after several texts: all must be readable, the last counts; without a text it is the zero value. -/
def ScalarLast (t : Ty) (l : List Text) (v : Val) : Prop :=
  (∀ s ∈ l, ∃ w, Scalar t s w) ∧
  match l.getLast? with
  | none => v = zeroVal t
  | some s => Scalar t s v

/-- An element has the name asked for: the local name, and the name space if one is asked for. -/
def Named (want n : XName) : Prop := n.loc = want.loc ∧ (want.space = [] ∨ n.space = want.space)

instance (want n : XName) : Decidable (Named want n) := inferInstanceAs (Decidable (_ ∧ _))

/-- The elements for a field. -/
def elemsFor (info : StructInfo) (f : FieldInfo) (is : List Info) : List Info :=
  is.flatMap fun i => i.kids.filter fun k => Named (fieldName info f) k.name

/-- The attributes for a field, in whatever name space. -/
def attrsFor (f : FieldInfo) (is : List Info) : List Text :=
  is.flatMap fun i => (i.attrs.filter fun a => a.1.loc = f.xml).map (·.2)

/-- The names of the attributes of a sampled value, the only attributes of OCPP. -/
def attrFields : List Text := ["context".toList, "format".toList, "location".toList, "measurand".toList, "unit".toList]

mutual
/-- The value of a variable of a type after these elements, in order.  A list has a value for each element.  For other types the
last value counts, but all elements must be readable, and of the elements for a struct each adds to what the earlier ones
said. -/
def Means : Ty → List Info → Val → Prop
  | .ptr t, is, v => (is = [] ∧ v = .nil) ∨ (is ≠ [] ∧ ∃ w, v = .ptr w ∧ Means t is w)
  | .slice t, is, v => (is = [] ∧ v = .nil) ∨ (is ≠ [] ∧ ∃ vs, v = .slice vs ∧ List.Forall₂ (fun i w => Means t [i] w) is vs)
  | .struct info ts, is, v =>
    (∀ n, info.xmlName = some n → ∀ i ∈ is, Named ⟨n.1, n.2⟩ i.name) ∧ ∃ vs, v = .struct vs ∧ MeansFields info info.fields ts is vs
  | .str, is, v => ScalarLast .str (is.map Info.data) v
  | .int b, is, v => ScalarLast (.int b) (is.map Info.data) v
  | .float, is, v => ScalarLast .float (is.map Info.data) v
  | .bool, is, v => ScalarLast .bool (is.map Info.data) v
  | .time, is, v => ScalarLast .time (is.map Info.data) v
/-- The fields of a struct: an attribute, child elements, the character data, or without a place in XML. -/
def MeansFields (info : StructInfo) : List FieldInfo → List Ty → List Info → List Val → Prop
  | f :: fs, t :: ts, is, v :: vs =>
    (match f.xmlKind with
      | .attr => ScalarLast t (attrsFor f is) v
      | .elem => Means t (elemsFor info f is) v
      | .chardata => ScalarLast t (is.map Info.data) v
      | .skip => v = zeroVal t) ∧ MeansFields info fs ts is vs
  | [], [], _, [] => True
  | _, _, _, _ => False
end

end Verif.Xml
