import Verif.Model.Num
/-!
# JSON texts (RFC 8259)

The grammar of JSON as inductive relations between values and texts.  This is the independent
specification against which the parser (`Verif.Model.Json`), the message encoders and the frame
reader are proved; it does not mention them.

Two points follow encoding/json where RFC 8259 leaves freedom: an unpaired UTF-16 surrogate escape
denotes U+FFFD (decode.go `unquoteBytes`), and a value keeps the number literal (not a float).
-/
namespace Verif

/-- A JSON value.  Object members are kept in textual order, duplicates included. -/
inductive JVal where
  | null
  | bool (b : Bool)
  | num (l : NumLit)
  | str (s : Text)
  | arr (vs : List JVal)
  | obj (ms : List (Text × JVal))
  deriving Repr

namespace Json

/-- Insignificant white space (RFC 8259 section 2). -/
def wsChar (c : Char) : Bool := c == ' ' || c == '\t' || c == '\n' || c == '\r'

/-- A text of white space only. -/
def IsWs (t : Text) : Prop := ∀ c ∈ t, wsChar c = true

/-! ### Numbers -/

/-- The character of a decimal digit. -/
def digitChar (d : Fin 10) : Char := Char.ofNat (48 + d.val)

/-- A number as written: sign, digits before the point, digits after it, exponent
(is the letter `E`?, explicit sign (true = minus), digits). -/
structure RawNum where
  neg : Bool
  int : List (Fin 10)
  frac : Option (List (Fin 10))
  exp : Option (Bool × Option Bool × List (Fin 10))
  deriving DecidableEq, Repr

/-- RFC 8259 section 6: the integer part is `0` or starts with a nonzero digit; fraction and
exponent have at least one digit. -/
structure RawNum.Wf (r : RawNum) : Prop where
  int : r.int = [0] ∨ ∃ d ds, r.int = d :: ds ∧ d ≠ 0
  frac : ∀ ds, r.frac = some ds → ds ≠ []
  exp : ∀ u s ds, r.exp = some (u, s, ds) → ds ≠ []

/-- The text of a number. -/
def RawNum.text (r : RawNum) : Text :=
  (if r.neg then ['-'] else []) ++ r.int.map digitChar ++
  (match r.frac with | none => [] | some ds => '.' :: ds.map digitChar) ++
  (match r.exp with
   | none => []
   | some (u, s, ds) => (if u then 'E' else 'e') ::
      ((match s with | none => [] | some true => ['-'] | some false => ['+']) ++ ds.map digitChar))

/-- Value of a digit string, most significant digit first, continuing from `acc`. -/
def digitsVal (acc : Nat) : List (Fin 10) → Nat
  | [] => acc
  | d :: ds => digitsVal (acc * 10 + d.val) ds

/-- The literal a written number stands for. -/
def RawNum.lit (r : RawNum) : NumLit where
  neg := r.neg
  ip := digitsVal 0 r.int
  frac := r.frac.getD []
  exp := r.exp.map fun (_, s, ds) =>
    if s = some true then -(digitsVal 0 ds : Int) else (digitsVal 0 ds : Int)

/-! ### Strings -/

/-- One unit of a string: a character, or a surrogate code unit written as an escape. -/
inductive StrItem where
  | char (c : Char)
  | surr (n : Nat)
  deriving DecidableEq, Repr

/-- The two-character escapes of RFC 8259 section 7. -/
def simpleEsc : Char → Option Char
  | '"' => some '"'
  | '\\' => some '\\'
  | '/' => some '/'
  | 'b' => some (Char.ofNat 8)
  | 'f' => some (Char.ofNat 12)
  | 'n' => some '\n'
  | 'r' => some '\r'
  | 't' => some '\t'
  | _ => none

/-- Value of a hexadecimal digit. -/
def hexVal (c : Char) : Option Nat :=
  if '0' ≤ c ∧ c ≤ '9' then some (c.toNat - 48)
  else if 'a' ≤ c ∧ c ≤ 'f' then some (c.toNat - 87)
  else if 'A' ≤ c ∧ c ≤ 'F' then some (c.toNat - 55)
  else none

/-- Value of four hexadecimal digits. -/
def hex4 (a b c d : Char) : Option Nat :=
  match hexVal a, hexVal b, hexVal c, hexVal d with
  | some a, some b, some c, some d => some (a * 4096 + b * 256 + c * 16 + d)
  | _, _, _, _ => none

/-- A UTF-16 surrogate code unit. -/
def isSurr (n : Nat) : Bool := 0xD800 ≤ n && n < 0xE000

/-- What a `\uXXXX` escape stands for on its own. -/
def unitItem (n : Nat) : StrItem := if isSurr n then .surr n else .char (Char.ofNat n)

/-- The text of a string between its quotes. -/
inductive StrText : List StrItem → Text → Prop
  | nil : StrText [] []
  | plain {c is t} : c ≠ '"' → c ≠ '\\' → 0x20 ≤ c.toNat → StrText is t →
      StrText (.char c :: is) (c :: t)
  | esc {e c is t} : simpleEsc e = some c → StrText is t →
      StrText (.char c :: is) ('\\' :: e :: t)
  | uni {a b c d n is t} : hex4 a b c d = some n → StrText is t →
      StrText (unitItem n :: is) ('\\' :: 'u' :: a :: b :: c :: d :: t)

/-- The characters of a string: a high surrogate followed by a low one is one character, any other
surrogate is replaced by U+FFFD. -/
def joinItems : List StrItem → Text
  | [] => []
  | .char c :: is => c :: joinItems is
  | .surr h :: .surr l :: is =>
    if h < 0xDC00 && 0xDC00 ≤ l then
      Char.ofNat (0x10000 + (h - 0xD800) * 0x400 + (l - 0xDC00)) :: joinItems is
    else Char.ofNat 0xFFFD :: joinItems (.surr l :: is)
  | .surr _ :: is => Char.ofNat 0xFFFD :: joinItems is

/-- The text of a string with its quotes. -/
def Str (s t : Text) : Prop := ∃ is u, StrText is u ∧ s = joinItems is ∧ t = '"' :: (u ++ ['"'])

/-! ### Values -/

mutual
/-- `Value v t`: the text `t` (no surrounding white space) is the JSON value `v`. -/
inductive Value : JVal → Text → Prop
  | null : Value .null ['n', 'u', 'l', 'l']
  | true_ : Value (.bool true) ['t', 'r', 'u', 'e']
  | false_ : Value (.bool false) ['f', 'a', 'l', 's', 'e']
  | num {r} : RawNum.Wf r → Value (.num r.lit) r.text
  | str {s t} : Str s t → Value (.str s) t
  | arrNil {w} : IsWs w → Value (.arr []) ('[' :: (w ++ [']']))
  | arr {vs t} : Elems vs t → Value (.arr vs) ('[' :: (t ++ [']']))
  | objNil {w} : IsWs w → Value (.obj []) ('{' :: (w ++ ['}']))
  | obj {ms t} : Members ms t → Value (.obj ms) ('{' :: (t ++ ['}']))
/-- Comma-separated values with white space around each. -/
inductive Elems : List JVal → Text → Prop
  | one {v w t w'} : IsWs w → Value v t → IsWs w' → Elems [v] (w ++ (t ++ w'))
  | cons {v vs w t w' u} : IsWs w → Value v t → IsWs w' → Elems vs u →
      Elems (v :: vs) (w ++ (t ++ (w' ++ ',' :: u)))
/-- Comma-separated members with white space around names and values. -/
inductive Members : List (Text × JVal) → Text → Prop
  | one {k v w kt w₁ w₂ t w'} : IsWs w → Str k kt → IsWs w₁ → IsWs w₂ → Value v t → IsWs w' →
      Members [(k, v)] (w ++ (kt ++ (w₁ ++ ':' :: (w₂ ++ (t ++ w')))))
  | cons {k v ms w kt w₁ w₂ t w' u} : IsWs w → Str k kt → IsWs w₁ → IsWs w₂ → Value v t → IsWs w' →
      Members ms u →
      Members ((k, v) :: ms) (w ++ (kt ++ (w₁ ++ ':' :: (w₂ ++ (t ++ (w' ++ ',' :: u))))))
end

/-- `JsonText v t`: the text `t` is a JSON text denoting `v`. -/
def JsonText (v : JVal) (t : Text) : Prop := ∃ w u w', IsWs w ∧ Value v u ∧ IsWs w' ∧ t = w ++ (u ++ w')

end Json
end Verif
