import Mathlib.Data.Int.Log
import Mathlib.Data.Rat.Floor
import Verif.Model.Go
/-!
# Numbers: JSON literals and float64

`encoding/json` decodes a number literal into an `interface{}` as float64 (used at ws/conn.go:118
for frames and ws/message.go:147 for payloads) and into an `int` field by `strconv.ParseInt`.
float64 values are modelled as the rational numbers they denote, with IEEE round-to-nearest-even.
Simplification: negative zero is identified with zero.
-/
namespace Verif

/-- A JSON number literal, up to the spelling of its exponent.  `frac = []` means there is no
fraction part, `exp = none` that there is no exponent part. -/
structure NumLit where
  neg : Bool
  ip : Nat
  frac : List (Fin 10)
  exp : Option Int
  deriving DecidableEq, Repr

/-- Value of a fraction digit string: `.d₁d₂…`. -/
def fracVal : List (Fin 10) → ℚ
  | [] => 0
  | d :: ds => ((d.val : ℚ) + fracVal ds) / 10

/-- The rational number a literal denotes. -/
def NumLit.value (l : NumLit) : ℚ :=
  (if l.neg then -1 else 1) * ((l.ip : ℚ) + fracVal l.frac) * (10 : ℚ) ^ (l.exp.getD 0)

/-- The literal is a plain (possibly negative) integer: what `strconv.ParseInt` accepts. -/
def NumLit.isInt (l : NumLit) : Bool := l.frac.isEmpty && l.exp.isNone

/-- The integer denoted by a plain integer literal. -/
def NumLit.intVal (l : NumLit) : Int := if l.neg then -(l.ip : Int) else l.ip

/-- `strconv.FormatInt`. -/
def NumLit.ofInt (n : Int) : NumLit :=
  { neg := decide (n < 0), ip := n.natAbs, frac := [], exp := none }

/-- Round a rational to the nearest integer, ties to even. -/
def roundEven (x : ℚ) : ℤ :=
  let f := ⌊x⌋
  if x - f < 1 / 2 then f
  else if 1 / 2 < x - f then f + 1
  else if f % 2 = 0 then f else f + 1

/-- Exponent of the unit in the last place of the float64 nearest to `q` (53 bit significand,
least exponent -1074). -/
def ulpExp (q : ℚ) : ℤ := max (Int.log 2 |q| - 52) (-1074)

/-- Round-to-nearest-even to a 53 bit significand. -/
def roundF64 (q : ℚ) : ℚ := (roundEven (q / (2 : ℚ) ^ ulpExp q) : ℚ) * (2 : ℚ) ^ ulpExp q

/-- `strconv.ParseFloat(·, 64)` on an exact value: `none` is the range error. -/
def fl64 (q : ℚ) : Option ℚ :=
  if |roundF64 q| < (2 : ℚ) ^ (1024 : ℤ) then some (roundF64 q) else none

/-- `q` is (the value of) a finite float64. -/
def IsF64 (q : ℚ) : Prop := fl64 q = some q

instance (q : ℚ) : Decidable (IsF64 q) := inferInstanceAs (Decidable (_ = _))

/-- A Go float64. -/
inductive GoFloat where
  | fin (q : ℚ)
  | nan
  | inf (neg : Bool)
  deriving DecidableEq, Repr

/-- What is assumed of `strconv.AppendFloat(f, fmt, -1, 64)` as used by encoding/json
(encode.go floatEncoder): the text parses back to the same float64; an integer of absolute
value at most 2^53 is written as its plain decimal digits; and an integer below 10^21 is written without
point and exponent (but beyond 2^53 with the shortest digits that parse back, padded with zeros, so not
necessarily its own digits: in particular plus and minus 2^63 become plus and minus 9223372036854776000).  Every theorem that involves float text
holds for every formatter with this contract; `exactFmt` shows the contract can be met. -/
structure FloatFmt where
  fmt : ℚ → NumLit
  roundtrip : ∀ q, IsF64 q → fl64 (fmt q).value = some q
  int : ∀ n : ℤ, |n| ≤ 2 ^ 53 → fmt (n : ℚ) = NumLit.ofInt n
  plain : ∀ n : ℤ, |n| < 10 ^ 21 → (fmt (n : ℚ)).isInt = true
  edge : fmt (2 ^ 63) = NumLit.ofInt 9223372036854776000 ∧ fmt (-(2 ^ 63)) = NumLit.ofInt (-9223372036854776000)

end Verif
