import Verif.Model.Json
/-!
# time.Time and RFC 3339

Models `t.Format(time.RFC3339)` (used by every MarshalJSON with a time field, e.g.
messages/v1x/cpreq/json_encode.go:457), `time.Time.UnmarshalJSON` (reached through
`json.Unmarshal(v, &m.Timestamp)`, e.g. cpreq/json_encode.go:489-500) and the text form used by
encoding/xml (RFC 3339 with nanoseconds).

A `time.Time` is an instant (Unix seconds and nanoseconds) with a UTC offset.  Simplifications: the
name of the time zone and the monotonic clock reading are left out; a JSON string is compared after
unescaping whereas `UnmarshalJSON` looks at the raw literal (no time text that is written needs an
escape).
-/
namespace Verif

/-- A Go `time.Time`: seconds since 1970-01-01T00:00:00Z, nanoseconds, offset of its location in
seconds east of UTC. -/
structure GoTime where
  sec : Int
  nano : Nat
  off : Int
  deriving DecidableEq, Repr

namespace GoTime

/-- The zero `time.Time`, 0001-01-01T00:00:00Z. -/
def zero : GoTime := ⟨-62135596800, 0, 0⟩

/-- Gregorian leap years. -/
def isLeap (y : Int) : Bool := y % 4 == 0 && (y % 100 != 0 || y % 400 == 0)

/-- Days in a month. -/
def daysIn (y : Int) (m : Nat) : Nat :=
  match m with
  | 1 => 31 | 2 => if isLeap y then 29 else 28 | 3 => 31 | 4 => 30 | 5 => 31 | 6 => 30
  | 7 => 31 | 8 => 31 | 9 => 30 | 10 => 31 | 11 => 30 | 12 => 31 | _ => 0

/-- Days of the (non-leap) year before a month. -/
def cumDays (m : Nat) : Int :=
  match m with
  | 1 => 0 | 2 => 31 | 3 => 59 | 4 => 90 | 5 => 120 | 6 => 151
  | 7 => 181 | 8 => 212 | 9 => 243 | 10 => 273 | 11 => 304 | 12 => 334 | _ => 0

/-- Days from 1970-01-01 to a date of the proleptic Gregorian calendar: 365 days per year, one more
per leap year passed, and the days of the year passed. -/
def dayNumber (y : Int) (m d : Nat) : Int :=
  365 * y + (y + 3) / 4 - (y + 99) / 100 + (y + 399) / 400 + cumDays m
    + (if isLeap y && decide (2 < m) then 1 else 0) + ((d : Int) - 1) - 719528

/-- The date of a day number (years starting in March inside a 400-year era). -/
def civil (n : Int) : Int × Nat × Nat :=
  let z := n + 719468
  let era := z / 146097
  let doe := (z % 146097).toNat
  let c := min (doe / 36524) 3
  let r1 := doe - 36524 * c
  let q := r1 / 1461
  let r2 := r1 - 1461 * q
  let a := min (r2 / 365) 3
  let doy := r2 - 365 * a
  let mp := (5 * doy + 2) / 153
  let d := doy - (153 * mp + 2) / 5 + 1
  let m := if mp < 10 then mp + 3 else mp - 9
  let y := 400 * era + 100 * c + 4 * q + a + (if m ≤ 2 then 1 else 0)
  (y, m, d)

/-- Seconds since 1970 on the clock of the time's own location. -/
def localSec (t : GoTime) : Int := t.sec + t.off

/-- Date and clock of a time in its location. -/
def date (t : GoTime) : Int × Nat × Nat := civil (t.localSec / 86400)
/-- Seconds since midnight in its location. -/
def secOfDay (t : GoTime) : Nat := (t.localSec % 86400).toNat
/-- The year in its location. -/
def year (t : GoTime) : Int := t.date.1

open Json (digitChar natDigits takeDigits charDigit)

/-- Zero padding to a width (`time.appendInt`). -/
def pad (w n : Nat) : Text :=
  let ds := natDigits n
  List.replicate (w - ds.length) '0' ++ ds.map digitChar

/-- The numeric zone of RFC 3339: `Z` for offset 0, otherwise sign, hours and minutes (offset seconds
are dropped, format.go `stdISO8601ColonTZ`: `zone := offset / 60`, and the sign is that of `zone`). -/
def zoneText (off : Int) : Text :=
  if off = 0 then ['Z']
  else
    let z := off.natAbs / 60
    (if off ≤ -60 then '-' else '+') :: (pad 2 (z / 60) ++ ':' :: pad 2 (z % 60))

/-- Date and clock, `2006-01-02T15:04:05`. -/
def clockText (t : GoTime) : Text :=
  let (y, m, d) := t.date
  let s := t.secOfDay
  (if y < 0 then ['-'] else []) ++ (pad 4 y.natAbs ++ '-' :: (pad 2 m ++ '-' :: (pad 2 d ++ 'T' ::
    (pad 2 (s / 3600) ++ ':' :: (pad 2 (s / 60 % 60) ++ ':' :: pad 2 (s % 60))))))

/-- `t.Format(time.RFC3339)`. -/
def format (t : GoTime) : Text := t.clockText ++ zoneText t.off

/-- Drop trailing zeros. -/
def trimZeros (ds : List (Fin 10)) : List (Fin 10) := (ds.reverse.dropWhile (· == 0)).reverse

/-- Fraction of a second without trailing zeros (`.999999999` of RFC3339Nano). -/
def nanoText (n : Nat) : Text :=
  if n = 0 then []
  else
    let ds := natDigits n
    '.' :: (trimZeros (List.replicate (9 - ds.length) 0 ++ ds)).map digitChar

/-- `t.Format(time.RFC3339Nano)`. -/
def formatNano (t : GoTime) : Text := t.clockText ++ nanoText t.nano ++ zoneText t.off

/-- Exactly `k` decimal digits. -/
def takeNum : Nat → Nat → Text → Option (Nat × Text)
  | 0, acc, t => some (acc, t)
  | _ + 1, _, [] => none
  | k + 1, acc, c :: t =>
    match charDigit c with
    | some d => takeNum k (acc * 10 + d.val) t
    | none => none

/-- A given character. -/
def expect (c : Char) : Text → Option Text
  | [] => none
  | c' :: t => if c = c' then some t else none

/-- Nanoseconds of a digit string after the point: nine digits count. -/
def fracNano (k : Nat) : List (Fin 10) → Nat
  | [] => 0
  | d :: ds => if k = 0 then 0 else d.val * 10 ^ (k - 1) + fracNano (k - 1) ds

/-- Optional fraction of a second (format.go, the special case after `stdZeroSecond`): a point or a comma and
at least one digit; anything else is left for the zone. -/
def parseFraction (t : Text) : Nat × Text :=
  match t with
  | [] => (0, [])
  | c :: u =>
    if c = '.' ∨ c = ',' then
      match takeDigits u with
      | ([], _) => (0, c :: u)
      | (ds, r) => (fracNano 9 ds, r)
    else (0, c :: u)

/-- The hour (format.go `getnum(value, false)`): two digits, or one that is not followed by another. -/
def takeHour : Text → Option (Nat × Text)
  | [] => none
  | c :: t =>
    match charDigit c with
    | none => none
    | some d =>
      match t with
      | [] => some (d.val, [])
      | c' :: t' =>
        match charDigit c' with
        | some e => some (10 * d.val + e.val, t')
        | none => some (d.val, c' :: t')

/-- The zone: `Z` or `±hh:mm` with `hh ≤ 24`, `mm ≤ 60`, and nothing after it (format.go: "The range test
use > rather than >="). -/
def parseZone (t : Text) : Option Int :=
  match t with
  | ['Z'] => some 0
  | c :: u =>
    if c = '+' ∨ c = '-' then
      match takeNum 2 0 u with
      | none => none
      | some (h, u₁) =>
        match expect ':' u₁ with
        | none => none
        | some u₂ =>
          match takeNum 2 0 u₂ with
          | some (m, []) =>
            if h ≤ 24 ∧ m ≤ 60 then
              let z : Int := ((h * 60 + m) * 60 : Nat)
              some (if c = '-' then -z else z)
            else none
          | _ => none
    else none
  | [] => none

/-- `time.Parse(time.RFC3339, s)`, which `UnmarshalJSON` and `UnmarshalText` come down to
(format_rfc3339.go `parseStrictRFC3339`, whose strict checks are switched off: `case true: return t, nil`).
The fast path `parseRFC3339` agrees with it on what it accepts.  Toolchains before Go 1.20 differ in
details: no comma (before 1.17), at most nine significant fraction digits and no check of the zone's hours
and minutes (1.13). -/
def parseTime (t : Text) : Option GoTime := do
  let (y, t) ← takeNum 4 0 t
  let t ← expect '-' t
  let (m, t) ← takeNum 2 0 t
  let t ← expect '-' t
  let (d, t) ← takeNum 2 0 t
  let t ← expect 'T' t
  let (h, t) ← takeHour t
  let t ← expect ':' t
  let (mi, t) ← takeNum 2 0 t
  let t ← expect ':' t
  let (s, t) ← takeNum 2 0 t
  let (ns, t) := parseFraction t
  let off ← parseZone t
  if 1 ≤ m ∧ m ≤ 12 ∧ 1 ≤ d ∧ d ≤ daysIn y m ∧ h < 24 ∧ mi < 60 ∧ s < 60 then
    some ⟨dayNumber y m d * 86400 + (h * 3600 + mi * 60 + s : Nat) - off, ns, off⟩
  else none

/-- The time cut to whole seconds. -/
def cut (t : GoTime) : GoTime := { t with nano := 0 }

/-- Times RFC 3339 can express to the second: year 0 to 9999, offset in whole minutes and less than
a day. -/
def Plain (t : GoTime) : Prop := 0 ≤ t.year ∧ t.year ≤ 9999 ∧ t.off % 60 = 0 ∧ t.off.natAbs < 86400

instance (t : GoTime) : Decidable t.Plain := inferInstanceAs (Decidable (_ ∧ _))

end GoTime
end Verif
