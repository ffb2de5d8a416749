import Verif.Model.Time
import Verif.Model.Num
/-!
# The calendar and RFC 3339 time stamps

The Gregorian calendar, counted day by day from 1970-01-01, and the texts that are time stamps.  Of
the model only the types `GoTime`, `Text` and the digit characters are used.
-/
namespace Verif.Cal

/-- A date. -/
structure Date where
  year : Int
  month : Nat
  day : Nat
  deriving DecidableEq

/-- Every fourth year is a leap year, but of the centuries only every fourth. -/
def Leap (y : Int) : Prop := 4 ∣ y ∧ (100 ∣ y → 400 ∣ y)

instance (y : Int) : Decidable (Leap y) := inferInstanceAs (Decidable (_ ∧ _))

/-- Thirty days hath September, April, June, and November. -/
def monthDays (y : Int) (m : Nat) : Nat :=
  if m = 2 then (if Leap y then 29 else 28) else if m = 4 ∨ m = 6 ∨ m = 9 ∨ m = 11 then 30 else 31

/-- The date exists. -/
def Date.Valid (d : Date) : Prop := 1 ≤ d.month ∧ d.month ≤ 12 ∧ 1 ≤ d.day ∧ d.day ≤ monthDays d.year d.month

instance (d : Date) : Decidable d.Valid := inferInstanceAs (Decidable (_ ∧ _))

/-- The day after. -/
def Date.next (d : Date) : Date :=
  if d.day < monthDays d.year d.month then ⟨d.year, d.month, d.day + 1⟩
  else if d.month < 12 then ⟨d.year, d.month + 1, 1⟩
  else ⟨d.year + 1, 1, 1⟩

/-- Day `n` after 1970-01-01 (before it, if negative) is the given date. -/
inductive DayOf : Int → Date → Prop
  | epoch : DayOf 0 ⟨1970, 1, 1⟩
  | later {n d} : DayOf n d → DayOf (n + 1) d.next
  | earlier {n d} : DayOf (n + 1) d.next → d.Valid → DayOf n d

/-- A decimal digit. -/
def dig (n : Nat) : Char := Json.digitChar ⟨n % 10, Nat.mod_lt _ (by decide)⟩
/-- Two digits. -/
def two (n : Nat) : Text := [dig (n / 10), dig n]
/-- Four digits. -/
def four (n : Nat) : Text := [dig (n / 1000), dig (n / 100), dig (n / 10), dig n]

/-- The parts of a time stamp.  `zone = none` is `Z`; otherwise sign (`true` for minus), hours and minutes. -/
structure Stamp where
  year : Nat
  month : Nat
  day : Nat
  hour : Nat
  min : Nat
  sec : Nat
  frac : List (Fin 10)
  zone : Option (Bool × Nat × Nat)

/-- The parts are those of an existing moment. -/
def Stamp.Valid (s : Stamp) : Prop :=
  s.year ≤ 9999 ∧ (⟨s.year, s.month, s.day⟩ : Date).Valid ∧ s.hour < 24 ∧ s.min < 60 ∧ s.sec < 60 ∧
  ∀ neg h m, s.zone = some (neg, h, m) → h ≤ 24 ∧ m ≤ 60

/-- The hour is written with two digits; a single digit is let pass. -/
def HourText (h : Nat) (t : Text) : Prop := t = two h ∨ (h < 10 ∧ t = [dig h])

/-- The fraction of the second, if there is one, follows a point; a comma is let pass. -/
def FracText (ds : List (Fin 10)) (t : Text) : Prop :=
  (ds = [] ∧ t = []) ∨ (ds ≠ [] ∧ ∃ c, (c = '.' ∨ c = ',') ∧ t = c :: ds.map Json.digitChar)

/-- The zone. -/
def zoneSpelled (z : Option (Bool × Nat × Nat)) : Text :=
  match z with
  | none => ['Z']
  | some (neg, h, m) => (if neg then '-' else '+') :: (two h ++ [':'] ++ two m)

/-- The text is a spelling of the stamp. -/
def Stamp.Spelled (s : Stamp) (t : Text) : Prop :=
  ∃ hh ff, HourText s.hour hh ∧ FracText s.frac ff ∧
    t = four s.year ++ ['-'] ++ two s.month ++ ['-'] ++ two s.day ++ ['T'] ++ hh ++ [':'] ++ two s.min ++ [':'] ++ two s.sec ++
      ff ++ zoneSpelled s.zone

/-- Seconds by which the clock of the stamp is ahead of UTC. -/
def Stamp.offset (s : Stamp) : Int :=
  match s.zone with
  | none => 0
  | some (neg, h, m) => if neg then -((h * 3600 + m * 60 : Nat) : Int) else ((h * 3600 + m * 60 : Nat) : Int)

/-- The moment a stamp denotes; the fraction counts to the nanosecond. -/
def Stamp.Denotes (s : Stamp) (t : GoTime) : Prop :=
  ∃ n, DayOf n ⟨s.year, s.month, s.day⟩ ∧
    t.sec = n * 86400 + s.hour * 3600 + s.min * 60 + s.sec - s.offset ∧
    (t.nano : Int) = ⌊fracVal s.frac * 10 ^ 9⌋ ∧ t.off = s.offset

end Verif.Cal
