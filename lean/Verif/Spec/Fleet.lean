import Verif.Model.Fleet
import Verif.Spec.World
/-!
# Vocabulary for statements about charge points that reconnect

Projections of the history only.
-/
namespace Verif.Fleet
open Codec Ocppj World

variable {F : FloatFmt} {o₁ o₂ : Order}

/-- The connections that charge point `i` made, in order. -/
def connsOf (i : Nat) (tr : List (Ev F o₁ o₂)) : List Nat :=
  tr.filterMap fun
    | .dialled j _ n _ => if j = i then some n else none
    | _ => none

/-- The central system's part of a history. -/
def worldEvents (tr : List (Ev F o₁ o₂)) : List (World.Ev F o₁ o₂) :=
  tr.filterMap fun
    | .dialled _ _ n identity => some (.dial n identity)
    | .halfDialled _ n identity => some (.dial n identity)
    | .self _ _ => none
    | .on _ _ n e => some (.cp n e)
    | .cs e => some e

/-- Charge point `i`'s part of a history, as its own goroutine and user see it. -/
def ownEvents (i : Nat) (tr : List (Ev F o₁ o₂)) : List ChargePoint.Ev :=
  tr.filterMap fun
    | .dialled j k _ _ => if j = i then some (.dialOk k) else none
    | .halfDialled j _ _ => if j = i then some .dialFail else none
    | .self j e => if j = i then some e else none
    | .on j k _ e => if j = i then face k e else none
    | .cs _ => none

end Verif.Fleet
