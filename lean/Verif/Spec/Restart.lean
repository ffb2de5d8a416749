import Verif.Model.Restart
import Verif.Spec.World
/-!
# Vocabulary for statements about a central system that is started again

Projections of the history only.
-/
namespace Verif.Restart
open Codec Ocppj World Fleet

variable {F : FloatFmt} {o₁ o₂ : Order}

/-- The connections that charge point `i` made, in order: the process of the central system and the number there. -/
def connsOf (i : Nat) (tr : List (Ev F o₁ o₂)) : List (Nat × Nat) :=
  tr.filterMap fun
    | .dialled j _ p n _ => if j = i then some (p, n) else none
    | _ => none

/-- What happened at process `p` of the central system and on the connections made to it. -/
def procEvents (p : Nat) (tr : List (Ev F o₁ o₂)) : List (World.Ev F o₁ o₂) :=
  tr.filterMap fun
    | .dialled _ _ q n identity => if q = p then some (.dial n identity) else none
    | .halfDialled _ q n identity => if q = p then some (.dial n identity) else none
    | .self _ _ => none
    | .on _ _ q n e => if q = p then some (.cp n e) else none
    | .cs q e => if q = p then some e else none
    | .restart _ => none

/-- Charge point `i`'s part of a history, as its own goroutine and user see it. -/
def ownEvents (i : Nat) (tr : List (Ev F o₁ o₂)) : List ChargePoint.Ev :=
  tr.filterMap fun
    | .dialled j k _ _ _ => if j = i then some (.dialOk k) else none
    | .halfDialled j _ _ _ => if j = i then some .dialFail else none
    | .self j e => if j = i then some e else none
    | .on j k _ _ e => if j = i then face k e else none
    | .cs _ _ => none
    | .restart _ => none

/-- The number of processes of the central system so far. -/
def started (tr : List (Ev F o₁ o₂)) : Nat := 1 + tr.countP fun | .restart _ => true | _ => false

end Verif.Restart
