import Verif.Model.Hub
import Verif.Spec.Conn
/-!
# Vocabulary for statements about a central system and whoever connects to it

Projections of the history only.
-/
namespace Verif.Hub
open Conn Codec Ocppj

variable {F : FloatFmt} {o : Order}

/-- Somebody made connection `n` with this HTTP request. -/
def Upgraded (tr : List (Ev F o)) (n : Nat) (r : Upgrade) : Prop := Ev.upgrade n r ∈ tr

/-- The central system registered connection `n` as `id`, in its `k`-th registration. -/
def Accepted (tr : List (Ev F o)) (n k : Nat) (id : String) : Prop := Ev.register n k id ∈ tr

/-- The central system has finished with connection `n`. -/
def Ended (tr : List (Ev F o)) (n : Nat) : Prop := ∃ k id, Accepted tr n k id ∧ Ev.reg (.cleanup k) ∈ tr

/-- Somebody is registered as `id`. -/
def Registered (tr : List (Ev F o)) (id : String) : Prop := ∃ n k, Accepted tr n k id ∧ ¬ Ended tr n

/-- Connection `n` is the last one registered as `id`; it was the `k`-th registration. -/
def Latest (tr : List (Ev F o)) (n k : Nat) (id : String) : Prop :=
  Accepted tr n k id ∧ ∀ m j, Accepted tr m j id → j ≤ k

/-- What happened at the central system's end of connection `n`. -/
def connEvents (n : Nat) (tr : List (Ev F o)) : List (Conn.Ev (ocppj F o .cs)) :=
  tr.filterMap fun
    | .conn m _ e => if m = n then some e else none
    | _ => none

/-- What happened in the central system's bookkeeping, the listeners called, and the calls of its methods. -/
def regEvents (tr : List (Ev F o)) : List Registry.Ev :=
  tr.filterMap fun
    | .reg e => some e
    | _ => none

end Verif.Hub
