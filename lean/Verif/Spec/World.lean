import Verif.Model.World
import Verif.Spec.Conn
/-!
# Vocabulary for statements about a central system and its charge points

Projections of the history only.
-/
namespace Verif.World
open Conn Codec Ocppj

variable {F : FloatFmt} {o₁ o₂ : Order}

/-- A charge point with this identity made connection `n`. -/
def Dialled (tr : List (Ev F o₁ o₂)) (n : Nat) (identity : Text) : Prop := Ev.dial n identity ∈ tr

/-- The central system registered connection `n` as `id`, in its `k`-th registration. -/
def Accepted (tr : List (Ev F o₁ o₂)) (n k : Nat) (id : String) : Prop := Ev.register n k id ∈ tr

/-- The central system has finished with connection `n`. -/
def Ended (tr : List (Ev F o₁ o₂)) (n : Nat) : Prop := ∃ k id, Accepted tr n k id ∧ Ev.reg (.cleanup k) ∈ tr

/-- Charge point `id` has a registered connection that the central system has not finished with. -/
def Registered (tr : List (Ev F o₁ o₂)) (id : String) : Prop := ∃ n k, Accepted tr n k id ∧ ¬ Ended tr n

/-- Connection `n` is the last one registered as `id`; it was the `k`-th registration. -/
def Latest (tr : List (Ev F o₁ o₂)) (n k : Nat) (id : String) : Prop :=
  Accepted tr n k id ∧ ∀ m j, Accepted tr m j id → j ≤ k

/-- The events at the charge point's end of connection `n`. -/
def cpEvents (n : Nat) (tr : List (Ev F o₁ o₂)) : List (Conn.Ev (ocppj F o₁ .cp)) :=
  tr.filterMap fun
    | .cp m e => if m = n then some e else none
    | _ => none

/-- The events at the central system's end of connection `n`. -/
def csEvents (n : Nat) (tr : List (Ev F o₁ o₂)) : List (Conn.Ev (ocppj F o₂ .cs)) :=
  tr.filterMap fun
    | .cs m _ e => if m = n then some e else none
    | _ => none

/-- The central system's end of connection `n` was closed: locally, by a failed read, or by a panic of the handler. -/
def CutOff (tr : List (Ev F o₁ o₂)) (n : Nat) : Prop := ∃ e ∈ csEvents n tr, e.Closes .cs

/-- The connection an event belongs to. -/
def Ev.link : Ev F o₁ o₂ → Option Nat
  | .cp n _ => some n
  | .cs n _ _ => some n
  | _ => none

/-- An event of the central system's process. -/
def Ev.ofCs : Ev F o₁ o₂ → Bool
  | .cp _ _ => false
  | _ => true

/-- The library at the central system has nothing left to do, and no handler call is in progress: only a new connection, a
failure or a frame on a connection, or a call by the user changes anything. -/
def Quiet (csURL : Text) (w : St F o₁ o₂) : Prop :=
  ∀ e w', Step csURL w e w' → match e with
    | .dial _ _ | .cp _ _ | .reg (.waitConnect _ _) => True
    | .reg _ | .register _ _ _ => False
    | .cs _ _ e => ofLoop e = false

end Verif.World
