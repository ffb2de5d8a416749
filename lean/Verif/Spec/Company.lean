import Verif.Model.Company
import Verif.Spec.Conn
/-!
# Vocabulary for statements about charge points among strangers

Projections of the history only.
-/
namespace Verif.Company
open Conn Codec Ocppj

variable {F : FloatFmt} {o₁ o₂ : Order}

/-- A charge point of this library with this identity made connection `n`. -/
def Dialled (tr : List (Ev F o₁ o₂)) (n : Nat) (identity : Text) : Prop := ∃ key rest, Ev.dial n identity key rest ∈ tr

/-- The central system registered connection `n` as `id`, in its `k`-th registration. -/
def Accepted (tr : List (Ev F o₁ o₂)) (n k : Nat) (id : String) : Prop := Ev.cs (.register n k id) ∈ tr

/-- The events at the charge point's end of connection `n`. -/
def cpEvents (n : Nat) (tr : List (Ev F o₁ o₂)) : List (Conn.Ev (ocppj F o₁ .cp)) :=
  tr.filterMap fun
    | .cp m e => if m = n then some e else none
    | _ => none

/-- The events at the central system's end of connection `n`. -/
def csEvents (n : Nat) (tr : List (Ev F o₁ o₂)) : List (Conn.Ev (ocppj F o₂ .cs)) :=
  tr.filterMap fun
    | .cs (.conn m _ e) => if m = n then some e else none
    | _ => none

end Verif.Company
