import Verif.Model.System
/-!
# Schedules in which nothing goes wrong
-/
namespace Verif.Ocppj
open Conn Codec

/-- Something goes wrong at an end: a read or a write fails, somebody closes the connection or cancels the context, a `Send` times out,
the handler panics, or its answer is not written. -/
def Fault {S : Sem} : Ev S → Bool
  | .readErr _ _ => true
  | .close => true
  | .ctxDone => true
  | .timeout _ => true
  | .handlerPanic _ => true
  | .writeCall _ none => true
  | .refuse _ _ _ false => true
  | .answer _ _ _ none => true
  | _ => false

/-- A call of `Send`. -/
def isSend {S : Sem} : Ev S → Bool
  | .send _ _ _ => true
  | _ => false

/-- Nothing has gone wrong at this end, and the objects given to the library could be encoded: the requests, and what the handler
returned, which was an error or a response (or both). -/
structure Smooth {F : FloatFmt} {o : Order} {side : Side} (tr : List (Ev (ocppj F o side))) : Prop where
  noFault : ∀ e ∈ tr, Fault e = false
  requests : ∀ i id (q : Req), Ev.send (S := ocppj F o side) i id q ∈ tr → ∃ text, marshal F q.type.ty q.val = .ok text
  answers : ∀ id (resp : Option Resp) err, Ev.handlerRet (S := ocppj F o side) id resp err ∈ tr →
    err ≠ none ∨ ∃ r text, resp = some r ∧ marshal F r.type.ty r.val = .ok text

variable {F : FloatFmt} {o₁ o₂ : Order}

/-- An event at one of the two ends is a fault or a new `Send`. -/
def External (e : Ev (ocppj F o₁ .cp) ⊕ Ev (ocppj F o₂ .cs)) : Prop :=
  e.elim (fun e => Fault e = true ∨ isSend e = true) (fun e => Fault e = true ∨ isSend e = true)

/-- Nothing is left to do: only a fault or a new `Send` can happen. -/
def AtRest (x : Sys F o₁ o₂) : Prop := ∀ e y, Sys.Step x e y → External e

/-- How often `Send` has been called, at both ends. -/
def sendCount (tr : List (Ev (ocppj F o₁ .cp) ⊕ Ev (ocppj F o₂ .cs))) : Nat :=
  tr.countP (fun e => e.elim isSend isSend)

end Verif.Ocppj
