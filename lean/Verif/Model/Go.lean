/-!
# Results of Go functions

Models the three ways a Go call can end: a value with a nil error, a non-nil error, or a run-time
panic (index out of range, nil dereference, `panic(...)`, reflect misuse).  Used for every fallible
function of /repo; panics matter because a panic in a goroutine that is not an HTTP handler
goroutine (e.g. the one started at ws/conn.go:169-171) kills the process.
-/
namespace Verif

/-- A Go result: `(v, nil)`, `(_, err)` or a panic.  Error texts are kept for readability only. -/
inductive GoRes (α : Type) where
  | ok (a : α)
  | err (msg : String)
  | panic (msg : String)
  deriving Repr, DecidableEq

namespace GoRes
variable {α β γ : Type}

/-- Sequencing: `if err != nil { return err }` after each call; panics propagate. -/
@[simp] def bind (x : GoRes α) (f : α → GoRes β) : GoRes β :=
  match x with
  | ok a => f a
  | err m => err m
  | panic m => panic m

instance : Monad GoRes where
  pure := ok
  bind := bind

@[simp] theorem pure_eq (a : α) : (pure a : GoRes α) = ok a := rfl
@[simp] theorem bind_eq (x : GoRes α) (f : α → GoRes β) : (x >>= f) = x.bind f := rfl
@[simp] theorem map_eq (x : GoRes α) (f : α → β) : (f <$> x) = x.bind (fun a => ok (f a)) := rfl

/-- The call returned normally with a nil error. -/
@[simp] def isOk : GoRes α → Bool
  | ok _ => true
  | _ => false

/-- The call panicked. -/
@[simp] def isPanic : GoRes α → Bool
  | panic _ => true
  | _ => false

/-- The call returned a non-nil error. -/
@[simp] def isErr : GoRes α → Bool
  | err _ => true
  | _ => false

/-- The value, if the call succeeded. -/
@[simp] def val? : GoRes α → Option α
  | ok a => some a
  | _ => none

/-- A total function result that may be absent becomes an error. -/
@[simp] def ofOption (msg : String) : Option α → GoRes α
  | some a => ok a
  | none => err msg

theorem bind_assoc (x : GoRes α) (f : α → GoRes β) (g : β → GoRes γ) :
    (x.bind f).bind g = x.bind (fun a => (f a).bind g) := by
  cases x <;> rfl

theorem bind_eq_ok {x : GoRes α} {f : α → GoRes β} {b : β} :
    x.bind f = ok b ↔ ∃ a, x = ok a ∧ f a = ok b := by
  cases x <;> simp

theorem bind_eq_panic {x : GoRes α} {f : α → GoRes β} {m : String} :
    x.bind f = panic m ↔ x = panic m ∨ ∃ a, x = ok a ∧ f a = panic m := by
  cases x <;> simp

theorem ok_bind (a : α) (f : α → GoRes β) : (ok a).bind f = f a := rfl

end GoRes

/-- Wire texts are sequences of Unicode scalar values.  Simplification: Go strings are byte strings;
texts that are not valid UTF-8 (which encoding/json replaces by U+FFFD) are outside the model. -/
abbrev Text := List Char

end Verif
