import Verif.Model.Registry
/-!
# What the registry theorems say, in terms of histories

These notions only look at the events of a history, not at the model's maps.
-/
namespace Verif.Registry

/-- Connection `n` was made by charge point `id`. -/
def Made (tr : List Ev) (n : Nat) (id : String) : Prop := Ev.handshake n id ∈ tr

/-- Connection `n` was closed. -/
def Closed (tr : List Ev) (n : Nat) : Prop := Ev.drop n ∈ tr

/-- The bookkeeping after the end of connection `n` was done. -/
def Cleaned (tr : List Ev) (n : Nat) : Prop := Ev.cleanup n ∈ tr

/-- Connection `n` belongs to `id` and is not cleaned up. -/
def Open (tr : List Ev) (n : Nat) (id : String) : Prop := Made tr n id ∧ ¬ Cleaned tr n

/-- Charge point `id` has a connection not cleaned up. -/
def Registered (tr : List Ev) (id : String) : Prop := ∃ n, Open tr n id

/-- Connection `n` is the last one `id` made. -/
def Newest (tr : List Ev) (n : Nat) (id : String) : Prop :=
  Made tr n id ∧ ∀ m, Made tr m id → m ≤ n

/-- Whether an event concerns charge point `id`. -/
def Concerns (tr : List Ev) (id : String) : Ev → Prop
  | .handshake _ i => i = id
  | .notify _ i => i = id
  | .leave _ i => i = id
  | .connected _ i => i = id
  | .disconnected _ i => i = id
  | .waitConnect i _ => i = id
  | .drop n => Made tr n id
  | .cleanup n => Made tr n id

/-- Whether the channel a call of `WaitConnect(id)` would return now is closed. -/
def St.waitClosed (s : St) (id : String) : Bool :=
  match (s.ensureChan id).chans id with
  | none => false
  | some c => (s.ensureChan id).chanClosed[c]? == some true

/-- The library has nothing left to do: no handler goroutine and no listener goroutine can move. -/
def Quiet (s : St) : Prop :=
  ∀ e s', Step s e s' → match e with
    | .handshake _ _ | .drop _ | .waitConnect _ _ => True
    | _ => False

end Verif.Registry
