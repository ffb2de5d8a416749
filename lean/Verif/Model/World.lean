import Verif.Model.System
import Verif.Model.Registry
import Verif.Model.Http
/-!
# A central system and all its charge points

The registry of the central system (`Verif.Model.Registry`), one pair of connection ends (`Verif.Model.System`) for every
websocket connection ever made to it, and the URL under which charge points dial it (`Verif.Model.Http`).  The ends at the
central system are one process: when one of them crashes, none of them moves any more.  The ends at the charge points are
independent of each other.

Simplifications.  All charge points list the properties of an object in the same order (`o₁`; by C03 the order does not
matter).  A charge point that reconnects is a new link; which of its links its user's Sends go to is `Verif.Model.Fleet`.  Connections
are numbered in the order in which they are made, and the registry numbers them in the order in which it registers them; the two
orders may differ.  The central system does nothing with a connection before it has registered it.
-/
namespace Verif.World
open Conn Codec Ocppj

/-- A connection: the identity the charge point was given (cp/cp.go:41), the two ends, and its number in the registry once
`handleWebsocket` has registered it (cs/cs.go:108-118). -/
structure Link (F : FloatFmt) (o₁ o₂ : Order) where
  identity : Text
  ends : Sys F o₁ o₂
  reg : Option Nat

/-- The central system (cs/cs.go:49-58) and all connections made to it. -/
structure St (F : FloatFmt) (o₁ o₂ : Order) where
  reg : Registry.St
  links : List (Link F o₁ o₂)

/-- A new central system (cs/cs.go:60-69). -/
def init (F : FloatFmt) (o₁ o₂ : Order) : St F o₁ o₂ := ⟨Registry.init, []⟩

/-- The central system's process is up: no goroutine of it has panicked. -/
def St.alive {F : FloatFmt} {o₁ o₂ : Order} (w : St F o₁ o₂) : Prop := ∀ l ∈ w.links, l.ends.cs.crashed = false

/-- Events. -/
inductive Ev (F : FloatFmt) (o₁ o₂ : Order) where
  /-- a charge point with this identity made connection `n`: the handshake is through -/
  | dial (n : Nat) (identity : Text)
  /-- the central system registers connection `n` as `id`; it is the `k`-th registration -/
  | register (n k : Nat) (id : String)
  /-- the central system's bookkeeping, or a call of one of its methods -/
  | reg (e : Registry.Ev)
  /-- an event at the charge point's end of connection `n` -/
  | cp (n : Nat) (e : Conn.Ev (ocppj F o₁ .cp))
  /-- an event at the central system's end of connection `n`; `id` is the charge point id that the handler is called with, if it
  is called (`ChargePointRequestMetadata`, cs/cs.go:147-150) -/
  | cs (n : Nat) (id : String) (e : Conn.Ev (ocppj F o₂ .cs))

/-- Events of the serving loop (cs/cs.go:139-165), which runs between cs.go:121 and the deferred function. -/
def ofLoop {S : Sem} : Conn.Ev S → Bool
  | .spawn _ | .take _ _ _ _ | .handlerRet _ _ _ | .handlerPanic _ | .answer _ _ _ _ | .result _ _ | .seeClosed | .ctxDone => true
  | _ => false

/-- The registry learns that its connection `n` is closed: the channel of `conn.WaitClose` (ws/conn.go:107-109). -/
def noteClosed (r : Registry.St) (n : Nat) (closed : Bool) : Registry.St :=
  match closed, r.table[n]? with
  | true, some c => { r with table := r.table.set n { c with closed := true } }
  | _, _ => r

variable {F : FloatFmt} {o₁ o₂ : Order}

/-- Steps of the central system at `csURL` and its charge points. -/
inductive Step (csURL : Text) (w : St F o₁ o₂) : Ev F o₁ o₂ → St F o₁ o₂ → Prop where
  /-- ws/conn.go:56-65 at the charge point, cs/cs.go:72-74, 97-106 at the central system -/
  | dial {identity : Text} {id : Text} : w.alive → Http.registeredAs csURL identity = some id →
      Step csURL w (.dial w.links.length identity) { w with links := w.links ++ [⟨identity, Sys.init F o₁ o₂, none⟩] }
  /-- cs/cs.go:108-118 -/
  | register {n l} {id : Text} {reg'} : w.alive → w.links[n]? = some l → l.reg = none → Http.registeredAs csURL l.identity = some id →
      Registry.Step w.reg (.handshake w.reg.table.length (String.ofList id)) reg' →
      Step csURL w (.register n w.reg.table.length (String.ofList id)) ⟨reg', w.links.set n { l with reg := some w.reg.table.length }⟩
  /-- the rest of cs/cs.go:95-166 outside the loop, and cs.go:226-234 -/
  | reg {e reg'} : w.alive → Registry.Step w.reg e reg' → (∀ n id, e ≠ .handshake n id) → (∀ n, e ≠ .drop n) →
      (∀ k id, e = .leave k id → ∃ (n : Nat) (l : Link F o₁ o₂), w.links[n]? = some l ∧ l.reg = some k ∧ l.ends.cs.loop = .exited) →
      Step csURL w (.reg e) { w with reg := reg' }
  /-- a step of a charge point's end -/
  | cp {n e l ends'} : w.links[n]? = some l → Sys.Step l.ends (.inl e) ends' →
      Step csURL w (.cp n e) { w with links := w.links.set n { l with ends := ends' } }
  /-- a step of the central system's end -/
  | cs {n k e l c ends'} : w.alive → w.links[n]? = some l → l.reg = some k → w.reg.table[k]? = some c → Sys.Step l.ends (.inr e) ends' →
      (ofLoop e = true → c.phase = .serving) →
      Step csURL w (.cs n c.cp e) ⟨noteClosed w.reg k ends'.cs.closed, w.links.set n { l with ends := ends' }⟩

/-- Histories of a new central system. -/
inductive Exec (csURL : Text) : List (Ev F o₁ o₂) → St F o₁ o₂ → Prop where
  | nil : Exec csURL [] (init F o₁ o₂)
  | snoc {tr e w w'} : Exec csURL tr w → Step csURL w e w' → Exec csURL (tr ++ [e]) w'

/-- Continuations. -/
inductive Run (csURL : Text) (w : St F o₁ o₂) : List (Ev F o₁ o₂) → St F o₁ o₂ → Prop where
  | nil : Run csURL w [] w
  | snoc {tr e w' w''} : Run csURL w tr w' → Step csURL w' e w'' → Run csURL w (tr ++ [e]) w''

/-- What happened on connection `n`. -/
def onLink (n : Nat) (tr : List (Ev F o₁ o₂)) : List (Conn.Ev (ocppj F o₁ .cp) ⊕ Conn.Ev (ocppj F o₂ .cs)) :=
  tr.filterMap fun
    | .cp m e => if m = n then some (.inl e) else none
    | .cs m _ e => if m = n then some (.inr e) else none
    | _ => none

/-- What happened in the central system's bookkeeping, the listeners called, and the calls of its methods. -/
def regEvents (tr : List (Ev F o₁ o₂)) : List Registry.Ev :=
  tr.filterMap fun
    | .reg e => some e
    | _ => none

end Verif.World
