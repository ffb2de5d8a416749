import Verif.Model.Hub
import Verif.Model.System
/-!
# Charge points of this library among strangers

A central system with arbitrary clients (`Verif.Model.Hub`), of which any are charge points of this library: such a client is the end of
a connection of `Verif.Model.Conn`, dials under its identity, sends what its end writes and gets what the central system's end writes.

Simplifications: those of `Verif.Model.Hub` and `Verif.Model.System` (the stream is reliable; what is under way may never arrive).
-/
namespace Verif.Company
open Conn Codec Ocppj

/-- A charge point's end of a connection: the identity it was given (cp/cp.go:41), the end (ws/conn.go:28-39), and what is under way in
both directions. -/
structure Peer (F : FloatFmt) (o₁ : Order) where
  identity : Text
  fin : Conn.St (ocppj F o₁ .cp)
  toCs : List Text
  toCp : List Text

/-- The central system, and for each connection the charge point that made it; `none` for a stranger. -/
structure St (F : FloatFmt) (o₁ o₂ : Order) where
  hub : Hub.St F o₂
  peers : List (Option (Peer F o₁))

/-- A new central system. -/
def init (F : FloatFmt) (o₁ o₂ : Order) : St F o₁ o₂ := ⟨Hub.init F o₂, []⟩

/-- Events. -/
inductive Ev (F : FloatFmt) (o₁ o₂ : Order) where
  /-- a charge point with this identity made connection `n` -/
  | dial (n : Nat) (identity : Text) (key : String) (rest : Text)
  /-- an event at a charge point's end of connection `n` -/
  | cp (n : Nat) (e : Conn.Ev (ocppj F o₁ .cp))
  /-- an event at the central system, or a stranger's connection -/
  | cs (e : Hub.Ev F o₂)

variable {F : FloatFmt} {o₁ o₂ : Order}

/-- Steps of the central system at `csURL` and its clients. -/
inductive Step (csURL : Text) (w : St F o₁ o₂) : Ev F o₁ o₂ → St F o₁ o₂ → Prop where
  /-- a charge point dials (cp/json.go, ws/conn.go:56-65; cs/cs.go:72-74, 97-106) -/
  | dial {identity id : Text} {key : String} {rest : Text} {hub'} : key ≠ "" → Http.registeredAs csURL identity = some id →
      Hub.Step w.hub (.upgrade w.hub.members.length (Hub.dialled csURL identity "V16" key rest)) hub' →
      Step csURL w (.dial w.hub.members.length identity key rest) ⟨hub', w.peers ++ [some ⟨identity, Conn.init _, [], []⟩]⟩
  /-- a stranger connects -/
  | stranger {n r hub'} : Hub.Step w.hub (.upgrade n r) hub' → Step csURL w (.cs (.upgrade n r)) ⟨hub', w.peers ++ [none]⟩
  /-- a step of the central system that is not about a charge point's connection, but for its registration -/
  | other {e hub'} : Hub.Step w.hub e hub' → (∀ n r, e ≠ .upgrade n r) → (∀ n about e', e = .conn n about e' → w.peers[n]? = some none) →
      Step csURL w (.cs e) ⟨hub', w.peers⟩
  /-- a step of the central system's end of a charge point's connection -/
  | cs {n about e p l hub'} : w.peers[n]? = some (some p) → Hub.Step w.hub (.conn n about e) hub' → Consumes e p.toCs l →
      Step csURL w (.cs (.conn n about e)) ⟨hub', w.peers.set n (some { p with toCs := l, toCp := p.toCp ++ Option.toList (α := Text) e.wrote })⟩
  /-- a step of a charge point's end -/
  | cp {n e p s' l} : w.peers[n]? = some (some p) → Conn.Step .cp p.fin e s' → Consumes e p.toCp l →
      Step csURL w (.cp n e) ⟨w.hub, w.peers.set n (some { p with fin := s', toCp := l, toCs := p.toCs ++ Option.toList (α := Text) e.wrote })⟩

/-- Histories of a new central system. -/
inductive Exec (csURL : Text) : List (Ev F o₁ o₂) → St F o₁ o₂ → Prop where
  | nil : Exec csURL [] (init F o₁ o₂)
  | snoc {tr e w w'} : Exec csURL tr w → Step csURL w e w' → Exec csURL (tr ++ [e]) w'

/-- Continuations. -/
inductive Run (csURL : Text) (w : St F o₁ o₂) : List (Ev F o₁ o₂) → St F o₁ o₂ → Prop where
  | nil : Run csURL w [] w
  | snoc {tr e w' w''} : Run csURL w tr w' → Step csURL w' e w'' → Run csURL w (tr ++ [e]) w''

/-- What happens of an event at the central system, seen as one with arbitrary clients. -/
def Ev.hub (csURL : Text) : Ev F o₁ o₂ → Option (Hub.Ev F o₂)
  | .dial n identity key rest => some (.upgrade n (Hub.dialled csURL identity "V16" key rest))
  | .cs e => some e
  | .cp _ _ => none

/-- The history of the central system, seen as one with arbitrary clients. -/
def hubEvents (csURL : Text) (tr : List (Ev F o₁ o₂)) : List (Hub.Ev F o₂) := tr.filterMap (Ev.hub csURL)

/-- What happened at the two ends of connection `n`. -/
def onLink (n : Nat) (tr : List (Ev F o₁ o₂)) : List (Conn.Ev (ocppj F o₁ .cp) ⊕ Conn.Ev (ocppj F o₂ .cs)) :=
  tr.filterMap fun
    | .cp m e => if m = n then some (.inl e) else none
    | .cs (.conn m _ e) => if m = n then some (.inr e) else none
    | _ => none

end Verif.Company
