import Verif.Model.World
import Verif.Model.SoapNet
import Verif.Lemmas.SoapNet2
import Verif.Spec.World
/-!
# A central system that serves OCPP 1.5 and OCPP 1.6 charge points at the same time

Everything that `Run` (cs/cs.go:71-93) sends to `handleWebsocket` is the `World`; everything that it sends to `handleSoap` (cs.go:86,
168-183), from any number of client processes, is one SOAP network whose server is the central system; and for every SOAP charge point
(cp/soap.go:14-45) there is another, whose server is this charge point and whose only client is the central system, through the
services that `GetServiceOf` returns for version 1.5 (cs.go:185-193).  All of the central system is one process, and the server and the
`Send`s of a SOAP charge point are another.

Simplifications: those of `Verif.Model.World` and `Verif.Model.SoapNet`.  A `Send` of the central system that panics does so in a
goroutine that nobody recovers (it is not called from inside a handler).  Which charge point a URL leads to is up to the network: a
`Send` over SOAP may go to any of them.
-/
namespace Verif.Mixed
open Conn Codec Ocppj

variable {F : FloatFmt} {o₁ o₂ : Order}

/-- The central system with its websocket connections, the SOAP requests made to it, and the SOAP requests that it makes to charge
point `p`. -/
structure St (F : FloatFmt) (o₁ o₂ : Order) where
  world : World.St F o₁ o₂
  inn : Soap.NetSt
  outs : Nat → Soap.NetSt

/-- Nothing has happened (cs.go:60-69). -/
def init (F : FloatFmt) (o₁ o₂ : Order) : St F o₁ o₂ := ⟨World.init F o₁ o₂, .init, fun _ => .init⟩

/-- The central system's process is up: no goroutine of it has panicked, be it with a connection or in a `Send` over SOAP. -/
def St.up (s : St F o₁ o₂) : Prop := s.world.alive ∧ ∀ p, 0 ∉ (s.outs p).dead

/-- Events. -/
inductive Ev (F : FloatFmt) (o₁ o₂ : Order) where
  /-- one of the `World`: the connections, the registry, the OCPP-J charge points -/
  | json (e : World.Ev F o₁ o₂)
  /-- one of a SOAP request to the central system -/
  | inn (e : Soap.NetEv)
  /-- one of a SOAP request of the central system to charge point `p` -/
  | out (p : Nat) (e : Soap.NetEv)

/-- Whether the central system takes part (as the only possible actor). -/
def Ev.ofCs : Ev F o₁ o₂ → Bool
  | .json e => e.ofCs
  | .inn e => e.server
  | .out _ e => !e.server

/-- Replace the SOAP requests to charge point `p`. -/
def St.setOut (s : St F o₁ o₂) (p : Nat) (n : Soap.NetSt) : St F o₁ o₂ := { s with outs := fun q => if q = p then n else s.outs q }

/-- One step.  Process 0 is the central system's, process `p + 1` that of SOAP charge point `p`. -/
inductive Step (csURL : Text) (G : Xml.FloatText) (s : St F o₁ o₂) : Ev F o₁ o₂ → St F o₁ o₂ → Prop where
  /-- cs.go:72-74, 95-166, 194-203 -/
  | json {e w'} : (e.ofCs = true → s.up) → World.Step csURL s.world e w' → Step csURL G s (.json e) { s with world := w' }
  /-- cs.go:86, 168-183, and the clients -/
  | inn {e n'} : (e.server = true → s.up) → (∀ i svc r, e = .send i svc r → svc.proc ≠ 0) → Soap.NetStep G true s.inn e n' →
      Step csURL G s (.inn e) { s with inn := n' }
  /-- cs.go:186-192 with internal/service/soap.go:21-28, and cp/soap.go:27-45 -/
  | out {p e n'} : (e.server = true → p + 1 ∉ s.inn.dead) → (e.server = false → s.up) →
      (∀ i svc r, e = .send i svc r → svc.proc = 0 ∧ svc.sender = [] ∧
        ∃ id url : String, s.world.reg.getServiceOf id "V15" url = .ok (.soap url id) ∧ svc.identity = id.toList ∧ svc.url = url.toList) →
      Soap.NetStep G false (s.outs p) e n' → Step csURL G s (.out p e) (s.setOut p n')

/-- Histories from the start. -/
inductive Exec (csURL : Text) (G : Xml.FloatText) : List (Ev F o₁ o₂) → St F o₁ o₂ → Prop where
  | nil : Exec csURL G [] (init F o₁ o₂)
  | snoc {tr e s s'} : Exec csURL G tr s → Step csURL G s e s' → Exec csURL G (tr ++ [e]) s'

/-- Continuations. -/
inductive Run (csURL : Text) (G : Xml.FloatText) (s : St F o₁ o₂) : List (Ev F o₁ o₂) → St F o₁ o₂ → Prop where
  | nil : Run csURL G s [] s
  | snoc {tr e s' s''} : Run csURL G s tr s' → Step csURL G s' e s'' → Run csURL G s (tr ++ [e]) s''

/-- What happened in the `World`. -/
def jsonOf (tr : List (Ev F o₁ o₂)) : List (World.Ev F o₁ o₂) := tr.filterMap fun
  | .json e => some e
  | _ => none

/-- What happened to the SOAP requests made to the central system. -/
def innOf (tr : List (Ev F o₁ o₂)) : List Soap.NetEv := tr.filterMap fun
  | .inn e => some e
  | _ => none

/-- What happened to the SOAP requests that the central system made to charge point `p`. -/
def outOf (p : Nat) (tr : List (Ev F o₁ o₂)) : List Soap.NetEv := tr.filterMap fun
  | .out q e => if q = p then some e else none
  | _ => none

end Verif.Mixed
