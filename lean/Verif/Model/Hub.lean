import Verif.Model.World
import Verif.Model.Handshake
/-!
# A central system and whoever connects to it

`handleWebsocket` (cs/cs.go:95-166) as in `Verif.Model.World`, but for any clients at all: whatever HTTP request asks for a websocket
is upgraded (ws/conn.go:67-93 lets in every origin, and nothing is checked but the handshake itself), and what then arrives on the
connection is any text, at any time.  With the metadata that each handler call is given (cs.go:22-25, 147-150).

Simplifications: those of `Verif.Model.Registry`, `Verif.Model.Conn` and `Verif.Model.Handshake`.  The central system does nothing with
a connection before it has registered it.  Its SOAP side is `Verif.Model.SoapNet`.
-/
namespace Verif.Hub
open Conn Codec Ocppj

/-- The HTTP request that opens a connection: what the handshake looks at, and all the rest of it (other headers such as
`Authorization`, the remote address, …), which only the handler gets to see. -/
structure Upgrade extends Http.WsRequest where
  rest : Text

/-- The request with which a charge point with this identity dials `csURL` (cp/json.go, ws/conn.go:41-65; `Verif.Model.Http`'s `dial`): the
version is offered as subprotocol, `key` is the websocket key, `rest` is what else net/http sends. -/
def dialled (csURL identity : Text) (version key : String) (rest : Text) : Upgrade :=
  match Http.parseRest (csURL ++ '/' :: identity) with
  | none => ⟨Http.wsDialRequest version key [], rest⟩
  | some (_, path) => ⟨Http.wsDialRequest version key path, rest⟩

/-- A connection: the request that opened it, the central system's end of it, and its number in the registry once `handleWebsocket`
has registered it (cs.go:108-118). -/
structure Member (F : FloatFmt) (o : Order) where
  request : Upgrade
  fin : Conn.St (ocppj F o .cs)
  reg : Option Nat

/-- The central system (cs.go:49-58) and the connections made to it. -/
structure St (F : FloatFmt) (o : Order) where
  reg : Registry.St
  members : List (Member F o)

/-- A new central system (cs.go:60-69). -/
def init (F : FloatFmt) (o : Order) : St F o := ⟨Registry.init, []⟩

/-- The process is up: no goroutine has panicked. -/
def St.alive {F : FloatFmt} {o : Order} (s : St F o) : Prop := ∀ m ∈ s.members, m.fin.crashed = false

/-- `ChargePointRequestMetadata` (cs.go:22-25). -/
structure Metadata where
  chargePointID : String
  httpRequest : Upgrade

/-- Events. -/
inductive Ev (F : FloatFmt) (o : Order) where
  /-- somebody made connection `n` with this request: the handshake is through -/
  | upgrade (n : Nat) (r : Upgrade)
  /-- the central system registers connection `n` as `id`; it is the `k`-th registration -/
  | register (n k : Nat) (id : String)
  /-- the central system's bookkeeping, or a call of one of its methods -/
  | reg (e : Registry.Ev)
  /-- an event at the central system's end of connection `n`; `about` is what the handler is called with, if it is called
  (cs.go:147-150) -/
  | conn (n : Nat) (about : Metadata) (e : Conn.Ev (ocppj F o .cs))

variable {F : FloatFmt} {o : Order}

/-- Steps. -/
inductive Step (s : St F o) : Ev F o → St F o → Prop where
  /-- cs.go:72-74, 97-106 -/
  | upgrade {r : Upgrade} {p : String} {id : Text} : s.alive → Http.accept r.toWsRequest = some (.switched p, some id) →
      Step s (.upgrade s.members.length r) { s with members := s.members ++ [⟨r, Conn.init _, none⟩] }
  /-- cs.go:108-118 -/
  | register {n m} {p : String} {id : Text} {reg'} : s.alive → s.members[n]? = some m → m.reg = none →
      Http.accept m.request.toWsRequest = some (.switched p, some id) →
      Registry.Step s.reg (.handshake s.reg.table.length (String.ofList id)) reg' →
      Step s (.register n s.reg.table.length (String.ofList id)) ⟨reg', s.members.set n { m with reg := some s.reg.table.length }⟩
  /-- the rest of cs.go:95-166 outside the loop, and cs.go:226-234 -/
  | reg {e reg'} : s.alive → Registry.Step s.reg e reg' → (∀ n id, e ≠ .handshake n id) → (∀ n, e ≠ .drop n) →
      (∀ k id, e = .leave k id → ∃ (n : Nat) (m : Member F o), s.members[n]? = some m ∧ m.reg = some k ∧ m.fin.loop = .exited) →
      Step s (.reg e) { s with reg := reg' }
  /-- a step of the central system's end of a connection, cs.go:139-165 and ws/conn.go -/
  | conn {n k e m c fin'} : s.alive → s.members[n]? = some m → m.reg = some k → s.reg.table[k]? = some c → Conn.Step .cs m.fin e fin' →
      (World.ofLoop e = true → c.phase = .serving) →
      Step s (.conn n ⟨c.cp, m.request⟩ e) ⟨World.noteClosed s.reg k fin'.closed, s.members.set n { m with fin := fin' }⟩

/-- Histories of a new central system. -/
inductive Exec : List (Ev F o) → St F o → Prop where
  | nil : Exec [] (init F o)
  | snoc {tr e s s'} : Exec tr s → Step s e s' → Exec (tr ++ [e]) s'

/-- Continuations. -/
inductive Run (s : St F o) : List (Ev F o) → St F o → Prop where
  | nil : Run s [] s
  | snoc {tr e s' s''} : Run s tr s' → Step s' e s'' → Run s (tr ++ [e]) s''

end Verif.Hub
