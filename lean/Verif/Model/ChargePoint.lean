import Verif.Model.Go
/-!
# The charge point: construction, serving loop and reconnection

Models `cp.New` (cp/cp.go:41-66), `getNewWebsocketConnection` and `handleWebsocketConnection`
(cp/json.go:20-66), `WaitConnect`, `WaitDisconnect`, `Connection` (json.go:15-17, 68-74) and
`handleSoap` (cp/soap.go:14-29).

Simplifications: dialling is one step with an arbitrary outcome; the 5 s pause (json.go:46) is no
step; what happens on a connection while it is served is `Verif.Model.Conn`, here a connection is
only alive or closed and serving it is the events `read` and `handle`/`handled`.  The unsynchronised
accesses of user goroutines to the fields of `chargePoint` are atomic steps here.
If the first dial fails, `New` returns an error (cp.go:53-55); a further dial then stands for another
call of `New` with the same arguments, which starts in the same state.
-/
namespace Verif.ChargePoint

/-- Where the goroutine of `handleWebsocketConnection` (or `New` before it) is. -/
inductive Phase where
  /-- before or in `ws.Dial` (json.go:21) -/
  | dialing
  /-- dialled connection `n`, before `cp.conn = conn` (json.go:25) -/
  | dialled (n : Nat)
  /-- before `cp.CentralSystem = …` (json.go:26) -/
  | connSet
  /-- before `close(cp.connectedChan)` (json.go:28) -/
  | serviceSet
  /-- in the select (json.go:35) -/
  | select
  /-- in the handler or in `SendResponse` (json.go:59-60) -/
  | handling
  /-- saw the closed connection (json.go:39), before `cp.connectedChan = make(…)` (json.go:41) -/
  | lost
  /-- returned (json.go:38) -/
  | stopped
  deriving DecidableEq, Repr

/-- State of a JSON charge point.  Connections and channels are numbered in order of creation. -/
structure St where
  /-- every connection made, and whether it is closed -/
  conns : List Bool
  /-- `cp.conn` -/
  conn : Option Nat
  /-- the connection in `cp.CentralSystem` -/
  service : Option Nat
  /-- every connect channel made, and whether it is closed -/
  chans : List Bool
  /-- `cp.connectedChan` -/
  chan : Nat
  phase : Phase
  /-- the context is cancelled -/
  cancelled : Bool
  /-- `close` of a closed channel, or a nil connection used -/
  panicked : Bool

/-- `New` up to the dial (cp.go:42-50). -/
def init : St where
  conns := []
  conn := none
  service := none
  chans := [false]
  chan := 0
  phase := .dialing
  cancelled := false
  panicked := false

/-- Whether connection `n` is closed. -/
def St.connClosed (s : St) (n : Nat) : Bool := (s.conns[n]?).getD false

/-- Whether channel `c` is closed. -/
def St.chanClosed (s : St) (c : Nat) : Bool := (s.chans[c]?).getD false

/-- Events. -/
inductive Ev where
  /-- `ws.Dial` succeeded with connection `n` -/
  | dialOk (n : Nat)
  /-- `ws.Dial` failed -/
  | dialFail
  /-- json.go:25 -/
  | setConn
  /-- json.go:26 -/
  | setService
  /-- json.go:28 -/
  | announce
  /-- json.go:39 -/
  | seeClosed
  /-- json.go:41 -/
  | renew
  /-- connection `n` is closed: read error, peer gone, or a local `Close` -/
  | drop (n : Nat)
  /-- a reader's result was received (json.go:52) -/
  | read
  /-- a request of connection `n` was taken (json.go:54) -/
  | handle (n : Nat)
  /-- the handler returned and the reply was attempted (json.go:59-63) -/
  | handled
  /-- the context was cancelled -/
  | cancel
  /-- json.go:36-38 -/
  | stop
  /-- `WaitConnect` returned channel `c` -/
  | waitConnect (c : Nat)
  /-- `WaitDisconnect` returned the channel of connection `n` -/
  | waitDisconnect (n : Nat)
  /-- a `Send` was given to connection `n` -/
  | send (n : Nat)
  deriving DecidableEq, Repr

/-- Steps of the charge point, its user and the network. -/
inductive Step (s : St) : Ev → St → Prop where
  | dialOk : s.phase = .dialing →
      Step s (.dialOk s.conns.length)
        { s with conns := s.conns ++ [false], phase := .dialled s.conns.length }
  | dialFail : s.phase = .dialing → Step s .dialFail s
  | setConn {n} : s.phase = .dialled n →
      Step s .setConn { s with conn := some n, phase := .connSet }
  | setService : s.phase = .connSet →
      Step s .setService { s with service := s.conn, phase := .serviceSet }
  | announce : s.phase = .serviceSet →
      Step s .announce { s with
        chans := s.chans.set s.chan true
        panicked := s.panicked || s.chanClosed s.chan
        phase := .select }
  | seeClosed {n} : s.phase = .select → s.conn = some n → s.connClosed n = true →
      Step s .seeClosed { s with phase := .lost }
  | renew : s.phase = .lost →
      Step s .renew { s with chans := s.chans ++ [false], chan := s.chans.length, phase := .dialing }
  | drop {n} : n < s.conns.length → Step s (.drop n) { s with conns := s.conns.set n true }
  | read : s.phase = .select → Step s .read s
  | handle {n} : s.phase = .select → s.conn = some n →
      Step s (.handle n) { s with phase := .handling }
  | handled : s.phase = .handling → Step s .handled { s with phase := .select }
  | cancel : Step s .cancel { s with cancelled := true }
  | stop {n} : s.phase = .select → s.cancelled = true → s.conn = some n →
      Step s .stop { s with conns := s.conns.set n true, phase := .stopped }
  | waitConnect : Step s (.waitConnect s.chan) s
  | waitDisconnect {n} : s.conn = some n → Step s (.waitDisconnect n) s
  | send {n} : s.service = some n → Step s (.send n) s

/-- Histories. -/
inductive Run (s : St) : List Ev → St → Prop where
  | nil : Run s [] s
  | snoc {tr e s' s''} : Run s tr s' → Step s' e s'' → Run s (tr ++ [e]) s''

/-- Histories of a JSON charge point, from the beginning of `New`. -/
abbrev Exec (tr : List Ev) (s : St) : Prop := Run init tr s

/-! ### Construction -/

/-- `cp.CentralSystem` after `New`: nil interface, JSON or SOAP service. -/
inductive Service where
  | nil
  | json
  | soap (url identity : String)
  deriving DecidableEq, Repr

/-- What `New` returns (cp.go:41-66). -/
structure Built where
  /-- `Identity()` (cp.go:68-70) -/
  identity : String
  service : Service
  /-- `cp.conn` is set -/
  hasConn : Bool
  /-- a SOAP server was started on this port -/
  server : Option String
  /-- the channel that `WaitConnect` returns (json.go:68-70) is closed -/
  connected : Bool
  deriving DecidableEq, Repr

/-- `cp.New`; `dial` is the outcome of `ws.Dial` (cp.go:41-66). -/
def new (transport identity csURL : String) (port : Option String) (dial : GoRes Unit) :
    GoRes Built :=
  if transport = "json" then
    match dial with
    | .ok _ => .ok ⟨identity, .json, true, none, true⟩   -- closed at json.go:29
    | .err e => .err ("could not dial to central system: " ++ e)
    | .panic m => .panic m
  else if transport = "soap" then
    match port with
    | none => .err "port must be set when running a SOAP ChargePoint"
    | some p => .ok ⟨identity, .soap csURL identity, false, some p, false⟩
  else .ok ⟨identity, .nil, false, none, false⟩

/-- `Send` promoted from the embedded `CentralSystem` (cp.go:31): which service gets the request. -/
def Built.send (b : Built) : GoRes Service :=
  match b.service with
  | .nil => .panic "nil pointer dereference"
  | s => .ok s

/-- `WaitDisconnect` (json.go:72-74): `cp.conn.WaitClose()` reads a field of `cp.conn`. -/
def Built.waitDisconnect (b : Built) : GoRes Unit :=
  if b.hasConn then .ok () else .panic "nil pointer dereference"

/-! ### The SOAP charge point's server -/

/-- State of `handleSoap` (soap.go:14-29): whether its own goroutine has returned, and whether the
goroutine of soap.go:19-21 is still serving. -/
structure SoapSt where
  cancelled : Bool
  returned : Bool
  serving : Bool

/-- Events of a SOAP charge point. -/
inductive SoapEv where
  | cancel
  /-- soap.go:23-24 -/
  | ret
  /-- `ListenAndServe` fails (soap.go:20, 25) -/
  | listenFail
  /-- a request is served: `ServeHTTP` (soap.go:33-45) -/
  | serve
  deriving DecidableEq, Repr

/-- Steps of `handleSoap`. -/
inductive SoapStep (s : SoapSt) : SoapEv → SoapSt → Prop where
  | cancel : SoapStep s .cancel { s with cancelled := true }
  | ret : s.returned = false → s.cancelled = true → SoapStep s .ret { s with returned := true }
  | listenFail : s.serving = true → SoapStep s .listenFail { s with serving := false }
  | serve : s.serving = true → SoapStep s .serve s

/-- Histories of the SOAP server. -/
inductive SoapRun (s : SoapSt) : List SoapEv → SoapSt → Prop where
  | nil : SoapRun s [] s
  | snoc {tr e s' s''} : SoapRun s tr s' → SoapStep s' e s'' → SoapRun s (tr ++ [e]) s''

/-- After `go handleSoap(…)` (cp.go:63). -/
def soapInit : SoapSt := ⟨false, false, true⟩

end Verif.ChargePoint
