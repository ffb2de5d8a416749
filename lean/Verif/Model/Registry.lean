import Verif.Model.GoMap
import Verif.Model.Go
/-!
# The central system's connection registry

Models `centralSystem` (cs/cs.go:49-69), `handleWebsocket` (cs.go:95-166) around its serving loop,
`GetServiceOf` (cs.go:185-203), `WaitConnect`/`WaitDisconnect` (cs.go:213-234) and the landing page
(cs.go:75-85).  Every critical section of `connMux` is one step.

Simplifications: the serving loop itself is `Verif.Model.Conn`; here a connection is only alive or
closed.  A failed handshake (cs.go:103-106) has no effect.  The landing page's and the log line's
unlocked reads of the map (cs.go:83, 96) are not modelled as races.
-/
namespace Verif.Registry

/-- Where the goroutine of `handleWebsocket` is. -/
inductive Phase where
  /-- registered (cs.go:118), listener not started -/
  | registered
  /-- connection listener started (cs.go:121), loop running (cs.go:139-165) -/
  | serving
  /-- deferred function past cs.go:126: closed, disconnection listener started -/
  | leaving
  /-- past cs.go:136 -/
  | cleaned
  deriving DecidableEq, Repr

/-- A websocket connection: charge point id, phase of its handler, whether it is closed, and whether
the goroutines started at cs.go:121 and cs.go:126 have called the two listeners. -/
structure CState where
  cp : String
  phase : Phase
  closed : Bool
  upCalled : Bool
  downCalled : Bool
  deriving DecidableEq, Repr

/-- State of the central system.  Connections and channels are numbered in order of creation. -/
structure St where
  /-- `conns` -/
  conns : GoMap Nat
  /-- `connsCount`, zero if absent -/
  count : String → Int
  /-- `connChans`, `none` is nil -/
  chans : String → Option Nat
  /-- `connsConnected`, false if absent -/
  connected : String → Bool
  /-- all connections ever made -/
  table : List CState
  /-- all channels ever made, and whether they are closed -/
  chanClosed : List Bool
  /-- a `close` of a closed channel panicked -/
  panicked : Bool

/-- `New` (cs.go:60-69). -/
def init : St where
  conns := []
  count := fun _ => 0
  chans := fun _ => none
  connected := fun _ => false
  table := []
  chanClosed := []
  panicked := false

/-- Function update. -/
def upd {α : Type} (f : String → α) (k : String) (v : α) : String → α :=
  fun k' => if k' = k then v else f k'

/-- `if connChans[cpID] == nil { connChans[cpID] = make(chan struct{}) }` (cs.go:111-113,
228-230). -/
def St.ensureChan (s : St) (id : String) : St :=
  match s.chans id with
  | some _ => s
  | none => { s with chans := upd s.chans id (some s.chanClosed.length),
                     chanClosed := s.chanClosed ++ [false] }

/-- `close(connChans[cpID])` (cs.go:115). -/
def St.closeChan (s : St) (id : String) : St :=
  match s.chans id with
  | none => { s with panicked := true }
  | some c =>
    if s.chanClosed[c]? = some false then { s with chanClosed := s.chanClosed.set c true }
    else { s with panicked := true }

/-- cs.go:108-118. -/
def St.register (s : St) (id : String) : St :=
  let n := s.table.length
  let s := { s with conns := s.conns.put id n, count := upd s.count id (s.count id + 1),
                    table := s.table ++ [CState.mk id .registered false false false] }
  let s := s.ensureChan id
  let s := if s.connected id then s else s.closeChan id
  { s with connected := upd s.connected id true }

/-- cs.go:127-136. -/
def St.cleanup (s : St) (n : Nat) (c : CState) : St :=
  let id := c.cp
  let s := { s with count := upd s.count id (s.count id - 1),
                    table := s.table.set n { c with phase := .cleaned } }
  if s.count id = 0 then
    { s with conns := s.conns.del id,
             chans := upd s.chans id (some s.chanClosed.length),
             chanClosed := s.chanClosed ++ [false],
             connected := upd s.connected id false }
  else s

/-- Events: what a user of the central system can observe. -/
inductive Ev where
  /-- a websocket handshake by charge point `id` succeeded; connection number `n` -/
  | handshake (n : Nat) (id : String)
  /-- `go csys.connListener(cpID)` for connection `n` (cs.go:121) -/
  | notify (n : Nat) (id : String)
  /-- that goroutine calls the connection listener with `id` -/
  | connected (n : Nat) (id : String)
  /-- the goroutine of cs.go:126 calls the disconnection listener with `id` -/
  | disconnected (n : Nat) (id : String)
  /-- connection `n` is closed (peer gone, read error, local close) -/
  | drop (n : Nat)
  /-- connection `n`'s handler leaves its loop: `conn.Close()`,
  `go csys.disconnListener(cpID)` -/
  | leave (n : Nat) (id : String)
  /-- connection `n`'s handler finishes the bookkeeping -/
  | cleanup (n : Nat)
  /-- `WaitConnect(id)` returned channel `c` -/
  | waitConnect (id : String) (c : Nat)
  deriving DecidableEq, Repr

/-- Steps. -/
inductive Step (s : St) : Ev → St → Prop where
  | handshake (id : String) : Step s (.handshake s.table.length id) (s.register id)
  | notify {n c} : s.table[n]? = some c → c.phase = .registered →
      Step s (.notify n c.cp) { s with table := s.table.set n { c with phase := .serving } }
  | connected {n c} : s.table[n]? = some c → c.phase ≠ .registered → c.upCalled = false →
      Step s (.connected n c.cp) { s with table := s.table.set n { c with upCalled := true } }
  | disconnected {n c} : s.table[n]? = some c → c.phase = .leaving ∨ c.phase = .cleaned →
      c.downCalled = false →
      Step s (.disconnected n c.cp) { s with table := s.table.set n { c with downCalled := true } }
  | drop {n c} : s.table[n]? = some c →
      Step s (.drop n) { s with table := s.table.set n { c with closed := true } }
  /-- cs.go:155-162: the loop leaves when the connection is closed; then cs.go:124-126 -/
  | leave {n c} : s.table[n]? = some c → c.phase = .serving → c.closed = true →
      Step s (.leave n c.cp) { s with table := s.table.set n { c with phase := .leaving } }
  | cleanup {n c} : s.table[n]? = some c → c.phase = .leaving →
      Step s (.cleanup n) (s.cleanup n c)
  /-- cs.go:226-234 -/
  | waitConnect {id c} : (s.ensureChan id).chans id = some c →
      Step s (.waitConnect id c) (s.ensureChan id)

/-- Histories. -/
inductive Run (s : St) : List Ev → St → Prop where
  | nil : Run s [] s
  | snoc {tr e s' s''} : Run s tr s' → Step s' e s'' → Run s (tr ++ [e]) s''

/-- Histories of a new central system. -/
abbrev Exec (tr : List Ev) (s : St) : Prop := Run init tr s

/-- The services `GetServiceOf` can return. -/
inductive Service where
  /-- `NewChargePointSOAP` for a url and an identity -/
  | soap (url identity : String)
  /-- `NewChargePointJSON` for a connection -/
  | json (n : Nat)
  deriving DecidableEq, Repr

/-- `GetServiceOf` (cs.go:185-203); versions are the strings of ocpp.go:10-15. -/
def St.getServiceOf (s : St) (id version url : String) : GoRes Service :=
  if version = "V15" then .ok (.soap url id)
  else if version = "V16" then
    match s.conns.get id with
    | none => .err "no connection to this charge point"
    | some n => .ok (.json n)
  else .err "charge point has no configured OCPP version(1.5/1.6)"

/-- `WaitDisconnect` (cs.go:213-224): a fresh closed channel, or the connection's own. -/
def St.waitDisconnect (s : St) (id : String) : Option Nat := s.conns.get id

/-- Whether the channel returned by `WaitDisconnect` is closed. -/
def St.discClosed (s : St) : Option Nat → Bool
  | none => true
  | some n => match s.table[n]? with
    | some c => c.closed
    | none => false

/-- The number on the landing page (cs.go:79-84). -/
def St.landing (s : St) : Nat := s.conns.length

end Verif.Registry
