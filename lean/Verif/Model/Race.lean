/-!
# Accesses to shared data

The shared variables of the library, the mutexes, and for every function that touches them the sequences of accesses it may make.  What
the functions compute is left out (it is in the other models): every branch is taken as possible.  Any number of goroutines run any of the
functions at the same time.

Simplifications.  A function called by a handler in the goroutine of the serving loop counts as a goroutine of its own, which allows more
interleavings.  A map is one variable; reading any part of it, its length or all of it is one read.  The accesses to the websocket and to
channels are left out, except for the writing half of the socket: channels are safe for concurrent use, and only one goroutine reads from
the socket at a time by C22.  Data reachable by the user's own pointers are left out.
-/
namespace Verif.Race

/-- What a goroutine does next to the shared data `V`, guarded by one mutex. -/
inductive Act (V : Type) where
  | lock
  | unlock
  /-- a read, or a write if `w` -/
  | acc (v : V) (w : Bool)
  deriving DecidableEq

/-- A goroutine: the function it runs and what is left of it. -/
structure Thread (Op V : Type) where
  op : Op
  rest : List (Act V)

/-- The goroutines, and the one that holds the mutex. -/
structure St (Op V : Type) where
  threads : List (Thread Op V)
  holder : Option Nat

/-- One step, if functions `start` can be called, and `paths` says what they do. -/
inductive Step {Op V : Type} (start : Op → Prop) (paths : Op → List (Act V) → Prop) (s : St Op V) : St Op V → Prop where
  | call {op p} : start op → paths op p → Step start paths s { s with threads := s.threads ++ [⟨op, p⟩] }
  | acc {i op v w p} : s.threads[i]? = some ⟨op, .acc v w :: p⟩ → Step start paths s { s with threads := s.threads.set i ⟨op, p⟩ }
  | lock {i op p} : s.threads[i]? = some ⟨op, .lock :: p⟩ → s.holder = none → Step start paths s ⟨s.threads.set i ⟨op, p⟩, some i⟩
  | unlock {i op p} : s.threads[i]? = some ⟨op, .unlock :: p⟩ → s.holder = some i → Step start paths s ⟨s.threads.set i ⟨op, p⟩, none⟩

/-- Any schedule. -/
inductive Steps {Op V : Type} (start : Op → Prop) (paths : Op → List (Act V) → Prop) (s : St Op V) : St Op V → Prop where
  | refl : Steps start paths s s
  | step {t u} : Steps start paths s t → Step start paths t u → Steps start paths s u

/-! ### The central system -/
namespace Cs

/-- The fields of `centralSystem` (cs/cs.go:48-57). -/
inductive Var where
  | conns | connChans | connsCount | connsConnected | connListener | disconnListener
  deriving DecidableEq

/-- Its functions. -/
inductive Op where
  /-- `handleWebsocket` (cs.go:95-167) -/
  | handshake
  /-- the landing page (cs.go:74-85) -/
  | landing
  /-- `GetServiceOf` with version 1.6 (cs.go:190-196; with others nothing is touched) -/
  | getServiceOf
  /-- `WaitDisconnect` (cs.go:212-216) -/
  | waitDisconnect
  /-- `WaitConnect` (cs.go:225-233) -/
  | waitConnect
  /-- `SetChargePointConnectionListener` (cs.go:203-205) -/
  | setConnListener
  /-- `SetChargePointDisconnectionListener` (cs.go:207-209) -/
  | setDisconnListener
  deriving DecidableEq

abbrev rd (v : Var) : Act Var := .acc v false
abbrev wr (v : Var) : Act Var := .acc v true

/-- cs.go:96: the map is given to the debug logger, which looks into it if there is one (internal/log/log.go:5-9). -/
def hello (debug : Bool) : List (Act Var) := if debug then [rd .conns] else []

/-- cs.go:108-121: `fresh` if there was no channel, `first` if not connected before. -/
def enter (fresh first : Bool) : List (Act Var) :=
  [.lock, wr .conns, rd .connsCount, wr .connsCount, rd .connChans] ++ (if fresh then [wr .connChans] else []) ++ [rd .connsConnected] ++
    (if first then [rd .connChans] else []) ++ [wr .connsConnected, .unlock, rd .connListener]

/-- cs.go:126-136: `last` if it was the last connection. -/
def leave (last : Bool) : List (Act Var) :=
  [rd .disconnListener, .lock, rd .connsCount, wr .connsCount, rd .connsCount] ++
    (if last then [wr .conns, wr .connChans, wr .connsConnected] else []) ++ [.unlock]

/-- What the functions do.  `debug`: there is a debug logger. -/
inductive Path (debug : Bool) : Op → List (Act Var) → Prop where
  /-- cs.go:103-106 -/
  | refused : Path debug .handshake (hello debug)
  | served (fresh first last : Bool) : Path debug .handshake (hello debug ++ enter fresh first ++ leave last)
  | landing : Path debug .landing [rd .conns]
  | getServiceOf : Path debug .getServiceOf [.lock, rd .conns, .unlock]
  | waitDisconnect : Path debug .waitDisconnect [.lock, rd .conns, .unlock]
  | waitConnect (fresh : Bool) : Path debug .waitConnect
      ([.lock, rd .connChans] ++ (if fresh then [wr .connChans] else []) ++ [rd .connChans, .unlock])
  | setConnListener : Path debug .setConnListener [wr .connListener]
  | setDisconnListener : Path debug .setDisconnListener [wr .disconnListener]

/-- A new central system (cs.go:59-68); all its functions can be called at any time. -/
abbrev Reach (debug : Bool) (s : St Op Var) : Prop := Steps (fun _ => True) (Path debug) ⟨[], none⟩ s

end Cs

/-! ### The charge point -/
namespace Cp

/-- The fields of `chargePoint` that change (cp/cp.go:28-37). -/
inductive Var where
  | conn | service | connectedChan
  deriving DecidableEq

inductive Op where
  /-- the goroutine of `handleWebsocketConnection` (cp/json.go:33-66) -/
  | loop
  /-- `Send`, of the embedded `CentralSystem` (cp.go:29) -/
  | send
  /-- json.go:15-17 -/
  | connection
  /-- json.go:68-70 -/
  | waitConnect
  /-- json.go:72-74 -/
  | waitDisconnect
  deriving DecidableEq

abbrev rd (v : Var) : Act Var := .acc v false
abbrev wr (v : Var) : Act Var := .acc v true

/-- What the loop does in one round. -/
inductive Round where
  /-- json.go:36-37 -/
  | stop
  /-- json.go:52-53 -/
  | read
  /-- json.go:54-63 -/
  | request
  /-- json.go:39-51, 20-31; failed attempts touch nothing -/
  | reconnect

/-- The select reads `conn` three times (json.go:39, 52, 54), the branches again. -/
def Round.acts : Round → List (Act Var)
  | .stop => [rd .conn, rd .conn, rd .conn, rd .conn]
  | .read => [rd .conn, rd .conn, rd .conn]
  | .request => [rd .conn, rd .conn, rd .conn, rd .conn]
  | .reconnect => [rd .conn, rd .conn, rd .conn, wr .connectedChan, wr .conn, rd .conn, wr .service, rd .connectedChan]

/-- What the functions do. -/
inductive Path : Op → List (Act Var) → Prop where
  | loop (rounds : List Round) : Path .loop (rounds.flatMap Round.acts)
  | send : Path .send [rd .service]
  | connection : Path .connection [rd .conn]
  | waitConnect : Path .waitConnect [rd .connectedChan]
  | waitDisconnect : Path .waitDisconnect [rd .conn]

/-- A charge point returned by `New` with JSON: one loop (cp.go:55), and any number of calls of the other functions. -/
def Reach (s : St Op Var) : Prop := ∃ p, Path .loop p ∧ Steps (· ≠ .loop) Path ⟨[⟨.loop, p⟩], none⟩ s

end Cp

/-! ### A connection -/
namespace Ws

/-- The fields of `Conn` that change (ws/conn.go:28-39), and the writing half of the socket, which gorilla requires to be used by one
goroutine at a time. -/
inductive Var where
  | sentMessages | responsesOf | socket
  deriving DecidableEq

inductive Op where
  /-- conn.go:288-311 -/
  | sendRequest
  /-- conn.go:175-224 -/
  | readMessage
  /-- conn.go:262-264 -/
  | sendResponse
  /-- conn.go:95-99 -/
  | writeJSON
  deriving DecidableEq

abbrev rd (v : Var) : Act Var := .acc v false
abbrev wr (v : Var) : Act Var := .acc v true

/-- `sendMessage` (conn.go:265-280), `ok` if the message could be encoded. -/
def send (ok : Bool) : List (Act Var) := [.lock] ++ (if ok then [wr .socket] else []) ++ [.unlock]

/-- What the functions do. -/
inductive Path : Op → List (Act Var) → Prop where
  /-- conn.go:292-294 -/
  | unencodable : Path .sendRequest []
  /-- conn.go:297-300 -/
  | failed (ok : Bool) : Path .sendRequest ([wr .sentMessages, wr .responsesOf] ++ send ok)
  /-- conn.go:302-308 -/
  | answered : Path .sendRequest ([wr .sentMessages, wr .responsesOf] ++ send true ++ [rd .responsesOf, wr .sentMessages, wr .responsesOf])
  /-- conn.go:309-310 -/
  | timedOut : Path .sendRequest ([wr .sentMessages, wr .responsesOf] ++ send true ++ [rd .responsesOf])
  /-- conn.go:177-186 or a panic, or a call that is handed on: conn.go:206 -/
  | readNothing : Path .readMessage []
  /-- conn.go:191-194 -/
  | unsolicited : Path .readMessage [rd .sentMessages]
  /-- conn.go:202-205 -/
  | refused (ok : Bool) : Path .readMessage (send ok)
  /-- conn.go:212, 246-249, 213 -/
  | result : Path .readMessage [rd .sentMessages, rd .sentMessages, rd .responsesOf]
  /-- conn.go:219 -/
  | error : Path .readMessage [rd .sentMessages, rd .responsesOf]
  | sendResponse (ok : Bool) : Path .sendResponse (send ok)
  | writeJSON : Path .writeJSON (send true)

/-- A new connection; all its functions can be called at any time. -/
abbrev Reach (s : St Op Var) : Prop := Steps (fun _ => True) Path ⟨[], none⟩ s

end Ws

/-! ### The loggers -/
namespace Log

/-- internal/log/log.go:8-9 -/
inductive Var where
  | errorLog | debugLog
  deriving DecidableEq

inductive Op where
  /-- log.go:15 -/
  | setError
  /-- log.go:16 -/
  | setDebug
  /-- log.go:18-20: almost every function of the library -/
  | debug
  /-- log.go:21-23 -/
  | error
  deriving DecidableEq

/-- What the functions do. -/
inductive Path : Op → List (Act Var) → Prop where
  | setError : Path .setError [.acc .errorLog true]
  | setDebug : Path .setDebug [.acc .debugLog true]
  | debug : Path .debug [.acc .debugLog false]
  | error : Path .error [.acc .errorLog false]

/-- The loggers of a process. -/
abbrev Reach (s : St Op Var) : Prop := Steps (fun _ => True) Path ⟨[], none⟩ s

end Log
end Verif.Race
