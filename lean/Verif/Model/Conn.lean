import Verif.Model.Go
/-!
# A websocket connection and the loop that serves it

Models `ws.Conn` (ws/conn.go:28-54, 95-109, 167-312) together with the serving loop of the central
system (cs/cs.go:139-165) or of the charge point (cp/json.go:33-66), as a labelled transition
system over explicit goroutines: *readers* (one per `ReadMessageAsync`, conn.go:167-173), *senders*
(one per `SendRequest`, conn.go:289-312) and *the loop*.  A schedule is any sequence of steps.

The functions that turn texts into messages and back are the parameter `Sem`; `Verif.Model.Ocppj`
supplies the real ones.

Simplifications.
* Message ids come from `uuid.New` (conn.go:290); the model assumes that they are pairwise
  distinct on a connection (enabling condition of `Step.send`).
* The accesses of one `ReadMessage` to the two maps (conn.go:191, 244, 213/218) are one step:
  the entry of one id is written only by that id's sender, so every finer interleaving has the
  effect of one of the modelled orders.  That they are unsynchronised is the subject of C32.
* `UnmarshalRequest` (conn.go:291) and the final `json.Marshal(msg)` (conn.go:269) are one encoding
  step before registration: the latter cannot fail on what the former returned.
* Writing one frame (conn.go:265-280, under `sendMux`) is one step; `Verif.Model.Mutex` refines it.
* A write succeeds only on a connection that is not closed, and may always fail.  Reads may still
  return buffered frames after a close (gorilla keeps a read buffer).
* The 60 s timer (internal/request_timeout.go, conn.go:309) may fire at any time.
* gorilla's panic after 1000 failed reads is not modelled.
-/
namespace Verif

/-- A parsed OCPP-J frame (ws/message.go:25-29, 51-54, 103-108) with payloads of type `P`. -/
inductive Msg (P : Type) where
  | call (id action : String) (payload : P)
  | result (id : String) (payload : P)
  | error (id code desc : String) (details : P)
  deriving Repr, DecidableEq

/-- `Message.ID` (ws/message.go:43, 67, 127). -/
def Msg.id {P : Type} : Msg P → String
  | .call i _ _ => i
  | .result i _ => i
  | .error i _ _ _ => i

/-- The data side of a connection: what the texts mean. -/
structure Sem where
  /-- text frames -/
  Frame : Type
  /-- request objects -/
  Req : Type
  /-- response objects -/
  Resp : Type
  /-- decoded JSON objects -/
  Pay : Type
  /-- conn.go:181-183, trimming and `UnmarshalMessage`; `ok none` is the `(nil, nil)` result. -/
  read : Frame → GoRes (Option (Msg Pay))
  /-- conn.go:226-240 `callToRequest`; `Except.error` carries the error code. -/
  toRequest : String → Pay → Except String Req
  /-- conn.go:251-260, the part of `callResultToResponse` after the look-up, for the action of the
  call that was sent; `err` carries the error code. -/
  toResponse : String → Pay → GoRes Resp
  /-- conn.go:291 `UnmarshalRequest` and conn.go:269 `json.Marshal(msg)`. -/
  encCall : String → Req → GoRes Frame
  /-- conn.go:263 `unmarshalResponse` and conn.go:269: id, handler response, handler error. -/
  encReply : String → Option Resp → Option String → GoRes Frame
  /-- conn.go:203 `NewCallErrorMessage` and conn.go:269: id and code. -/
  encRefusal : String → String → Frame
  /-- `Request.Action` -/
  action : Req → String
  /-- the type assertion at cs/cs.go:142 resp. cp/json.go:55 succeeds -/
  mine : Req → Bool

/-- Which serving loop: the central system's or the charge point's. -/
inductive Side where
  | cs
  | cp
  deriving DecidableEq, Repr

namespace Conn
variable (S : Sem)

/-- What a response channel carries (conn.go:23-26), split by the outcome of the comparison at
conn.go:305: a response, or an error that `SendRequest` returns. -/
inductive Answer where
  /-- a decoded response and `Nil` -/
  | resp (r : S.Resp)
  /-- an error code from `callResultToResponse` -/
  | code (c : String)
  /-- a received `CallErrorMessage` -/
  | callErr (code desc : String) (details : S.Pay)

/-- Result of `ReadMessage` (conn.go:175): nil, an error, or a websocket close error. -/
inductive ReadRes where
  | nil
  | err
  | closeErr
  deriving DecidableEq, Repr

/-- Where a reader goroutine (conn.go:169-171) is. -/
inductive Reader where
  /-- blocked in the socket read, conn.go:176 -/
  | reading
  /-- has a text, before conn.go:183 -/
  | got (f : S.Frame)
  /-- about to send a CallError, conn.go:203-204 -/
  | refusing (id code : String)
  /-- blocked sending to `requests`, conn.go:206 -/
  | toLoop (id : String) (r : S.Req)
  /-- blocked sending to a response channel, conn.go:213, 218.  Channels are named by the sender
  that made them; `none` is the nil channel (entry missing). -/
  | toSender (ch : Option Nat) (x : Answer S)
  /-- blocked sending its result, conn.go:170 -/
  | offer (e : ReadRes)
  /-- finished -/
  | gone

/-- How `SendRequest` ended. -/
inductive Outcome where
  /-- conn.go:292-294 the request could not be encoded -/
  | encodeErr
  /-- conn.go:297-300 -/
  | writeErr
  /-- conn.go:309-310 -/
  | timeout
  /-- conn.go:305-308 -/
  | answered (x : Answer S)

/-- Where a `SendRequest` call is. -/
inductive Phase where
  /-- before conn.go:295 -/
  | fresh
  /-- between conn.go:295 and 296 -/
  | half
  /-- before the write at conn.go:297 -/
  | registered
  /-- in the select at conn.go:301 -/
  | waiting
  /-- between conn.go:302 and 303 -/
  | received (x : Answer S)
  /-- returned -/
  | done (o : Outcome S)

/-- A `SendRequest` call: its message id, its request and the frame it will write. -/
structure Sender where
  id : String
  req : S.Req
  frame : Option S.Frame
  phase : Phase S

/-- Where the serving loop is. -/
inductive Loop where
  /-- at the head of the `for`, about to enter the `select`; entering it calls
  `ReadMessageAsync` (cs.go:157, json.go:52), i.e. starts a reader -/
  | top
  /-- in the select; `k` is the reader whose result channel it listens to -/
  | sel (k : Nat)
  /-- in the handler (cs.go:147, json.go:59); `none` is the nil request of json.go:55-59 -/
  | handling (id : String) (r : Option S.Req)
  /-- handler returned, before `SendResponse` is through (cs.go:151, json.go:60) -/
  | answering (id : String) (resp : Option S.Resp) (err : Option String)
  /-- left the loop for this connection (cs.go:156, 162; json.go:38, 39-51) -/
  | exited

/-- State of a connection and its goroutines. -/
structure St where
  /-- `sentMessages`: action by id -/
  sent : String → Option String
  /-- `responsesOf`: channel (named by its sender) by id -/
  chan : String → Option Nat
  /-- `ctx` cancelled and socket closed -/
  closed : Bool
  readers : List (Reader S)
  senders : List (Sender S)
  loop : Loop S
  /-- the process died of a panic -/
  crashed : Bool

/-- `newConn` (conn.go:41-54), loop not yet started. -/
def init : St S where
  sent := fun _ => none
  chan := fun _ => none
  closed := false
  readers := []
  senders := []
  loop := .top
  crashed := false

/-- Observable steps. -/
inductive Ev where
  | spawn (k : Nat)
  | read (k : Nat) (f : S.Frame)
  | readErr (k : Nat) (e : ReadRes)
  | dispatch (k : Nat)
  | refuse (k : Nat) (id code : String) (ok : Bool)
  /-- a request is taken over by the loop; `arg` is what the handler is called with for it (cs.go:147, json.go:59; `some none` is
  a nil request), `none` if it is not called -/
  | take (k : Nat) (id : String) (r : S.Req) (arg : Option (Option S.Req))
  | handlerRet (id : String) (resp : Option S.Resp) (err : Option String)
  | handlerPanic (id : String)
  | answer (id : String) (resp : Option S.Resp) (err : Option String) (wrote : Option S.Frame)
  | result (k : Nat) (e : ReadRes)
  | seeClosed
  | ctxDone
  | close
  | send (i : Nat) (id : String) (r : S.Req)
  | regSent (i : Nat)
  | regChan (i : Nat)
  | writeCall (i : Nat) (wrote : Option S.Frame)
  | deliver (k i : Nat)
  | finish (i : Nat) (x : Answer S)
  | timeout (i : Nat)

variable {S}

/-- Map update. -/
def upd {α : Type} (m : String → Option α) (k : String) (v : Option α) : String → Option α :=
  fun k' => if k' = k then v else m k'

/-- Replace reader `k`. -/
def St.setReader (s : St S) (k : Nat) (p : Reader S) : St S :=
  { s with readers := s.readers.set k p }

/-- Replace the phase of sender `i`. -/
def St.setPhase (s : St S) (i : Nat) (x : Sender S) (p : Phase S) : St S :=
  { s with senders := s.senders.set i { x with phase := p } }

/-- conn.go:183-223 up to the point where the reader blocks or returns; `none` means panic. -/
def afterRead (s : St S) (f : S.Frame) : Option (Reader S) :=
  match S.read f with
  | .panic _ => none
  | .err _ => some (.offer .err)                       -- conn.go:184-186
  | .ok none => none                                   -- conn.go:190: Type() of a nil Message
  | .ok (some (.call id a p)) =>
    match S.toRequest a p with
    | .error c => some (.refusing id c)                -- conn.go:201-204
    | .ok r => some (.toLoop id r)                     -- conn.go:206
  | .ok (some (.result id p)) =>
    match s.sent id with
    | none => some (.offer .err)                       -- conn.go:190-195
    | some a =>
      match S.toResponse a p with
      | .panic _ => none                               -- conn.go:251
      | .err c => some (.toSender (s.chan id) (.code c))
      | .ok r => some (.toSender (s.chan id) (.resp r))
  | .ok (some (.error id c d x)) =>
    match s.sent id with
    | none => some (.offer .err)
    | some _ => some (.toSender (s.chan id) (.callErr c d x))   -- conn.go:217-221

/-- Loop after taking a request (cs.go:141-150, json.go:54-59). -/
def afterTake (side : Side) (id : String) (r : S.Req) : Loop S :=
  if S.mine r then .handling id (some r)
  else match side with
    | .cs => .top                                      -- cs.go:143-146 `continue`
    | .cp => .handling id none                         -- json.go:56-59, no `continue`

/-- The argument of the handler call in progress. -/
def Loop.callArg : Loop S → Option (Option S.Req)
  | .handling _ r => some r
  | _ => none

/-- Loop after a reader's result (cs.go:157-163, json.go:52-53). -/
def afterResult (side : Side) (e : ReadRes) : Loop S :=
  match side, e with
  | .cs, .closeErr => .exited
  | _, _ => .top

/-- One step of some goroutine. -/
inductive Step (side : Side) (s : St S) : Ev S → St S → Prop where
  /-- entering the select: cs.go:140/157, json.go:35/52, conn.go:167-173 -/
  | spawn : s.crashed = false → s.loop = .top →
      Step side s (.spawn s.readers.length)
        { s with loop := .sel s.readers.length, readers := s.readers ++ [.reading] }
  /-- conn.go:176 returns a text -/
  | read {k f} : s.crashed = false → s.readers[k]? = some .reading →
      Step side s (.read k f) (s.setReader k (.got f))
  /-- conn.go:176-180 fails: the connection is closed -/
  | readErr {k e} : s.crashed = false → s.readers[k]? = some .reading → e ≠ .nil →
      Step side s (.readErr k e) { s.setReader k (.offer e) with closed := true }
  /-- conn.go:183-223 -/
  | dispatch {k f p} : s.crashed = false → s.readers[k]? = some (.got f) →
      afterRead s f = some p →
      Step side s (.dispatch k) (s.setReader k p)
  /-- conn.go:183-223 panics: the process dies -/
  | dispatchPanic {k f} : s.crashed = false → s.readers[k]? = some (.got f) →
      afterRead s f = none →
      Step side s (.dispatch k) { s with crashed := true }
  /-- conn.go:204, 265-280 -/
  | refuse {k id c} (ok : Bool) : s.crashed = false → s.readers[k]? = some (.refusing id c) →
      (ok = true → s.closed = false) →
      Step side s (.refuse k id c ok) (s.setReader k (.offer (if ok then .nil else .err)))
  /-- rendezvous on `requests`: conn.go:206 with cs.go:141 / json.go:54 -/
  | take {k id r} : s.crashed = false → (∃ k', s.loop = .sel k') →
      s.readers[k]? = some (.toLoop id r) →
      Step side s (.take k id r (afterTake side id r).callArg) { s.setReader k (.offer .nil) with loop := afterTake side id r }
  /-- the handler returns (any response, any error) -/
  | handlerRet {id r} (resp : Option S.Resp) (err : Option String) : s.crashed = false →
      s.loop = .handling id r →
      Step side s (.handlerRet id resp err) { s with loop := .answering id resp err }
  /-- `SendResponse` writes the reply: conn.go:262-280 -/
  | answerOk {id resp err f} : s.crashed = false → s.loop = .answering id resp err →
      S.encReply id resp err = .ok f → s.closed = false →
      Step side s (.answer id resp err (some f)) { s with loop := .top }
  /-- `SendResponse` fails (encoding or socket); the error is logged, cs.go:152-154, json.go:61-63 -/
  | answerFail {id resp err} : s.crashed = false → s.loop = .answering id resp err →
      (S.encReply id resp err).isPanic = false →
      Step side s (.answer id resp err none) { s with loop := .top }
  /-- the handler panics at the central system: `net/http` recovers the panic of the goroutine, whose deferred function
  closes the connection (cs.go:123-124) -/
  | handlerPanicCs {id r} : s.crashed = false → side = .cs → s.loop = .handling id r →
      Step side s (.handlerPanic id) { s with loop := .exited, closed := true }
  /-- the handler panics at the charge point, in a goroutine of its own (cp.go:55): the process dies -/
  | handlerPanicCp {id r} : s.crashed = false → side = .cp → s.loop = .handling id r →
      Step side s (.handlerPanic id) { s with crashed := true, loop := .exited }
  /-- `SendResponse` panics in the encoder, at the central system: as for the handler -/
  | answerPanicCs {id resp err} : s.crashed = false → side = .cs → s.loop = .answering id resp err →
      (S.encReply id resp err).isPanic = true →
      Step side s (.answer id resp err none) { s with loop := .exited, closed := true }
  /-- `SendResponse` panics in the encoder, at the charge point -/
  | answerPanicCp {id resp err} : s.crashed = false → side = .cp → s.loop = .answering id resp err →
      (S.encReply id resp err).isPanic = true →
      Step side s (.answer id resp err none) { s with crashed := true, loop := .exited }
  /-- the loop receives the result of its reader: conn.go:170 with cs.go:157 / json.go:52 -/
  | result {k e} : s.crashed = false → s.loop = .sel k → s.readers[k]? = some (.offer e) →
      Step side s (.result k e)
        { s.setReader k .gone with
          loop := afterResult side e
          closed := s.closed || (decide (side = .cs ∧ e = .closeErr)) }
  /-- cs.go:155-156 and 124, json.go:39 -/
  | seeClosed {k} : s.crashed = false → s.loop = .sel k → s.closed = true →
      Step side s .seeClosed { s with loop := .exited }
  /-- json.go:36-38 -/
  | ctxDone {k} : s.crashed = false → side = .cp → s.loop = .sel k →
      Step side s .ctxDone { s with loop := .exited, closed := true }
  /-- `Close` (conn.go:101-105) called by somebody else, e.g. through cp.Connection() -/
  | close : s.crashed = false → Step side s .close { s with closed := true }
  /-- `SendRequest` conn.go:290-291 -/
  | send {id r f} : s.crashed = false → (∀ x ∈ s.senders, x.id ≠ id) → S.encCall id r = .ok f →
      Step side s (.send s.senders.length id r)
        { s with senders := s.senders ++ [⟨id, r, some f, .fresh⟩] }
  /-- conn.go:292-294 -/
  | sendErr {id r m} : s.crashed = false → (∀ x ∈ s.senders, x.id ≠ id) → S.encCall id r = .err m →
      Step side s (.send s.senders.length id r)
        { s with senders := s.senders ++ [⟨id, r, none, .done .encodeErr⟩] }
  /-- the encoder panics in the caller's goroutine -/
  | sendPanic {id r m} : s.crashed = false → (∀ x ∈ s.senders, x.id ≠ id) →
      S.encCall id r = .panic m →
      Step side s (.send s.senders.length id r) { s with crashed := true }
  /-- conn.go:295 -/
  | regSent {i x} : s.crashed = false → s.senders[i]? = some x → x.phase = .fresh →
      Step side s (.regSent i)
        { s.setPhase i x .half with sent := upd s.sent x.id (some (S.action x.req)) }
  /-- conn.go:296 -/
  | regChan {i x} : s.crashed = false → s.senders[i]? = some x → x.phase = .half →
      Step side s (.regChan i) { s.setPhase i x .registered with chan := upd s.chan x.id (some i) }
  /-- conn.go:297, 265-280 -/
  | writeOk {i x f} : s.crashed = false → s.senders[i]? = some x → x.phase = .registered →
      x.frame = some f → s.closed = false →
      Step side s (.writeCall i (some f)) (s.setPhase i x .waiting)
  /-- conn.go:298-300 -/
  | writeFail {i x} : s.crashed = false → s.senders[i]? = some x → x.phase = .registered →
      Step side s (.writeCall i none) (s.setPhase i x (.done .writeErr))
  /-- rendezvous on a response channel: conn.go:213/218 with 302 -/
  | deliver {k i a x} : s.crashed = false → s.readers[k]? = some (.toSender (some i) a) →
      s.senders[i]? = some x → x.phase = .waiting →
      Step side s (.deliver k i) ((s.setReader k (.offer .nil)).setPhase i x (.received a))
  /-- conn.go:303-308 -/
  | finish {i a x} : s.crashed = false → s.senders[i]? = some x → x.phase = .received a →
      Step side s (.finish i a)
        { s.setPhase i x (.done (.answered a)) with
          sent := upd s.sent x.id none, chan := upd s.chan x.id none }
  /-- conn.go:309-310 -/
  | timeout {i x} : s.crashed = false → s.senders[i]? = some x → x.phase = .waiting →
      Step side s (.timeout i) (s.setPhase i x (.done .timeout))

/-- Runs: any finite schedule from `s`. -/
inductive Run (side : Side) (s : St S) : List (Ev S) → St S → Prop where
  | nil : Run side s [] s
  | snoc {tr e s' s''} : Run side s tr s' → Step side s' e s'' → Run side s (tr ++ [e]) s''

/-- Executions of a connection from its creation. -/
abbrev Exec (side : Side) (tr : List (Ev S)) (s : St S) : Prop := Run side (init S) tr s

end Conn
end Verif
