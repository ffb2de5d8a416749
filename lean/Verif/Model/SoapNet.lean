import Verif.Model.Soap
import Verif.Model.Http
/-!
# SOAP calls in a network

Any number of `Send`s of SOAP services (internal/service/soap.go:21-28, soap/client.go:38-122), made by any number of processes, and
one SOAP server of this library: a central system (cs/cs.go:71-93, 168-183; `atCs`) or a charge point (cp/soap.go:14-45), as a labelled
transition system.  net/http serves every request in a goroutine of its own.

Simplifications.
* All host names lead to the one server.  `url.Parse` is that of `Verif.Model.Http` (`parseRest`), after the scheme.
* An HTTP exchange may fail at the client at any time (connection refused, reset, 60 s timeout: client.go:84-94), whatever the
  server does or has done; it is not repeated (`req.Close`, a transport per call: a `POST` on a new connection).
* Of a request or a reply only the beginning may arrive: the errors of `ioutil.ReadAll` are ignored (server.go:19, client.go:99).
* `http.Client` follows up to ten redirects; a 301 turns the `POST` into a `GET` without body (net/http client.go `redirectBehavior`).
* The number on the landing page is any number.
-/
namespace Verif.Soap
open Xml Ocppj

/-- What follows the scheme of an `http` or `https` URL (net/url lower-cases the scheme); others are refused by net/http. -/
def httpRest (url : Text) : Option Text :=
  if (url.take 7).map Char.toLower = "http://".toList then some (url.drop 7)
  else if (url.take 8).map Char.toLower = "https://".toList then some (url.drop 8)
  else none

/-- The path that the server sees of a request to the URL (client.go:78); `none` if no request can be made (no URL, no host). -/
def urlPath (url : Text) : Option Text :=
  match httpRest url with
  | none => none
  | some rest =>
    match Http.parseRest rest with
    | none => none
    | some (host, path) => if host = [] then none else some (if path = [] then ['/'] else path)

/-- The request of client.go:78-86 as the server's mux sees it (`req.Close` asks to close the connection). -/
def postRequest (path : Text) : Http.Request := { method := "POST", path := path, connection := ["close"], upgrade := [] }

/-- The request after a 301 (net/http `redirectBehavior`). -/
def movedRequest (path : Text) : Http.Request := { method := "GET", path := path, connection := ["close"], upgrade := [] }

/-- Where a request ends, after up to `n` requests: with `handleSoap` (`some true`), at the landing page (`some false`), or in an
error. -/
def follow : Nat → Http.Request → Option Bool
  | 0, _ => none
  | n + 1, r =>
    match Http.serve r with
    | .soap => some true
    | .landing => some false
    | .redirect p => follow n (movedRequest p)
    | .websocket _ => none

/-- The landing page (cs.go:79-84) with `n` stations. -/
def landingPage (n : Nat) : Text :=
  ("<h1>OCPP Central System</h1>\n\t\t\t\t<p>currently connected with ").toList ++ ((toString n).toList ++
  " OCPP-J stations, and more OCPP-S stations</p>\n\t\t\t\t<i>Central System using <a href=\"https://github.com/voltbras/go-ocpp\"/>https://github.com/voltbras/go-ocpp</i>".toList)

/-- Where a `POST` to the URL ends.  A charge point's server has no mux (cp/soap.go:15-16): it takes everything. -/
def front (atCs : Bool) (url : Text) : Option Bool :=
  match urlPath url with
  | none => none
  | some path => if atCs then follow 10 (postRequest path) else some true

/-- `Handle` (server.go:16-33) up to the call of the user's handler: the call, or the end of `Handle` without one. -/
def begin (G : FloatText) (atCs : Bool) (body : Text) : (Req × Text) ⊕ GoRes Text :=
  match decode body with
  | .err m => .inr (.err m)
  | .panic m => .inr (.panic m)
  | .ok env =>
    match env.body.content with
    | some (.req r, v) =>
      match env.header with
      | none => .inr (.panic "invalid memory address or nil pointer dereference")
      | some hd =>
        if r.isChargePoint = atCs then .inl (⟨r, v⟩, identityOf hd)
        else .inr (encodeReply G none (some "request is not a cprequest".toList))
    | _ => .inr (.err "received message is not a request")

/-- A SOAP service (internal/service/soap.go:8-19; cp/cp.go:59, cs/cs.go:198-202) and the process it belongs to. -/
structure Service where
  proc : Nat
  url : Text
  sender : Text
  identity : Text

/-- What has become of a `Send`'s request at the server. -/
inductive Remote where
  /-- under way -/
  | waiting (body : Text)
  /-- the user's handler is running (server.go:34) -/
  | handling
  /-- the exchange is over at the server: what the client can get -/
  | over (a : Answer)

/-- A `Send`. -/
structure Call where
  svc : Service
  req : Req
  remote : Remote
  /-- what it returned -/
  result : Option Result

/-- State: the `Send`s made so far, and the client processes that have crashed. -/
structure NetSt where
  calls : List Call
  dead : List Nat

/-- No `Send` yet. -/
def NetSt.init : NetSt := ⟨[], []⟩

/-- Observable steps. -/
inductive NetEv where
  /-- `Send` number `i` is called -/
  | send (i : Nat) (svc : Service) (r : Req)
  /-- the server calls the user's handler for it -/
  | called (i : Nat) (r : Req) (id : Text)
  /-- its request ends without a call of the user's handler -/
  | rejected (i : Nat)
  | handlerRet (i : Nat) (resp : Option Resp) (err : Option Text)
  | handlerPanic (i : Nat)
  /-- `Send` returns -/
  | returned (i : Nat) (x : Result)

/-- What the client gets of an answer (client.go:99). -/
inductive Cut : Answer → Answer → Prop where
  | whole {a} : Cut a a
  | beginning {status p b} : p <+: b → Cut (.got status b) (.got status p)

/-- Replace call `i`. -/
def NetSt.set (s : NetSt) (i : Nat) (c : Call) : NetSt := { s with calls := s.calls.set i c }

/-- Whether a `Send` ended in a panic, which kills its process. -/
def Result.crash : Result → Bool
  | .panic _ => true
  | _ => false

/-- One step. -/
inductive NetStep (G : FloatText) (atCs : Bool) (s : NetSt) : NetEv → NetSt → Prop where
  /-- `Send` up to the `POST` (client.go:38-96) -/
  | send {svc r msgId body} : svc.proc ∉ s.dead → posted G svc.url msgId svc.sender svc.identity r = .ok body →
      NetStep G atCs s (.send s.calls.length svc r) { s with calls := s.calls ++ [⟨svc, r, .waiting body, none⟩] }
  /-- nothing is posted (client.go:39-41, 58-60) -/
  | sendErr {svc r msgId m} : svc.proc ∉ s.dead → posted G svc.url msgId svc.sender svc.identity r = .err m →
      NetStep G atCs s (.send s.calls.length svc r) { s with calls := s.calls ++ [⟨svc, r, .over (.failed m), none⟩] }
  /-- the encoder panics -/
  | sendPanic {svc r msgId m} : svc.proc ∉ s.dead → posted G svc.url msgId svc.sender svc.identity r = .panic m →
      NetStep G atCs s (.send s.calls.length svc r)
        { s with calls := s.calls ++ [⟨svc, r, .over (.failed m), none⟩], dead := svc.proc :: s.dead }
  /-- the request, or its beginning, arrives and the handler is called (server.go:16-34) -/
  | arrive {i c body p r id} : s.calls[i]? = some c → c.remote = .waiting body → front atCs c.svc.url = some true → p <+: body →
      begin G atCs p = .inl (r, id) → NetStep G atCs s (.called i r id) (s.set i { c with remote := .handling })
  /-- … and is answered without it -/
  | refuse {i c body p x} : s.calls[i]? = some c → c.remote = .waiting body → front atCs c.svc.url = some true → p <+: body →
      begin G atCs p = .inr x → NetStep G atCs s (.rejected i) (s.set i { c with remote := .over (answerOf x) })
  /-- the landing page answers (cs.go:75-85) -/
  | page {i c body} (n : Nat) : s.calls[i]? = some c → c.remote = .waiting body → front atCs c.svc.url = some false →
      NetStep G atCs s (.rejected i) (s.set i { c with remote := .over (.got 200 (landingPage n)) })
  /-- there is nothing behind the URL -/
  | nowhere {i c body} (m : String) : s.calls[i]? = some c → c.remote = .waiting body → front atCs c.svc.url = none →
      NetStep G atCs s (.rejected i) (s.set i { c with remote := .over (.failed m) })
  /-- the handler returns and the reply is written (server.go:34-49) -/
  | handlerRet {i c} (resp : Option Resp) (err : Option Text) : s.calls[i]? = some c → c.remote = .handling →
      NetStep G atCs s (.handlerRet i resp err) (s.set i { c with remote := .over (answerOf (encodeReply G resp err)) })
  /-- the handler panics: net/http recovers and closes the connection -/
  | handlerPanic {i c} : s.calls[i]? = some c → c.remote = .handling →
      NetStep G atCs s (.handlerPanic i) (s.set i { c with remote := .over (.failed "EOF") })
  /-- the reply, or its beginning, reaches the client (client.go:94-121) -/
  | receive {i c a a'} : s.calls[i]? = some c → c.svc.proc ∉ s.dead → c.result = none → c.remote = .over a → Cut a a' →
      NetStep G atCs s (.returned i (receive c.req a'))
        { s.set i { c with result := some (receive c.req a') } with
          dead := if (receive c.req a').crash then c.svc.proc :: s.dead else s.dead }
  /-- the exchange fails at the client (client.go:94-97) -/
  | fail {i c} (m : Text) : s.calls[i]? = some c → c.svc.proc ∉ s.dead → c.result = none →
      NetStep G atCs s (.returned i (.err m)) (s.set i { c with result := some (.err m) })

/-- Executions: any schedule. -/
inductive NetRun (G : FloatText) (atCs : Bool) (s : NetSt) : List NetEv → NetSt → Prop where
  | nil : NetRun G atCs s [] s
  | snoc {tr e s' s''} : NetRun G atCs s tr s' → NetStep G atCs s' e s'' → NetRun G atCs s (tr ++ [e]) s''

/-- Executions from the start. -/
abbrev NetExec (G : FloatText) (atCs : Bool) (tr : List NetEv) (s : NetSt) : Prop := NetRun G atCs .init tr s

end Verif.Soap
