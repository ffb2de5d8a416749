import Verif.Model.Http
/-!
# The websocket handshake and its subprotocols

Models `ws.Dial` (ws/conn.go:56-65), `ocppVersionToProtocol` (conn.go:75-83), `ws.Handshake` (conn.go:85-93) and the
registration in `handleWebsocket` (cs/cs.go:95-118) with gorilla/websocket v1.4.1: `Upgrader.Upgrade` (server.go:115-258) with the
`Upgrader` of conn.go:67-73 (no `Subprotocols`, every origin allowed) and `Dialer.Dial` (client.go:140-393).

Simplifications: the hijacking of the connection and the writing of the reply do not fail, the client sends no data before the
reply, and the accept key is right; compression is not negotiated (both sides leave it off).
-/
namespace Verif.Http

/-- `ocppVersionToProtocol` (conn.go:75-83); versions are the strings of ocpp.go:10-15. -/
def protocolOf (version : String) : String :=
  if version = "V15" then "ocpp1.5" else if version = "V16" then "ocpp1.6" else ""

/-- A request with the headers of the websocket handshake. -/
structure WsRequest extends Request where
  /-- tokens of the `Sec-Websocket-Version` headers -/
  wsVersion : List String
  /-- `Sec-Websocket-Key` -/
  key : String
  /-- the subprotocols offered: the tokens of the `Sec-WebSocket-Protocol` headers -/
  offered : List String

/-- The reply to a handshake. -/
inductive Reply where
  /-- an error reply with this status code -/
  | refused (status : Nat)
  /-- 101 Switching Protocols; the subprotocol, empty if the reply names none -/
  | switched (protocol : String)
  deriving DecidableEq

/-- gorilla `selectSubprotocol` (server.go:97-109) with an `Upgrader` without subprotocols: the first value in the response
header. -/
def selectProtocol (header : List String) : String := header.headD ""

/-- `ws.Handshake` (conn.go:85-93) with gorilla's `Upgrade` (server.go:115-165). -/
def handshake (supported : List String) (r : WsRequest) : Reply :=
  if !r.connection.any (fun t => t.toList.map Char.toLower == "upgrade".toList) then .refused 400
  else if !r.upgrade.any (fun t => t.toList.map Char.toLower == "websocket".toList) then .refused 400
  else if r.method ≠ "GET" then .refused 405
  else if !r.wsVersion.any (fun t => t == "13") then .refused 400
  else if r.key = "" then .refused 400
  else .switched (selectProtocol (supported.map protocolOf))

/-- The central system (cs.go:72-74, 95-118): the reply to a request that is dispatched to `handleWebsocket`, and the charge point id
registered for it. -/
def accept (r : WsRequest) : Option (Reply × Option Text) :=
  match serve r.toRequest with
  | .websocket id =>
    match handshake ["V16"] r with
    | .refused c => some (.refused c, none)
    | .switched p => some (.switched p, some id)
  | _ => none

/-- The request of gorilla's dialler (client.go:193-224) for the subprotocol of `ws.Dial` (conn.go:57-59). -/
def wsDialRequest (version : String) (key : String) (path : Text) : WsRequest :=
  { dialRequest path with wsVersion := ["13"], key := key, offered := [protocolOf version] }

/-- Whether gorilla's dialler takes the reply (client.go:370-383): the subprotocol is not looked at. -/
def dialTakes : Reply → Bool
  | .switched _ => true
  | .refused _ => false

/-- `ws.Dial` (conn.go:56-65) to a central system: the id registered there, if the dial succeeds. -/
def wsDial (version key : String) (csURL identity : Text) : Option Text :=
  match parseRest (csURL ++ '/' :: identity) with
  | none => none
  | some (_, path) =>
    match accept (wsDialRequest version key path) with
    | some (reply, id) => if dialTakes reply then id else none
    | none => none

end Verif.Http
