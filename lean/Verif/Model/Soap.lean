import Verif.Model.XmlText
import Verif.Model.Service
import Verif.Spec.Message
/-!
# SOAP

Models soap/models.go (envelopes), soap/marshal.go (reading and writing them), soap/client.go (`Call`),
soap/server.go (`Handle`), the SOAP services (internal/service/soap.go, cs.go, cp.go) and the handlers
behind `Handle` (cs/cs.go:168-183, cp/soap.go:32-45).

Simplifications.  HTTP is a request body that yields an answer: no answer, or a status and a body.  The
call's message id (`uuid.New()`) is a parameter.  The handler is a function that returns; `Handle` calls
it at most once.  `net/http` recovers from panics in `Handle` and drops the connection.
-/
namespace Verif.Soap
open Xml Ocppj

/-! ### Envelopes to send -/

/-- Name space of SOAP 1.2 (client.go:44, server.go:38). -/
def envNs : Text := "http://www.w3.org/2003/05/soap-envelope".toList

/-- An element without attributes around character data. -/
def leaf (n : String) (s : Text) : XNode := .elem n.toList [] (txt s)

/-- What `Call` puts into the header: `toSendHeader` (models.go:65-74) as filled at client.go:45-54. -/
structure Header where
  target : Text
  /-- with the slash of client.go:47 -/
  action : Text
  messageID : Text
  /-- address of the caller -/
  sender : Text
  identity : Text

/-- `toSendHeader`, `toSendFrom` (models.go:60-74). -/
def headerNode (h : Header) : XNode :=
  .elem "S:Header".toList [("xmlns:wsa5".toList, "http://www.w3.org/2005/08/addressing".toList)] [
    leaf "wsa5:To" h.target,
    leaf "wsa5:Action" h.action,
    leaf "wsa5:MessageID" h.messageID,
    .elem "wsa5:From".toList [] [leaf "wsa5:Address" h.sender],
    mkElem ⟨"urn://Ocpp/Cp/2012/06/".toList, "chargeBoxIdentity".toList⟩ [] (txt h.identity)]

/-- `toSendFault` (models.go:83-91): only the reason is ever set, and left out if empty. -/
def faultNode (reason : Text) : XNode :=
  .elem "S:Fault".toList [] (if reason = [] then [] else [leaf "reason" reason])

/-- `toSendEnvelope`, `toSendBody` (models.go:52-58, 76-81): content before fault. -/
def envelopeNode (header : Option Header) (content : List XNode) (fault : Option Text) : XNode :=
  .elem "S:Envelope".toList [("xmlns:S".toList, envNs)] (
    (header.toList.map headerNode) ++
    [.elem "S:Body".toList [] (content ++ fault.toList.map faultNode)])

/-- The element of a message (any name would do: the struct's XMLName overrides it). -/
def contentNodes (G : FloatText) (m : MsgType) (v : Val) : GoRes (List XNode) :=
  toXml G m.ty ⟨[], "Content".toList⟩ false v

/-- The request body of `Call` (client.go:44-62; the XML header added at 67 is only logged). -/
def encodeCall (G : FloatText) (h : Header) (r : Req) : GoRes Text :=
  (contentNodes G (.req r.type) r.val).bind fun c => .ok (print (envelopeNode (some h) c none))

/-- `Marshal` (marshal.go:22-31): a nil response leaves the content out. -/
def encodeReply (G : FloatText) (resp : Option Resp) (err : Option Text) : GoRes Text :=
  match resp with
  | none => .ok (print (envelopeNode none [] err))
  | some r => (contentNodes G (.resp r.type) r.val).bind fun c => .ok (print (envelopeNode none c err))

/-! ### Received envelopes -/

/-- A string field with this tag name. -/
def strField (go xml : String) : FieldInfo := ⟨go, [], false, .elem, xml.toList, false⟩

/-- A struct that is only read from XML. -/
def xmlStruct (name : String) (fs : List FieldInfo) (loc : String) : StructInfo :=
  { pkg := "soap", name := name, fields := fs, enc := .reflect [], dec := .reflect [],
    xmlName := some ([], loc.toList) }

/-- `receivedFrom` (models.go:17-20). -/
def fromTy : Ty := .struct (xmlStruct "receivedFrom" [strField "Address" "Address"] "From") [.str]

/-- `receivedHeader` (models.go:22-30). -/
def headerTy : Ty := .struct (xmlStruct "receivedHeader" [strField "To" "To", strField "Action" "Action",
  strField "MessageID" "MessageID", strField "From" "From", strField "ChargeBoxIdentity" "chargeBoxIdentity"] "Header")
  [.str, .str, .str, fromTy, .str]

/-- The anonymous struct of `receivedFault.Reason` (models.go:42-45). -/
def reasonTy : Ty := .struct (xmlStruct "Reason" [strField "Text" "Text"] "Reason") [.str]

/-- `receivedFault` (models.go:39-49). -/
def faultTy : Ty := .struct (xmlStruct "receivedFault" [strField "Reason" "Reason", strField "String" "faultstring",
  strField "Actor" "faultactor", strField "Detail" "detail"] "Fault") [reasonTy, .str, .str, .str]

/-- The `switch` of `receivedBody.UnmarshalXML` (marshal.go:52-157). -/
def bodyTable : List (Text × MsgType) := [
  ("bootNotificationRequest".toList, .req .cpreqBootNotification),
  ("heartbeatRequest".toList, .req .cpreqHeartbeat),
  ("statusNotificationRequest".toList, .req .cpreqStatusNotification),
  ("meterValuesRequest".toList, .req .cpreqMeterValues),
  ("authorizeRequest".toList, .req .cpreqAuthorize),
  ("startTransactionRequest".toList, .req .cpreqStartTransaction),
  ("stopTransactionRequest".toList, .req .cpreqStopTransaction),
  ("firmwareStatusNotificationRequest".toList, .req .cpreqFirmwareStatusNotification),
  ("diagnosticsStatusNotificationRequest".toList, .req .cpreqDiagnosticsStatusNotification),
  ("bootNotificationResponse".toList, .resp .cprespBootNotification),
  ("heartbeatResponse".toList, .resp .cprespHeartbeat),
  ("statusNotificationResponse".toList, .resp .cprespStatusNotification),
  ("meterValuesResponse".toList, .resp .cprespMeterValues),
  ("authorizeResponse".toList, .resp .cprespAuthorize),
  ("startTransactionResponse".toList, .resp .cprespStartTransaction),
  ("stopTransactionResponse".toList, .resp .cprespStopTransaction),
  ("firmwareStatusNotificationResponse".toList, .resp .cprespFirmwareStatusNotification),
  ("diagnosticsStatusNotificationResponse".toList, .resp .cprespDiagnosticsStatusNotification),
  ("unlockConnectorRequest".toList, .req .csreqUnlockConnector),
  ("resetRequest".toList, .req .csreqReset),
  ("changeAvailabilityRequest".toList, .req .csreqChangeAvailability),
  ("getDiagnosticsRequest".toList, .req .csreqGetDiagnostics),
  ("clearCacheRequest".toList, .req .csreqClearCache),
  ("updateFirmwareRequest".toList, .req .csreqUpdateFirmware),
  ("changeConfigurationRequest".toList, .req .csreqChangeConfiguration),
  ("remoteStartTransactionRequest".toList, .req .csreqRemoteStartTransaction),
  ("remoteStopTransactionRequest".toList, .req .csreqRemoteStopTransaction),
  ("cancelReservationRequest".toList, .req .csreqCancelReservation),
  ("dataTransferRequest".toList, .req .csreqDataTransfer),
  ("getConfigurationRequest".toList, .req .csreqGetConfiguration),
  ("getLocalListVersionRequest".toList, .req .csreqGetLocalListVersion),
  ("reserveNowRequest".toList, .req .csreqReserveNow),
  ("sendLocalListRequest".toList, .req .csreqSendLocalList),
  ("unlockConnectorResponse".toList, .resp .csrespUnlockConnector),
  ("resetResponse".toList, .resp .csrespReset),
  ("changeAvailabilityResponse".toList, .resp .csrespChangeAvailability),
  ("getDiagnosticsResponse".toList, .resp .csrespGetDiagnostics),
  ("clearCacheResponse".toList, .resp .csrespClearCache),
  ("updateFirmwareResponse".toList, .resp .csrespUpdateFirmware),
  ("changeConfigurationResponse".toList, .resp .csrespChangeConfiguration),
  ("remoteStartTransactionResponse".toList, .resp .csrespRemoteStartTransaction),
  ("remoteStopTransactionResponse".toList, .resp .csrespRemoteStopTransaction),
  ("cancelReservationResponse".toList, .resp .csrespCancelReservation),
  ("dataTransferResponse".toList, .resp .csrespDataTransfer),
  ("getConfigurationResponse".toList, .resp .csrespGetConfiguration),
  ("getLocalListVersionResponse".toList, .resp .csrespGetLocalListVersion),
  ("reserveNowResponse".toList, .resp .csrespReserveNow),
  ("sendLocalListResponse".toList, .resp .csrespSendLocalList)]

/-- `receivedBody` (models.go:32-37). -/
structure Body where
  content : Option (MsgType × Val)
  fault : Option Val

/-- `receivedBody.UnmarshalXML` (marshal.go:33-177). -/
def readBody : List RNode → Body → GoRes Body
  | [], b => .ok b
  | .text _ :: ks, b => readBody ks b
  | .elem n as cs :: ks, b =>
    if n.loc = "Fault".toList then
      (fromXml faultTy n as cs (zeroVal faultTy)).bind fun f => readBody ks { b with fault := some f }
    else
      match bodyTable.lookup n.loc with
      | none => .err "not implemented unmarshal for this OCPP message"
      | some m => (fromXml m.ty n as cs (zeroVal m.ty)).bind fun v => readBody ks { b with content := some (m, v) }

/-- `receivedEnvelope` (models.go:11-15): the header struct, if there is a header, and the body. -/
structure Envelope where
  header : Option Val
  body : Body

/-- The children of the envelope; others than header and body are skipped. -/
def readParts : List RNode → Envelope → GoRes Envelope
  | [], e => .ok e
  | .text _ :: ks, e => readParts ks e
  | .elem n as cs :: ks, e =>
    if n.loc = "Header".toList then
      (fromXml headerTy n as cs (e.header.getD (zeroVal headerTy))).bind fun h => readParts ks { e with header := some h }
    else if n.loc = "Body".toList then
      (readBody cs e.body).bind fun b => readParts ks { e with body := b }
    else readParts ks e

/-- The root element into a `receivedEnvelope`. -/
def readRoot : RNode → GoRes Envelope
  | .text _ => .err "EOF"
  | .elem n _ ks => if n.loc = "Envelope".toList then readParts ks ⟨none, ⟨none, none⟩⟩ else .err "expected element type <Envelope>"

/-- `Unmarshal` (marshal.go:13-20). -/
def decode (t : Text) : GoRes Envelope :=
  match parseXml t with
  | none => .err "XML syntax error"
  | some n => readRoot (resolve [] n)

/-- The identity in a header (`reqEnv.Header.ChargeBoxIdentity`). -/
def identityOf : Val → Text
  | .struct [_, _, _, _, .str s] => s
  | _ => []

/-- `(*receivedFault).Error` (models.go:51-53). -/
def faultText : Val → Text
  | .struct (.struct [.str s] :: _) => s
  | _ => []

/-! ### Server -/

/-- What a handler returned: response and error, each possibly nil. -/
structure HandlerResult where
  resp : Option Resp
  err : Option Text

/-- What the server did: the calls of the user's handler, and the end of `Handle`: the reply body, an error
(logged by the caller, the HTTP reply is empty), or a panic. -/
structure Served where
  calls : List (Req × Text)
  result : GoRes Text

/-- The function given to `Handle` (cs/cs.go:170-179 for `atCs`, cp/soap.go:35-41): requests of the wrong direction
are refused without calling the user's handler.  (Both say `request is not a cprequest`.) -/
def direct (atCs : Bool) (h : Req → Text → HandlerResult) (r : Req) (id : Text) : List (Req × Text) × HandlerResult :=
  if r.type.isChargePoint = atCs then ([(r, id)], h r id)
  else ([], ⟨none, some "request is not a cprequest".toList⟩)

/-- `Handle` (server.go:17-55) at a central system (`atCs`) or a charge point. -/
def serve (G : FloatText) (atCs : Bool) (h : Req → Text → HandlerResult) (body : Text) : Served :=
  match decode body with
  | .err m => ⟨[], .err m⟩
  | .panic m => ⟨[], .panic m⟩
  | .ok env =>
    match env.body.content with
    | some (.req r, v) =>
      match env.header with
      | none => ⟨[], .panic "invalid memory address or nil pointer dereference"⟩
      | some hd =>
        let (calls, res) := direct atCs h ⟨r, v⟩ (identityOf hd)
        ⟨calls, encodeReply G res.resp res.err⟩
    | _ => ⟨[], .err "received message is not a request"⟩

/-- The headers of a reply (server.go:50-51). -/
def replyHeaders : List (String × String) :=
  [("Content-Type", "application/soap+xml"), ("Content-Encoding", "deflate")]

/-! ### Client -/

/-- How an HTTP request ends. -/
inductive Answer where
  | failed (msg : String)
  | got (status : Nat) (body : Text)

/-- What the caller sees of `Handle`: an error is only logged, so the answer is 200 with an empty body; after a panic
net/http closes the connection. -/
def answerOf : GoRes Text → Answer
  | .ok b => .got 200 b
  | .err _ => .got 200 []
  | .panic m => .failed m

/-- The result of `Send` over SOAP: besides a response, an error with its text. -/
inductive Result where
  | ok (r : Resp)
  | err (text : Text)
  | panic (msg : String)

/-- `Call` from client.go:97 on, and internal/service/soap.go:21-28: what becomes of the answer to a request.  (The
texts of errors that do not come from the peer are not kept apart.) -/
def receive (r : Req) (a : Answer) : Result :=
  match a with
  | .failed m => .err m.toList
  | .got status body =>
    if body = [] ∧ status ≠ 200 then .err "response returned with a non-OK status code".toList
    else
      match decode body with
      | .err m => .err m.toList
      | .panic m => .panic m
      | .ok env =>
        match env.body.fault with
        | some f => .err (faultText f)
        | none =>
          match env.body.content with
          | none => .panic "reflect: call of Value.Type on zero Value"
          | some (m, v) =>
            if m = .resp r.type.response then .ok ⟨r.type.response, v⟩ else .panic "incompatible types"

/-- The body that `Send` of a SOAP service posts (internal/service/soap.go:21-23, client.go:38-62). -/
def posted (G : FloatText) (url msgId sender identity : Text) (r : Req) : GoRes Text :=
  if url = [] then .err "no URL to request"
  else encodeCall G ⟨url, '/' :: r.type.action, msgId, sender, identity⟩ r

/-- `Send` of a SOAP service (internal/service/soap.go:21-28, client.go:38-117) with `net` as the peer behind the
URL. -/
def send (G : FloatText) (url msgId sender identity : Text) (net : Text → Answer) (r : Req) : Result :=
  match posted G url msgId sender identity r with
  | .err m => .err m.toList
  | .panic m => .panic m
  | .ok body => receive r (net body)

/-- A service calling a server of this library: the result of `Send` and the calls of the handler. -/
def exchange (G : FloatText) (url msgId sender identity : Text) (atCs : Bool) (h : Req → Text → HandlerResult) (r : Req) :
    List (Req × Text) × Result :=
  (match posted G url msgId sender identity r with
    | .ok body => (serve G atCs h body).calls
    | _ => [],
   send G url msgId sender identity (fun b => answerOf (serve G atCs h b).result) r)

end Verif.Soap
