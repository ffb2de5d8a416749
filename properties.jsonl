{"id": "C01", "title": "Every JSON-encoded message is well-formed JSON", "statement": "For every OCPP message value of every message type, encoding it as JSON either fails with an error (or, in the one case of C08, panics) or yields text that is one syntactically valid JSON object, whose members have pairwise distinct names and are exactly the members the message's fields call for; the hand-rolled comma/brace bookkeeping never produces malformed text, whichever optional fields are nil.", "quantifier": "all message types, all field values, all nil/non-nil combinations of optional fields", "why_tests_cant": "there are infinitely many field values and 2^k nil patterns per type; a misplaced comma only shows for particular patterns", "anchors": ["messages/v1x/cpreq/json_encode.go: (*T).MarshalJSON", "messages/v1x/cpresp/json_encode.go: (*T).MarshalJSON", "messages/v1x/csreq/json_encode.go: (*T).MarshalJSON", "messages/v1x/csresp/json_encode.go: (*T).MarshalJSON"]}
{"id": "C02", "title": "JSON round trip of messages", "statement": "For every message type but SendLocalList (whose losses C07 states), decoding the JSON encoding of a message yields the same message, with time stamps cut to whole seconds and nothing else changed (nil versus empty lists and nil versus present pointers included).", "quantifier": "all message types, all values whose strings are Unicode, whose numbers fit their Go type and whose times have a four-digit year and whole-minute zone offset", "why_tests_cant": "round-tripping must hold for every value; the repository has no JSON codec test at all", "anchors": ["messages/v1x/*/json_encode.go: MarshalJSON, UnmarshalJSON"]}
{"id": "C03", "title": "Decoding does not depend on map iteration order", "statement": "Whether decoding a JSON message succeeds, and the message it produces, is the same for every order in which Go may iterate over the decoded property map.", "quantifier": "all message types, all property maps, all iteration orders (permutations)", "why_tests_cant": "Go randomises map iteration; a test sees a few orders of a few maps", "anchors": ["messages/v1x/*/json_encode.go: UnmarshalJSON (for k, v := range jsonMap)"]}
{"id": "C04", "title": "Required properties and closed-world decoding", "statement": "Decoding a JSON object into a message type with a generated decoder succeeds only if every required property is present and (for top-level messages) no unknown property is present; a property that is present is decoded into its own field, an absent one leaves the field at its zero value.", "quantifier": "all message types with a generated decoder, all JSON objects", "why_tests_cant": "it is a statement about every possible JSON object", "anchors": ["messages/v1x/*/json_encode.go: UnmarshalJSON"]}
{"id": "C05", "title": "A required property given as null is not detected", "statement": "A required property sent as JSON null is accepted and decoded to the zero value (so 'required' does not imply 'has a value').", "quantifier": "all message types, all JSON objects in which a required scalar, pointer or list property is null", "why_tests_cant": "it concerns every type and every surrounding object", "anchors": ["messages/v1x/*/json_encode.go: UnmarshalJSON"]}
{"id": "C06", "title": "Remote start/stop requests decode leniently", "statement": "RemoteStartTransaction and RemoteStopTransaction, unlike all other messages, accept objects with missing required and with unknown properties and match property names case-insensitively.", "quantifier": "all JSON objects", "why_tests_cant": "it is a statement about every possible JSON object", "anchors": ["messages/v1x/csreq/messages.go: RemoteStartTransaction, RemoteStopTransaction"]}
{"id": "C07", "title": "Local authorization list entries lose their expiry date and parent tag", "statement": "A SendLocalList request received over JSON carries, in each entry's idTagInfo, only the status: expiryDate and parentIdTag are lost for every sent value, although the sender encodes them.", "quantifier": "all SendLocalList requests", "why_tests_cant": "the loss must be shown for (or excluded for) every list and value", "anchors": ["messages/v1x/csreq/json_encode.go: (*IdTagInfo).UnmarshalJSON"]}
{"id": "C08", "title": "Encoding panics exactly for an authorization entry without expiry date", "statement": "JSON-encoding a message panics if and only if it is a SendLocalList with an entry whose idTagInfo is present and has no expiryDate; in particular no other request and no response whatever can make the sender panic.", "quantifier": "all message types, all values", "why_tests_cant": "panic freedom ranges over all values and nil patterns", "anchors": ["messages/v1x/csreq/json_encode.go: (*IdTagInfo).MarshalJSON"]}
{"id": "C09", "title": "Missing required sub-objects are refused before anything is sent", "statement": "Encoding a message whose required sub-object (idTagInfo of an Authorize/StartTransaction response, chargingSchedule of a charging profile, csChargingProfiles) is nil fails with an error naming that property.", "quantifier": "all values of those message types", "why_tests_cant": "ranges over all values of the other fields", "anchors": ["messages/v1x/cpresp/json_encode.go: Authorize, StartTransaction", "messages/v1x/csreq/json_encode.go: ChargingProfile, CsChargingProfiles, SetChargingProfile"]}
{"id": "C10", "title": "OCPP-J frame round trip", "statement": "Every Call, CallResult and CallError frame written by the library is read back by the library as the same kind of message with the same id, action, payload, error code, description and details.", "quantifier": "all ids, actions, JSON payloads, error codes, descriptions and details", "why_tests_cant": "strings and payloads are unbounded", "anchors": ["ws/message.go: MarshalJSON", "ws/conn.go: UnmarshalMessage"]}
{"id": "C11", "title": "Every received text is classified correctly", "statement": "Reading a text frame returns a Call / CallResult / CallError only if the text is a JSON array of the OCPP-J shape (number 2/3/4, string id, and the kind's remaining elements with the right JSON types), with the fields taken from those elements; texts that are not JSON arrays, or have an element of the wrong type, are rejected with an error.", "quantifier": "all received texts", "why_tests_cant": "the peer may send any text", "anchors": ["ws/conn.go: UnmarshalMessage"]}
{"id": "C12", "title": "Which received texts crash the process", "statement": "The text frames that make the receiving process panic are exactly: JSON arrays too short for their kind, null, arrays with an unknown message type number, and (C19) a CallResult to a DataTransfer that this side sent and that is not answered yet; every other text, valid JSON or not, is read or rejected without a panic. (The user-level expectation, that no text a peer sends crashes the process, is false.)", "quantifier": "all received texts", "why_tests_cant": "the peer may send any text", "anchors": ["ws/conn.go: UnmarshalMessage, (*Conn).ReadMessage"]}
{"id": "C13", "title": "Newline and whitespace normalisation does not change a valid frame", "statement": "Replacing newlines by spaces and trimming white space before parsing never changes the JSON value of a valid JSON text, whatever white space it contains.", "quantifier": "all valid JSON texts", "why_tests_cant": "texts are unbounded", "anchors": ["ws/conn.go: (*Conn).ReadMessage (bytes.TrimSpace, bytes.Replace)"]}
{"id": "C14", "title": "Request content survives the wire", "statement": "The request object the peer's handler receives for a request sent over OCPP-J equals the sent request, up to the codec's documented losses (times to seconds; C07 for SendLocalList), provided its integers are within plus/minus 2^53; the conversion through an untyped map on both sides loses nothing else.", "quantifier": "all request types that OCPP-J dispatch supports, all values", "why_tests_cant": "the payload passes four encoding/decoding stages; the statement is over all values", "anchors": ["ws/message.go: UnmarshalRequest", "ws/conn.go: callToRequest"]}
{"id": "C15", "title": "Integers beyond 2^53 are corrupted on the wire", "statement": "Sending a request with an integer field beyond 2^53 over OCPP-J can deliver a different integer to the peer's handler, silently: what arrives is an integer with the same nearest float64 (two integers with the same nearest float64 arrive as the same integer), everything else in the message being kept.", "quantifier": "existence over all requests; together with C14 it pins down the safe range", "why_tests_cant": "a sampled test misses the boundary", "anchors": ["ws/message.go: UnmarshalRequest"]}
{"id": "C16", "title": "A handler that answers with neither a response nor an error strands the peer", "statement": "If a handler returns a nil response and a nil error over OCPP-J, the frame sent is rejected by the library's own reader on the other side, so the peer's Send never receives an answer.", "quantifier": "all message ids", "why_tests_cant": "the statement is over every call", "anchors": ["ws/message.go: unmarshalResponse, CallResultMessage.MarshalJSON", "ws/conn.go: UnmarshalMessage"]}
{"id": "C17", "title": "Action names identify request types", "statement": "The request object created for an action name has exactly that action name, and every request type other than DataTransfer is created for its own action name; the response table agrees with the request type's own response type for every action name.", "quantifier": "all strings as action names, all request types", "why_tests_cant": "the domain (all strings) is infinite; the tables are long and hand-maintained", "anchors": ["messages/req/actions.go: FromActionName", "messages/res/actions.go: FromActionName", "messages/v1x/*/messages.go: Action, GetResponse"]}
{"id": "C18", "title": "A successful Send never mismatches request and response type", "statement": "Over both transports, a Send that succeeds returns a response of the type belonging to the request sent, and on the right side of the protocol (charge point requests get charge point responses, central system requests central system responses); the 'not a ... response' errors of the services are unreachable.", "quantifier": "all requests, all peer answers", "why_tests_cant": "the peer's answer is arbitrary", "anchors": ["internal/service/cp.go: Send", "internal/service/cs.go: Send", "ws/conn.go: callResultToResponse", "soap/client.go: Call"]}
{"id": "C19", "title": "DataTransfer is not usable over OCPP-J", "statement": "An incoming DataTransfer call is answered with NotSupported, and a well-formed CallResult to a DataTransfer that this side sent crashes the process.", "quantifier": "all payloads and ids", "why_tests_cant": "all payloads", "anchors": ["messages/req/actions.go: FromActionName", "ws/conn.go: callToRequest, callResultToResponse"]}
{"id": "C20", "title": "Bad requests are answered with the right error code", "statement": "An incoming Call with an unsupported action is answered with a CallError NotSupported carrying its id, one whose payload does not decode with FormationViolation, and neither reaches the handler; every other Call reaches the handler exactly as decoded.", "quantifier": "all incoming Call frames", "why_tests_cant": "all actions and payloads", "anchors": ["ws/conn.go: ReadMessage, callToRequest"]}
{"id": "C21", "title": "Responses are never crossed", "statement": "In every schedule of concurrent Sends, incoming frames, timeouts and closes on a connection, a Send that returns a response or a call error got it from a frame that was processed (looked up among the pending calls) after that Send registered its call and that carries that Send's own message id; a frame completes at most one Send and a Send completes at most once.", "quantifier": "all schedules, any number of concurrent Sends, any incoming frame sequence", "why_tests_cant": "schedules and peers are unbounded", "anchors": ["ws/conn.go: SendRequest, ReadMessage"]}
{"id": "C22", "title": "At most one frame read at a time", "statement": "While a connection is served by the library's loop, at most one goroutine is reading or dispatching a frame at any moment, although a new reading goroutine is started for every loop iteration.", "quantifier": "all schedules", "why_tests_cant": "needs an invariant over all interleavings; gorilla/websocket forbids concurrent readers", "anchors": ["ws/conn.go: ReadMessageAsync", "cs/cs.go: handleWebsocket", "cp/json.go: handleWebsocketConnection"]}
{"id": "C23", "title": "Requests are handled in order, each exactly once", "statement": "The requests given to the handler of a connection are exactly the valid requests among the frames read, in the order in which they were read, each once (the last one possibly still on its way).", "quantifier": "all schedules and frame sequences", "why_tests_cant": "needs an invariant over all interleavings", "anchors": ["ws/conn.go: ReadMessage, Requests", "cs/cs.go: handleWebsocket", "cp/json.go: handleWebsocketConnection"]}
{"id": "C24", "title": "Each handled request is answered exactly once, in order", "statement": "The reply frames a connection attempts to send for requests handled are one per handled request, with the request's id, in the order handled, carrying the handler's response or, if the handler failed, an InternalError CallError with the handler's error text.", "quantifier": "all schedules, handlers and frame sequences", "why_tests_cant": "needs an invariant over all interleavings", "anchors": ["ws/conn.go: SendResponse", "ws/message.go: unmarshalResponse", "cs/cs.go", "cp/json.go"]}
{"id": "C25", "title": "Unsolicited responses are ignored", "statement": "A CallResult or CallError whose id is not that of a pending call changes nothing: no pending Send is affected, no frame is sent and the connection goes on reading.", "quantifier": "all states and frames", "why_tests_cant": "all histories", "anchors": ["ws/conn.go: ReadMessage"]}
{"id": "C26", "title": "A late response wedges the connection", "statement": "If a Send timed out and the peer's response arrives afterwards, the connection never reads another frame: in every continuation without a local close no further request is handled and no Send gets a response. (The user-level expectation, that a late response is harmless, is false.)", "quantifier": "all continuations of every such state", "why_tests_cant": "a liveness failure over all futures", "anchors": ["ws/conn.go: SendRequest (timeout branch), ReadMessage"]}
{"id": "C27", "title": "A Send made inside the handler on the same connection can only time out", "statement": "While a connection's handler is running, no frame is read on that connection; hence a Send to the same peer from inside the handler cannot return a response, in any schedule.", "quantifier": "all schedules and handlers", "why_tests_cant": "all futures", "anchors": ["cs/cs.go: handleWebsocket", "cp/json.go: handleWebsocketConnection", "ws/conn.go: SendRequest"]}
{"id": "C28", "title": "Every handled request leaks a goroutine", "statement": "The number of goroutines blocked forever on a connection equals the number of requests handled on it so far (once the loop is back to waiting). (The user-level expectation of bounded resources is false.)", "quantifier": "all schedules and histories", "why_tests_cant": "a count over all histories", "anchors": ["ws/conn.go: ReadMessageAsync", "cs/cs.go", "cp/json.go"]}
{"id": "C29", "title": "Pending-call bookkeeping", "statement": "A call's pending entry exists exactly from its registration until its Send has consumed a response; in particular calls that timed out or whose write failed keep their entry for the life of the connection.", "quantifier": "all schedules", "why_tests_cant": "needs an invariant over all interleavings", "anchors": ["ws/conn.go: SendRequest"]}
{"id": "C30", "title": "Closing is final and idempotent", "statement": "A connection is closed exactly from the first Close (or end of the charge point context), failed read or (at the central system) handler panic on. Once it is closed, its WaitClose channel stays closed in every continuation, closing again changes nothing, and no later write succeeds.", "quantifier": "all continuations", "why_tests_cant": "all futures", "anchors": ["ws/conn.go: Close, WaitClose"]}
{"id": "C31", "title": "Writes do not interleave", "statement": "Frames sent through the connection's own methods appear on the wire one after the other: at most one goroutine is inside a socket write at any moment and the wire is a sequence of whole frames, in the order in which their calls returned, followed by the beginning of at most one more, whatever the schedule. A call returns at most once, and if it returns without error it has written exactly its own frame.", "quantifier": "all schedules, any number of concurrent senders and frame chunkings", "why_tests_cant": "needs an invariant over all interleavings", "anchors": ["ws/conn.go: WriteJSON, sendMessage"]}
{"id": "C32", "title": "The pending-call map is accessed without synchronisation", "statement": "There is a schedule with one Send and one incoming frame in which the sender's map write and the reader's map access are both enabled at once, i.e. a data race on the pending-call maps. (The expectation that concurrent Sends are safe is false.)", "quantifier": "existence over all schedules", "why_tests_cant": "races are schedule dependent", "anchors": ["ws/conn.go: SendRequest, ReadMessage"]}
{"id": "C33", "title": "Connection registry is consistent", "statement": "After every history of handshakes, closes and clean-ups, the central system has a connection for a charge point id iff the number of its connections not yet cleaned up is positive, and never closes a channel twice (no panic).", "quantifier": "all histories over any number of charge points", "why_tests_cant": "unbounded histories", "anchors": ["cs/cs.go: handleWebsocket"]}
{"id": "C34", "title": "GetServiceOf decides by version and registry", "statement": "GetServiceOf for OCPP 1.6 fails iff no connection of that charge point is registered and otherwise returns the most recently connected one; for 1.5 it always succeeds with a SOAP service for the url and the id; any other version fails.", "quantifier": "all histories, ids, versions, urls", "why_tests_cant": "unbounded histories", "anchors": ["cs/cs.go: GetServiceOf"]}
{"id": "C35", "title": "A live connection is found if there is one", "statement": "If the connections of a charge point end in the order they were made, GetServiceOf returns a live one whenever there is one. If the last one made goes away first, the dead one is returned although another one is live. (The user-level expectation, that a live connection is found if there is one, is false in general.)", "quantifier": "all histories", "why_tests_cant": "unbounded histories", "anchors": ["cs/cs.go: handleWebsocket, GetServiceOf"]}
{"id": "C36", "title": "WaitConnect never misses a connection", "statement": "Every channel ever returned by the central system's WaitConnect for a charge point is closed once that charge point connects after the call (or was connected at the call), and is not closed as long as it has not connected since before the call.", "quantifier": "all histories and call points", "why_tests_cant": "unbounded histories", "anchors": ["cs/cs.go: WaitConnect, handleWebsocket"]}
{"id": "C37", "title": "WaitDisconnect", "statement": "The channel returned by WaitDisconnect is already closed if the charge point has no registered connection, and otherwise is closed exactly when the connection registered at the time of the call is closed.", "quantifier": "all histories and call points", "why_tests_cant": "unbounded histories", "anchors": ["cs/cs.go: WaitDisconnect"]}
{"id": "C38", "title": "Connection listeners fire once per connection", "statement": "Each connection's connection listener and disconnection listener are called at most once, with that connection's id, and exactly once (for connections made, and connections that ended) whenever no listener goroutine is still on its way; the listeners run in goroutines of their own, so the disconnection of a connection may be reported before its connection.", "quantifier": "all histories", "why_tests_cant": "unbounded histories", "anchors": ["cs/cs.go: handleWebsocket"]}
{"id": "C39", "title": "Charge points are isolated from each other in the registry", "statement": "Events of one charge point never change what GetServiceOf, WaitConnect or WaitDisconnect report for another.", "quantifier": "all histories, all pairs of distinct ids", "why_tests_cant": "unbounded histories", "anchors": ["cs/cs.go"]}
{"id": "C40", "title": "The landing page counts charge points", "statement": "The number shown on the central system's landing page is the number of distinct charge point ids that have a registered connection.", "quantifier": "all histories", "why_tests_cant": "unbounded histories", "anchors": ["cs/cs.go: Run"]}
{"id": "C41", "title": "Identity reaches the central system", "statement": "For every identity made of unreserved URL characters (other than . and ..), a charge point dialling a central system URL without a path is registered, and reported to handlers and listeners, under exactly that identity; a path in the URL becomes part of the id; an identity with a '?' or '#' is cut at that character. In general, at a URL without a path, an identity connects, under a given id, exactly if it has no control character, its part before the first '?' or '#' is a percent-encoding of the id, and the id consists of non-empty, non-dot segments (or is empty, or ends in a slash).", "quantifier": "all identities and URLs of that shape", "why_tests_cant": "infinitely many identities", "anchors": ["ws/conn.go: Dial", "cs/cs.go: handleWebsocket (TrimPrefix)"]}
{"id": "C42", "title": "HTTP dispatch", "statement": "A request to the central system is treated as a websocket connection iff it is an upgrade request, otherwise as the landing page iff its method is GET, and otherwise as SOAP, except that a request (other than CONNECT) for a path that is not clean is redirected to the clean form of the path; running a second central system in the same process panics.", "quantifier": "all requests", "why_tests_cant": "all combinations", "anchors": ["cs/cs.go: Run"]}
{"id": "C43", "title": "Charge point reconnection", "statement": "A JSON charge point whose connection is lost keeps dialling and, as soon as a dial succeeds, uses the new connection for all later Sends and requests; it never closes a connect channel twice.", "quantifier": "all sequences of dial outcomes, losses and requests", "why_tests_cant": "unbounded histories", "anchors": ["cp/json.go: handleWebsocketConnection, getNewWebsocketConnection"]}
{"id": "C44", "title": "Charge point WaitConnect can report a lost connection as connected", "statement": "There is a schedule in which WaitDisconnect has fired and WaitConnect is nevertheless already closed although no connection is up (the loop has not yet replaced the channel); once the loop has noticed the loss, WaitConnect's channel is closed iff the charge point is connected again. A charge point that was stopped keeps reporting itself connected.", "quantifier": "all schedules", "why_tests_cant": "schedule dependent (the repository's own test notes it is flaky)", "anchors": ["cp/json.go: WaitConnect, WaitDisconnect"]}
{"id": "C45", "title": "Cancelling the context stops the charge point", "statement": "After the context is cancelled a connected charge point whose loop is waiting can stop at once (the select chooses among what is ready), which closes its connection and is for good. During reconnection the context is not looked at, so it dials on until a dial succeeds; and a SOAP charge point's server is never stopped by the context.", "quantifier": "all schedules", "why_tests_cant": "all futures", "anchors": ["cp/json.go: handleWebsocketConnection"]}
{"id": "C46", "title": "Charge point construction", "statement": "cp.New fails for JSON iff the dial fails and for SOAP iff no port is given. Otherwise it returns a charge point with the given identity: for JSON connected, sending over the connection; for SOAP serving the given port, sending to the given URL with the identity, never connected; for any other transport with neither server nor connection, and its Send panics. WaitDisconnect panics on every charge point that is not a JSON one.", "quantifier": "all parameters", "why_tests_cant": "all combinations", "anchors": ["cp/cp.go: New"]}
{"id": "C47", "title": "Misdirected requests", "statement": "A request of the wrong direction (valid action, but a central system request sent to the central system, or a charge point request sent to a charge point) is never answered by the central system over OCPP-J, is handed to a charge point's handler as nil, and is answered with a fault over SOAP.", "quantifier": "all requests, handlers", "why_tests_cant": "all requests", "anchors": ["cs/cs.go: handleWebsocket, handleSoap", "cp/json.go", "cp/soap.go"]}
{"id": "C48", "title": "SOAP round trip of messages", "statement": "For every message type that can be received over SOAP, decoding the envelope produced for a message yields the same message, except that characters XML 1.0 does not have are replaced by U+FFFD, empty lists become nil, nil entries and empty strings in lists disappear, and the phase of a sampled value is lost; a message arrives unchanged iff none of these applies.", "quantifier": "all SOAP message types and values (any strings, whatever markup they contain) with times in four-digit years", "why_tests_cant": "all values", "anchors": ["messages/v1x/*/messages.go: xml tags", "soap/marshal.go"]}
{"id": "C49", "title": "SOAP body dispatch", "statement": "A body element is decoded as the message type whose XML name it has, for every message type with a SOAP binding; elements of any other name are an error; with several elements the last message wins; a Fault is recorded as fault.", "quantifier": "all body elements", "why_tests_cant": "all names and sequences", "anchors": ["soap/marshal.go: (*receivedBody).UnmarshalXML"]}
{"id": "C50", "title": "DataTransfer and the 1.6-only messages over SOAP", "statement": "A charge point's DataTransfer request cannot be received over SOAP (its name space does not match the type chosen), nor can TriggerMessage, ClearChargingProfile, GetCompositeSchedule or SetChargingProfile.", "quantifier": "all values of those messages", "why_tests_cant": "all values", "anchors": ["soap/marshal.go"]}
{"id": "C51", "title": "Outcome of a SOAP call", "statement": "A SOAP Send returns a response iff the reply is an envelope without Fault whose message has the request's response type; it returns an error on transport failure, undecodable reply, empty reply or Fault; and it panics iff the reply decodes, has no Fault, and its body is empty or a message of another type.", "quantifier": "all requests and all replies", "why_tests_cant": "the peer may reply anything", "anchors": ["soap/client.go: Call", "internal/service/soap.go: Send"]}
{"id": "C52", "title": "Handler errors over SOAP", "statement": "An error returned by a SOAP handler makes the caller's Send fail, but the error text does not arrive: the text of the caller's error is empty for every handler error (unless the handler also returned a response of a type no receiver can read, when the error is about that).", "quantifier": "all error texts and responses", "why_tests_cant": "all texts", "anchors": ["soap/marshal.go: Marshal", "soap/models.go: toSendFault, receivedFault", "soap/client.go: Call"]}
{"id": "C53", "title": "SOAP server outcome", "statement": "The SOAP server calls the handler iff the request is an envelope with a header whose body decodes to a request of its direction, with that request and the identity from the header, and at most once; it panics iff the body decodes to a request and there is no header; a request of the wrong direction is answered with a fault; otherwise it replies nothing and reports an error.", "quantifier": "all received envelopes", "why_tests_cant": "the peer may send anything", "anchors": ["soap/server.go: Handle"]}
{"id": "C54", "title": "SOAP identity", "statement": "The charge box identity configured at the calling side is the identity the called side's handler gets (with U+FFFD for characters XML 1.0 does not have), for every identity and every request that can be received over SOAP.", "quantifier": "all identities and requests", "why_tests_cant": "all strings", "anchors": ["soap/client.go: Call", "soap/server.go: Handle", "cs/cs.go: handleSoap"]}
{"id": "C55", "title": "SOAP replies are mislabelled", "statement": "SOAP replies declare Content-Encoding deflate but no reply body is a zlib stream (the body starts with the plain XML text).", "quantifier": "all replies", "why_tests_cant": "all replies", "anchors": ["soap/server.go: Handle"]}
{"id": "C56", "title": "Stop transaction responses and data over SOAP deviate from the 1.5 names", "statement": "The idTagInfo of a StopTransaction response and the data of a DataTransfer response are written and read under element names (IdTagInfo, Data) other than the OCPP 1.5 ones, so what a standard peer sends there is dropped.", "quantifier": "all values", "why_tests_cant": "all values", "anchors": ["messages/v1x/cpresp/messages.go: StopTransaction, DataTransfer"]}
{"id": "C57", "title": "End-to-end request/response", "statement": "With a charge point and a central system connected over OCPP-J, in every schedule, a Send that returns a response returns what the other side's handler returned for exactly the request sent (both up to the codec's losses), and that handler was called exactly once for it. A Send that returns an error of the other side carries the text of the error its handler returned in its one call, or was refused there (NotSupported or FormationViolation, without details) and the handler was not called. Such responses do come, in either direction, for all encodable requests and responses but DataTransfer.", "quantifier": "all schedules, all requests, all handlers, both directions at once", "why_tests_cant": "composition of codec, framing, correlation and both loops over all interleavings", "anchors": ["ws/conn.go", "cs/cs.go", "cp/json.go", "internal/service/*.go"]}
{"id": "C58", "title": "An answer that arrives in time reaches its Send", "statement": "Whenever a frame answering a still waiting Send has been read, the connection can at once process it and the Send return exactly its content; nothing has to happen in between (no other goroutine can withhold the answer).", "quantifier": "all schedules of a connection", "why_tests_cant": "all interleavings of senders, readers and timeouts", "anchors": ["ws/conn.go: SendRequest, readMessage"]}
{"id": "C59", "title": "End-to-end request/response over SOAP", "statement": "When a service of this library calls a server of this library over SOAP, the handler is called exactly once with the request sent (up to the losses of C48) and the caller's Send returns the handler's response (up to the same losses). If the handler returns neither response nor error, or a response of another type, the caller's Send panics.", "quantifier": "all requests that can be received over SOAP, all identities and URLs, all handlers", "why_tests_cant": "all message contents, including markup, in both directions", "anchors": ["soap/client.go: Call", "soap/server.go: Handle", "internal/service/soap.go: Send", "cs/cs.go: handleSoap", "cp/soap.go"]}
{"id": "C60", "title": "No SOAP text crashes the decoder", "statement": "Decoding a received SOAP text never panics, whatever the text; encoding a message of the library's types never panics.", "quantifier": "all texts; all values of all message types", "why_tests_cant": "all texts", "anchors": ["soap/marshal.go: Unmarshal, (*receivedBody).UnmarshalXML", "soap/client.go: Call"]}
{"id": "C61", "title": "Truncated SOAP messages are never accepted", "statement": "The library ignores errors while reading HTTP bodies, so it parses whatever arrived before the connection broke. Still, no truncated message is accepted: decoding any strict prefix of a text written by the library is an error, so a truncated request never reaches the handler and a truncated response is never returned.", "quantifier": "all requests and responses, all points of truncation", "why_tests_cant": "every cut of every message", "anchors": ["soap/server.go: Handle (ioutil.ReadAll)", "soap/client.go: Call (ioutil.ReadAll)", "soap/marshal.go: Unmarshal"]}
{"id": "C62", "title": "Time stamps", "statement": "A time field is accepted exactly when its text spells a valid calendar date and clock time with zone (RFC 3339, and also a one-digit hour, a comma before the fraction and zones up to 24:60), and is then the moment that text denotes. Every time is sent; the peer gets the same moment cut to the second if the year is within 0 to 9999 and the zone in whole minutes below 25 hours; years or zones beyond that are sent but rejected by the peer.", "quantifier": "all texts, all times", "why_tests_cant": "the Gregorian calendar over all dates, all zones and all spellings", "anchors": ["messages/v1x/cpresp/messages.go: Heartbeat", "messages/v1x/csreq/messages.go", "messages/v1x/cpreq/messages.go"]}
{"id": "C63", "title": "What a peer's payload means", "statement": "When a Call (or the CallResult for a sent call) of any peer is accepted, every scalar field of the request handed to the handler (of the response returned) has the meaning of the last property of its name: strings and booleans verbatim, numbers rounded to float64 whatever their spelling, integers integral (exact up to 2^53, so 1e2 and 100.0 are 100), time stamps the moment they denote; null and absent properties give the zero value. For the two leniently decoded requests (RemoteStart/StopTransaction) names count in any case; of several non-null variants of one name the one that comes last in the order of character codes wins, whatever the order in the text. A Call with an integer property that is not integral is refused with FormationViolation.", "quantifier": "all frames, all message types, all scalar fields", "why_tests_cant": "all JSON spellings, duplicate keys, number roundings", "anchors": ["ws/conn.go: UnmarshalMessage, callToRequest, callResultToResponse", "messages/v1x/csreq/json_encode.go", "messages/v1x/cpreq/json_encode.go"]}
{"id": "C64", "title": "Sent messages and the shipped JSON schemas", "statement": "A message that is sent is valid against the JSON schema shipped for it (ws/json) exactly if its strings obey the schema's enumerations and lengths and no list or object that gets written is nil: property names, types, required and additional properties are always right. Nothing is validated before sending: in particular every optional enumeration that is left unset is sent as \"\" and makes the message invalid (a StopTransaction without reason), and over-long strings are sent as they are. (format and multipleOf are not considered.)", "quantifier": "all messages of all types, all field values", "why_tests_cant": "all combinations of field values of all 57 message types", "anchors": ["ws/json/*.json", "messages/v1x/cpreq/json_encode.go", "messages/v1x/csreq/json_encode.go", "messages/v1x/cpresp/json_encode.go", "messages/v1x/csresp/json_encode.go"]}
{"id": "C65", "title": "Panicking handlers", "statement": "A handler that panics at the central system (over OCPP-J) costs that connection only: net/http recovers, the connection is closed, nothing more is written to it and no further request of it handled, and the process goes on; at a charge point the process dies. In both cases the peer's Send gets no answer whatever happens next: it can only time out.", "quantifier": "all schedules, all points at which the handler panics", "why_tests_cant": "every interleaving of the panic with Sends, reads and closes at both ends", "anchors": ["cs/cs.go: handleWebsocket (deferred clean-up)", "cp/cp.go: New (go handleWebsocketConnection)", "cp/json.go: handleWebsocketConnection"]}
{"id": "C66", "title": "A response that cannot be encoded strands the peer", "statement": "If a handler returns a response whose JSON encoding fails (for example an Authorize response without idTagInfo), nothing is sent and the peer's Send gets no answer: it can only time out.", "quantifier": "all schedules, all unencodable responses", "why_tests_cant": "an 'eventually no answer' claim over all continuations", "anchors": ["ws/conn.go: SendResponse, sendMessage", "cs/cs.go: handleWebsocket", "cp/json.go: handleWebsocketConnection"]}
{"id": "C67", "title": "A central system addresses the right charge point", "statement": "With any number of charge points connected, GetServiceOf(id, V16) gives a service exactly while a charge point is registered as id, on the latest connection registered under that id, whatever the order in which they were dialled (for plain identities: by the charge point with exactly that identity). A Send on it that returns a response was handled exactly once by that charge point's handler, and returns what it returned. Conversely every handler call at the central system with ChargePointID id stems from one Send of a charge point registered as id, and its response goes back to that Send.", "quantifier": "all histories of a central system and any number of charge points, all messages", "why_tests_cant": "interleavings of any number of connections, reconnections and messages", "anchors": ["cs/cs.go: GetServiceOf, handleWebsocket, ChargePointRequestMetadata", "cp/cp.go: New", "ws/conn.go: Dial, Handshake, SendRequest, SendResponse"]}
{"id": "C68", "title": "Connections do not hold each other up, but share one process", "statement": "Whatever can happen at an end of one connection can still happen, with the same effect, after any event on another connection, in either order; a charge point's crash does not affect the central system. But once one connection has crashed the central system's process, nothing happens there on any connection; the causes are a frame with a crashing value, a CallResult to an unanswered DataTransfer, and sending a SendLocalList with an entry without expiry date, never the user's handler.", "quantifier": "all histories, all pairs of connections, all events", "why_tests_cant": "all interleavings over any number of connections", "anchors": ["cs/cs.go: handleWebsocket", "ws/conn.go: ReadMessageAsync, SendRequest"]}
{"id": "C69", "title": "WaitConnect, WaitDisconnect and the listeners follow the real connections", "statement": "The channel of WaitDisconnect(id) is closed exactly when there was no connection of id at the call or the latest one is cut off (closed locally, failed read, handler panic); that of WaitConnect(id) exactly when id was registered at the call or has been registered since. The handler is called only for a charge point that is registered at that moment. When the central system has come to rest, every connection has been registered, a charge point is registered exactly if one of its connections is not cut off, and the listeners were called exactly once per connection and per cut-off connection.", "quantifier": "all histories of a central system and its connections", "why_tests_cant": "interleavings of the read loop, the deferred clean-up, new connections and waiting calls", "anchors": ["cs/cs.go: handleWebsocket, WaitConnect, WaitDisconnect, SetChargePointConnectionListener, SetChargePointDisconnectionListener", "ws/conn.go: WaitClose, Close"]}
{"id": "C70", "title": "SOAP documents of other implementations: spelling does not matter", "statement": "Two well-formed XML documents that say the same (same elements in the same name spaces with the same attributes and text; free are the prefixes, quotes, references, CDATA sections, comments, processing instructions, white space in tags, the XML declaration) have the same effect: at a server the handler gets the same request and identity and the same answer is sent, and as answers to a Send they give the same response, fault or panic. The one exception, which is demonstrated: a prefix declared inside a message under the name of an attribute of that message (xmlns:unit on a sampled value) is taken for that attribute.", "quantifier": "all documents of the fragment of XML 1.0 + namespaces in Spec/XmlDoc, all handlers", "why_tests_cant": "all spellings of all documents", "anchors": ["soap/marshal.go: Unmarshal, receivedBody.UnmarshalXML", "soap/client.go: Call", "soap/server.go: Handle"]}
{"id": "C71", "title": "What is sent over SOAP is a SOAP 1.2 document", "statement": "Send posts, and the server replies with, a well-formed XML document of SOAP 1.2: for a Send the WS-Addressing To, Action, MessageID, From and the chargeBoxIdentity with the given values in the header, in the body exactly one element with the name and name space of the message; the element is given exactly (one element per field in the order of the fields, left out only where the field is optional and empty, repeated for lists), and what it means is the message sent (cut to what SOAP can carry, C48). A response with an error carries both, an error alone only the fault.", "quantifier": "all messages of all types with plain times, all urls, ids, identities, error texts", "why_tests_cant": "all field values incl. control characters, markup characters and nested lists", "anchors": ["soap/marshal.go: Marshal", "soap/client.go: Call", "soap/server.go: Handle", "messages/v1x/cpreq/messages.go", "messages/v1x/csreq/messages.go"]}
{"id": "C72", "title": "What a received SOAP document means", "statement": "The handler is called exactly if the document is an envelope with a header, everything in its body can be read and the last message in it is a request of the right direction; it gets the meaning of that element (independently specified: last element of each name, numbers as in Go programs, decimal or hexadecimal with underscores between digits, booleans and times by their XML spelling, lists in order, absent = zero) and the identity in the header. Send returns a response exactly if the answer is an envelope without fault whose last message is of the request's response type; panics exactly if it is one without fault and with another or no message; returns the text of the last fault if there is one; and an error if the document cannot be read.", "quantifier": "all well-formed documents, all requests", "why_tests_cant": "all documents of all implementations", "anchors": ["soap/marshal.go: Unmarshal, receivedBody.UnmarshalXML", "soap/client.go: Call", "soap/server.go: Handle"]}
{"id": "C73", "title": "Messages sent over SOAP and the shipped WSDL files", "statement": "A message sent over SOAP is valid against the WSDL file shipped with the library (soap/wsdl) exactly under the conditions listed per message type: enumerations, lengths, 32-bit integers, times after the year 0 and within 14 hours of UTC, and, because fields are written alphabetically and empty ones are left out, for many types only if the fields that are out of place are empty (a MeterValues for connector 0 is not valid, nor an Authorize without idTag). BootNotification, StartTransaction, StatusNotification, StopTransaction, SendLocalList and UpdateFirmware requests and StartTransaction and DataTransfer responses are never valid, whatever their fields. Nothing is checked before sending.", "quantifier": "all messages of all types with plain times, all field values", "why_tests_cant": "all combinations of field values of all message types", "anchors": ["soap/wsdl/ocpp_centralsystemservice_1.5_final.wsdl", "soap/wsdl/ocpp_chargepointservice_1.5_final.wsdl", "soap/marshal.go: Marshal", "messages/v1x/cpreq/messages.go", "messages/v1x/csreq/messages.go", "messages/v1x/cpresp/messages.go", "messages/v1x/csresp/messages.go"]}
{"id": "C74", "title": "Receiving messages that are valid against the shipped WSDL files", "statement": "A message that is valid against the WSDL file (in whatever spelling of the document) is received, the handler called with its meaning (Send returns it), exactly if every dateTime in it that is read has no white space around it, a four-digit year without sign, an hour below 24 and a zone: XML Schema allows all these, so valid messages without a time zone are dropped (the peer gets a fault, Send an error). Integers and booleans in every XML Schema spelling are accepted. A charge point's DataTransfer (and its answer) can never be received. Nothing in a valid message is lost except: the meter values of a StopTransaction, list entries and hash of SendLocalList and the hash in its answer, the data in the answer to a charge point's DataTransfer and the idTagInfo in the answer to a StopTransaction; these always are.", "quantifier": "all messages valid against the WSDL files, all spellings", "why_tests_cant": "all documents of all peers", "anchors": ["soap/wsdl/ocpp_centralsystemservice_1.5_final.wsdl", "soap/wsdl/ocpp_chargepointservice_1.5_final.wsdl", "soap/marshal.go: Unmarshal, receivedBody.UnmarshalXML", "messages/v1x/cpreq/messages.go", "messages/v1x/csreq/messages.go", "messages/v1x/cpresp/messages.go", "messages/v1x/csresp/messages.go"]}
{"id": "C75", "title": "Receiving OCPP-J payloads that are valid against the shipped JSON schemas", "statement": "A Call (or the CallResult of a Send) whose payload is valid against the schema file of its action reaches the handler (the caller of Send) with every property in the field of its name, in any order and spelling, absent and null ones as zero, exactly if every integer fits its field and every time stamp is one the library can read; otherwise the peer gets a FormationViolation (Send returns that error). Integers fit iff they are below 2^63-512 in absolute value (so -2^63 and the 512 largest never arrive), and 32 bit in four messages; they arrive rounded as in C15.", "quantifier": "all frames with payloads valid against the schema file, all message types but DataTransfer", "why_tests_cant": "all valid payloads of all peers, all integers", "anchors": ["ws/conn.go: UnmarshalMessage, callToRequest, callResultToResponse", "ws/json/*.json", "messages/v1x/*/json_encode.go: UnmarshalJSON"]}
{"id": "C76", "title": "Exactly which OCPP-J payloads are accepted", "statement": "For every message type but the two decoded leniently (RemoteStartTransaction, RemoteStopTransaction) and DataTransfer: a payload is accepted iff its required properties are present, it has no further properties (at the places where the schema forbids them), and each value has the kind of the schema or is null, and numbers fit and time stamps are readable; enumerations and string lengths are not checked. What the handler (or the caller of Send) gets then is determined as in C75. The two leniently decoded requests are accepted iff the property of each field, in any case, is so valid and readable; nothing is required and other properties do not matter (as long as no two properties are case variants of one field's name). Everything else is refused as a FormationViolation.", "quantifier": "all frames with any object as payload", "why_tests_cant": "all payloads of all peers", "anchors": ["ws/conn.go: UnmarshalMessage, callToRequest, callResultToResponse", "messages/v1x/*/json_encode.go: UnmarshalJSON"]}
{"id": "C77", "title": "Texts that are no messages are ignored", "statement": "A text that is no OCPP-J message (no JSON, numbers out of range, no array, or an array with an element of the wrong kind; not the texts of C12) might as well not have been sent: whatever happens on the connection with such texts in between also happens without them, in the same order and with the same results (requests taken, handler calls, replies, Sends, closing). The sender gets no error. After such a text the connection can read the next one at once.", "quantifier": "all connections of both sides, all texts, all interleavings", "why_tests_cant": "all positions of such texts in all schedules", "anchors": ["ws/conn.go: ReadMessage, UnmarshalMessage", "cs/cs.go: handleWebsocket", "cp/json.go: handleWebsocketConnection"]}
{"id": "C78", "title": "WebSocket handshake, subprotocols and versions", "statement": "The handshake succeeds exactly for a complete opening handshake of RFC 6455, whatever subprotocols it offers, and the reply names the subprotocol of the first supported version whether it was offered or not; at a central system always ocpp1.6, and exactly then a charge point is registered. Hence the version given to a JSON charge point makes no difference (also ocpp1.5 or an unknown one connects), and a client that follows RFC 6455 can use the connection exactly if it has offered ocpp1.6, while one that has not is registered all the same.", "quantifier": "all requests, all lists of supported versions, all versions, URLs and identities", "why_tests_cant": "all combinations of headers and offered protocols", "anchors": ["ws/conn.go: Dial, Handshake, ocppVersionToProtocol", "cs/cs.go: Run, handleWebsocket"]}
{"id": "C79", "title": "A charge point's Sends and handler calls, across reconnections", "statement": "Whichever of its connections a charge point used: when its Send returns a response, the central system's handler was called exactly once for it, with the ChargePointID that its identity gives, and the response is what the call returned. When a Send through GetServiceOf(id, V16) returns a response, it was handled exactly once by the handler of a charge point whose identity gives id. A charge point handles one request at a time over all its connections: between two requests taken it has attempted the reply to the first. It takes requests only from the connection it made last, when all others are closed, and its Sends go to that one or to a closed one.", "quantifier": "all histories of a central system and any number of charge points that lose connections and dial again, all messages", "why_tests_cant": "interleavings of reconnections, requests and the bookkeeping of both sides", "anchors": ["cp/json.go: handleWebsocketConnection, getNewWebsocketConnection", "cp/cp.go: New", "cs/cs.go: handleWebsocket, GetServiceOf", "ws/conn.go: SendRequest, SendResponse"]}
{"id": "C80", "title": "GetServiceOf follows a charge point that reconnects", "statement": "If the central system had registered all connections a charge point made before it dialled the last one, and no other charge point's identity gives the same id, then GetServiceOf gives that last connection from its registration on, for as long as the central system has any connection of the charge point.", "quantifier": "all histories of a central system and any number of charge points that lose connections and dial again", "why_tests_cant": "all orders of registration, loss, clean-up and dialling", "anchors": ["cs/cs.go: handleWebsocket, GetServiceOf", "cp/json.go: handleWebsocketConnection"]}
{"id": "C81", "title": "A charge point can be connected and unreachable", "statement": "The condition of the previous property is needed: once the central system registers another connection under an id after the one the charge point serves, GetServiceOf never gives the latter again; what it gives stays the same until another connection is registered or the last one is gone, also when it is closed and finished with. This happens when a charge point redials before its first connection has been registered: it is then connected and served, but GetServiceOf gives the dead connection.", "quantifier": "all histories of a central system and any number of charge points; a witness history", "why_tests_cant": "a race between two handshakes, with a lasting effect", "anchors": ["cs/cs.go: handleWebsocket, GetServiceOf", "cp/json.go: handleWebsocketConnection"]}
{"id": "C82", "title": "A charge point comes back by itself", "statement": "If the central system is up and the charge point's process is up, its connections are closed at its end, it is not in a handler call and was not stopped, then, whatever happened before, the library alone, without any action of a user and with a network that lets one dial through, gets it to a new connection that is open at both ends, that it reports as connected, that the central system has registered, and that GetServiceOf gives.", "quantifier": "all reachable states of a central system and any number of charge points", "why_tests_cant": "all histories that may precede the loss", "anchors": ["cp/json.go: handleWebsocketConnection, getNewWebsocketConnection", "cs/cs.go: handleWebsocket, GetServiceOf"]}
{"id": "C83", "title": "A connection on which nothing goes wrong settles, and then every Send has returned", "statement": "As long as nothing goes wrong on a connection (no failing read or write, nobody closes it or cancels the context, no timeout, no panic of a handler, every write goes through, and the objects given to the library can be encoded), the goroutines of both ends take at most sixteen steps for each Send and two to begin with, under every schedule; nobody crashes and no serving loop ends; whatever is left to do can be done without anything going wrong; and when nothing is left to do every Send, at either end and also when both ends send at the same time, has returned an answer of its peer.", "quantifier": "all schedules of a charge point and a central system, all numbers of concurrent Sends at both ends, all requests and handler results", "why_tests_cant": "absence of deadlock and livelock over all interleavings of readers, senders and loops at both ends", "anchors": ["ws/conn.go: SendRequest, ReadMessage, ReadMessageAsync, SendResponse", "cs/cs.go: handleWebsocket", "cp/json.go: handleWebsocketConnection"]}
{"id": "C84", "title": "Texts that are not XML are refused over SOAP", "statement": "A handler is called, or a response returned by Send, only for a text that begins (after what may precede a document, and some character data) with an Envelope element that is well-formed throughout: every element has an end tag of its own name in the right order, attribute values are quoted, references are known, there are only characters of XML. Any other text is an error without effect. The texts accepted are exactly those of a loose grammar (white space between attributes may be missing, attributes repeated, anything may follow the root element), each with exactly one tree, and texts with the same tree have the same effect.", "quantifier": "all texts, all requests and handlers", "why_tests_cant": "the set of texts is infinite; an accepted malformed text would be a counterexample of arbitrary shape", "anchors": ["soap/marshal.go: Unmarshal", "soap/server.go: Handle", "soap/client.go: Call"]}
{"id": "C85", "title": "SOAP messages of which only the beginning arrives", "statement": "The library ignores errors while reading HTTP bodies. Still, when only the beginning of a request arrives, whoever wrote it and wherever it breaks off, the server does either exactly what it would have done with the whole, or calls no handler and reports an error; when only the beginning of a reply arrives, Send returns either exactly what it would have returned, or an error. What decides is whether the last character of the root element has arrived.", "quantifier": "all texts, all positions where they break off, all requests and handlers", "why_tests_cant": "all peers, all texts and all crash points of the connection", "anchors": ["soap/server.go: Handle", "soap/client.go: Call", "soap/marshal.go: Unmarshal"]}
{"id": "C86", "title": "SOAP calls are handled at most once, and answered by the call they made", "statement": "Whatever the schedule, whatever gets lost on the way and wherever a request or a reply breaks off: for no Send is the handler called twice, and no Send returns twice. The handler is called only for a Send made before, with its request (up to the losses of C48), the identity of the sending service (C54), and only for requests of its direction. When a Send returns a response, the handler was called with its request and then returned that response, of the type that belongs to the request, without an error. When it panics, the handler was called and returned neither such a response nor an error. An error tells nothing: for every error text there are schedules in which the handler has returned a proper response, in which it is called only after Send has returned, and in which it is never called.", "quantifier": "all schedules of any number of concurrent Sends by any number of processes, all messages, all points where requests and replies break off", "why_tests_cant": "interleavings, losses and timeouts at every point", "anchors": ["soap/client.go: Call", "soap/server.go: Handle", "cs/cs.go: Run, handleSoap", "cp/soap.go: Run", "internal/service/soap.go: Send"]}
{"id": "C87", "title": "SOAP calls do not wait for each other", "statement": "At every moment, whatever other Sends and handler calls are under way, a Send of a live process, of a request that can be received over SOAP (C50), with a URL that leads to the peer can run through to the handler and back without any of the others taking a step, leaving them as they are. Any number of handler calls may be under way at the same time, also for one charge point (unlike over OCPP-J). Steps of different Sends commute. The server goes on whatever becomes of the clients. A client process crashes exactly when one of its own Sends panics, and no other process is affected.", "quantifier": "all reachable states, all numbers of concurrent calls", "why_tests_cant": "all sets of calls under way and all interleavings", "anchors": ["soap/client.go: Call", "soap/server.go: Handle", "cs/cs.go: handleSoap"]}
{"id": "C88", "title": "Which URLs a SOAP Send can use", "statement": "The path a Send asks for is what its http(s) URL spells between host and query (nothing means the root). The handler can be reached exactly if there is a host, no control character and, at a central system, the path is clean: no empty segment, no dot segment. With any other URL the handler is never called and Send, if it returns, returns an error, although the central system answers (a redirect, followed as a GET, to the landing page). A charge point's SOAP server takes every path.", "quantifier": "all URLs, all schedules, all messages", "why_tests_cant": "the set of URLs is infinite and the outcome depends on net/http's redirects", "anchors": ["soap/client.go: Call", "cs/cs.go: Run", "cp/soap.go: Run"]}
{"id": "C89", "title": "A Send has no time limit while a write is stuck", "statement": "The time limit of Send starts when its request has been written, and a write has no time limit. While one write on a connection does not get through (a Send, a reply or a refusal), no other write on it ends either, no Send whose request has not been written returns, however long it waits, including every Send made later, and at most one more request is given to the handler. If it is a reply that does not get through, nothing more is read until then, no Send is answered, and neither a close nor the end of the charge point's context is noticed. Apart from that the duration of writes makes no difference.", "quantifier": "all schedules in which a write takes any time", "why_tests_cant": "needs a peer that stops reading at any point of any schedule", "anchors": ["ws/conn.go: SendRequest, SendResponse, sendMessage", "cs/cs.go: handleWebsocket", "cp/json.go: handleWebsocketConnection"]}
{"id": "C90", "title": "With limited buffers the two ends can block each other for good without any fault", "statement": "The streams between the two ends hold a limited amount of unread data. Whatever the limits, for every two requests of the two ends other than DataTransfer and every two responses, all encodable, there are schedules without any fault, with only these requests and responses, after which, unless somebody closes the connection or a write fails, neither end ever reads or writes anything again, no request is given to a handler, no Send is answered, and the end of the charge point's context is not noticed. Any given schedule of the unlimited case is possible if the streams hold enough, and what holds of the unlimited case about what is received holds here too.", "quantifier": "all limits, all pairs of requests and responses, all continuations", "why_tests_cant": "a deadlock that depends on both ends, on buffer sizes and on the schedule", "anchors": ["ws/conn.go: SendRequest, SendResponse, sendMessage, ReadMessageAsync", "cs/cs.go: handleWebsocket", "cp/json.go: handleWebsocketConnection"]}
{"id": "C91", "title": "Which shared data are accessed without synchronisation", "statement": "Whatever functions are called concurrently and however they are scheduled, exactly these unsynchronised conflicting accesses can occur. Central system: the start or end of a connection with the landing page and, if a debug logger is set, with the start of another connection (each on the table of connections, which makes Go end the process); setting a listener with the start or end of a connection and with setting it. Charge point: a reconnection with Send, Connection, WaitConnect and WaitDisconnect. Connection: a Send with another Send and with the receipt of an answer, on both tables of pending requests. Setting a logger with using it or setting it. Everything else is free of races, in particular GetServiceOf, WaitConnect, WaitDisconnect of the central system with each other and with connections that come and go, and all writes to a socket.", "quantifier": "all numbers of concurrent calls of all functions, all interleavings", "why_tests_cant": "a race detector sees only the schedules that happened", "anchors": ["cs/cs.go: Run, handleWebsocket, GetServiceOf, WaitConnect, WaitDisconnect, SetChargePointConnectionListener, SetChargePointDisconnectionListener", "cp/json.go: handleWebsocketConnection, Connection, WaitConnect, WaitDisconnect, newConn", "ws/conn.go: SendRequest, ReadMessage, sendMessage, WriteJSON", "internal/log/log.go: SetErrorLogger, SetDebugLogger"]}
{"id": "C92", "title": "The time limit of a Send is 60 seconds from the write", "statement": "A Send never returns its timeout error earlier than 60 s after its request was written. On a machine that is fast compared with the clock (time stands still while a goroutine has an answer to hand on or a timer that ran off), a Send whose request was written at time w has returned by w + 60 s, whatever the peer does; an answer that is received before w + 60 s is what it returns, at the time of its receipt; and a Send times out only at exactly w + 60 s and only if no answer was received before.", "quantifier": "all schedules with any times, any number of concurrent Sends, all messages received", "why_tests_cant": "all times and interleavings; a test that waits 60 s sees one of them", "anchors": ["ws/conn.go: SendRequest", "internal/request_timeout.go: DefaultRequestTimeout"]}
{"id": "C93", "title": "What WaitConnect, WaitDisconnect and the listeners of a central system tell", "statement": "Between the end of a connection and the moment the central system is finished with it (a moment every finished connection passes), if it is the last one of its charge point: WaitDisconnect and WaitConnect both return closed channels, GetServiceOf still gives the dead connection, and every Send begun on it returns an error without writing; this may be so even after the disconnection listener was called. A disconnection can also be missed: a charge point whose connections are all closed may come back by itself before WaitDisconnect is called, which then waits for the end of the new connection; and a Send through GetServiceOf after a disconnection both ends have seen, which the repository's test expects to fail, may return the response of the charge point's handler. Nor do both ends' WaitConnect after both ends' WaitDisconnect help: whenever a charge point has connected and its user closes the connection, all four channels may be closed with the connection not yet replaced, GetServiceOf still giving it, every Send on it failing, and the library alone connecting again later, so that every round of the repository's test may end either way. What can be relied on: if GetServiceOf failed when WaitConnect was called and its channel is closed now, GetServiceOf gives a connection made since, unless the central system has finished with all of those; after the connection listener was called, it gives that connection or a later one, unless the central system has finished with it; when the disconnection listener is called the connection is cut off.", "quantifier": "all histories and moments, any number of charge points and connections", "why_tests_cant": "the repository's test for this is known to fail sometimes; which interleavings happen is not under a test's control", "anchors": ["cs/cs.go: handleWebsocket, GetServiceOf, WaitConnect, WaitDisconnect", "cp/json.go: handleWebsocketConnection", "ocpp_test.go: anomalous connection"]}
{"id": "C94", "title": "How often a charge point dials", "statement": "Once New has succeeded, a charge point begins a dial at least 5 s after the end of a dial that failed; between any two times it begins at most one dial, one more for every full 5 s, and one more for each loss of a connection that it noticed in between. On a machine that is fast compared with the clock it begins to dial at the very time its connection is closed (if it was waiting for messages, and takes no further request and does not stop then), and again exactly 5 s after each dial that failed. Losses are not limited: a peer that accepts every connection and drops it at once makes it dial any number of times in no time.", "quantifier": "all histories of a charge point with any times, all durations of dials, all peers", "why_tests_cant": "a bound for every window of every history, and an unbounded storm, are not examples", "anchors": ["cp/json.go getNewWebsocketConnection", "cp/json.go handleWebsocketConnection", "cp/json.go websocketConnectionRetryInterval"]}
{"id": "C95", "title": "A Send returns whatever the other charge points do", "statement": "Any number of charge points are connected to a central system. On a connection on which nothing goes wrong (no failed read or write, nobody closes it or ends the context, no timeout, no panic of a handler, encodable messages) at most 16 steps per Send, and 2, take place, whatever happens on the other connections. In every reachable state, whatever the other charge points and connections are doing, broken or stuck, as long as the central system's and the charge point's processes run, the library alone, by steps for this connection only, takes the charge point's last connection, if nothing went wrong on it, to a state where every Send on it, at either end, has returned with an answer of the peer; and a further Send of any encodable request, at either end, returns too. A connection to which a charge point has come back by itself is such a connection.", "quantifier": "all histories of any number of charge points with any number of connections, all further requests at either end", "why_tests_cant": "liveness in all reachable states of an unbounded number of processes", "anchors": ["ws/conn.go: SendRequest, ReadMessage, sendMessage", "cs/cs.go: handleWebsocket", "cp/json.go: handleWebsocketConnection, Send"]}
{"id": "C96", "title": "What the error of a Send tells", "statement": "With a charge point and a central system of this library connected over OCPP-J, in every schedule, the error that a Send returns for an answer has one of four texts: '[InternalError] e: map[]' exactly if the peer's handler was called once for this request and returned an error with the text e; '[NotSupported] on handling message: map[]' only if the request is a DataTransfer, which reached no handler; '[FormationViolation] on handling message: map[]' only if the request contains an integer beyond 2^53 or a time that RFC 3339 cannot express, and it reached no handler; 'FormationViolation' only if the handler, called once, returned a response that is not the one belonging to the request or contains such a value. So for other requests and responses every such error is the handler's, with its text. With any peer the text tells the code received (if it contains no bracket) and, if there are no details, the description, and is neither that of a timeout nor a bare code. For a CallError of any peer, with any details: the text is [code] description: details, the details as Go prints a map with %s (strings as they are, null as <nil>, truth values and numbers marked as not being strings, lists in brackets, objects as map[key:value ...]).", "quantifier": "all schedules of both ends, all requests, responses and texts of errors, all CallErrors of any peer", "why_tests_cant": "the cause of an error must be the only one possible in all schedules and for all values", "anchors": ["ws/message.go: CallErrorMessage.Error, ErrorCode.Error", "ws/conn.go: SendRequest, ReadMessage", "internal/service/json.go: Send"]}
{"id": "C97", "title": "Messages and strings that are not UTF-8", "statement": "The bytes of a received message need not be UTF-8, and nothing on the way checks them. Any bytes stand for exactly one text: from left to right, the encoding of a character stands for it and every other byte for U+FFFD. Any message is read (trimmed, decoded, refused) exactly as the UTF-8 message with that text, so that messages which differ only in such bytes are the same message, also in their ids. Any string that is sent, whatever its bytes, is written as UTF-8 and as a JSON string of the text its bytes stand for.", "quantifier": "all byte sequences, received or sent", "why_tests_cant": "byte sequences are unbounded, and truncated, overlong and misplaced encodings have to be met at every position", "anchors": ["ws/conn.go: ReadMessage, UnmarshalMessage, SendRequest, sendMessage"]}
{"id": "C98", "title": "Send returns what the program of the peer's handler says", "statement": "Suppose the handler at one end does, with every request it is called with, what a program says (a relation between requests and outcomes, where an outcome is a response, an error or a panic), and the program answers a request with an error or with an ordinary response of its type. Then in every schedule every Send at the other end of an ordinary request other than DataTransfer, if it gets an answer, returns an outcome of the program for the request as it arrives: the response (times cut to seconds), or an error with the text of the program's error. If the programs at both ends never panic on a request and always come to something that can be encoded, and the network does its part, then once nothing is left to do every such Send has returned so, and no handler has panicked. For the example programs: with the example central system a Heartbeat always gets a Heartbeat response (so the type assertion in the example charge point never fails), a BootNotification is accepted with interval 60, a StatusNotification gets its response, and any other request the error '[InternalError] Response not supported: map[]' (DataTransfer: '[NotSupported] on handling message: map[]'); every request to the example charge point gets '[InternalError] not supported: map[]'.", "quantifier": "all programs of handlers, all schedules of both ends, all requests, all clocks", "why_tests_cant": "handlers are arbitrary programs, and the schedule decides what they meet", "anchors": ["cs/cs.go: Run, handleWebsocket", "cp/cp.go: New", "cp/json.go: handleWebsocketConnection", "example/cs/main.go", "example/cs/remote_unlock.go", "example/cp/main.go"]}
{"id": "C99", "title": "The transport makes no difference to a handler or to the caller", "statement": "A message is portable if its type can be received both over OCPP-J and over SOAP (so no DataTransfer, none of the messages SOAP lacks) and is not SendLocalList, its integers are within plus/minus 2^53, its times are whole seconds of four-digit years with whole-minute zones, its strings have only characters that XML has, and it has no empty lists, no nil entries or empty strings in lists and no phase of a sampled value. These are exactly the messages that arrive unchanged over both transports (among encodable ordinary requests of those types). If the handler is a function that gives portable responses belonging to the request, or errors, then for a portable request: in every schedule of an OCPP-J connection a Send that gets an answer had the handler called exactly once with exactly this request, as a SOAP call does, and what it returns is what the SOAP call returns: the same response, or an error both times; in both directions. The texts of the errors differ: over OCPP-J it contains the handler's text, over SOAP it is empty.", "quantifier": "all portable requests and responses, all functions as handlers, all schedules of the OCPP-J connection, all SOAP URLs, ids and senders", "why_tests_cant": "two different encodings, decoders and concurrency models must agree for all values and schedules", "anchors": ["internal/service/json.go: Send", "internal/service/soap.go: Send", "ws/conn.go", "soap/client.go: Call", "soap/server.go: Handle", "cs/cs.go: Run"]}
{"id": "C100", "title": "Which messages sent over OCPP-J are valid against the JSON schemas", "statement": "For each of the 58 message types there is a table of what its values have to be like for the JSON that is sent to be valid against the file of ws/json for it (lengths of strings, names of enumerations, lists and objects that must not be nil), and what is sent is valid exactly then. So the error code of a StatusNotification, though any string, must be one of the 16 constants of package cpstatus, and each of them will do (four of them the WSDL of OCPP 1.5 does not know); a MeterValues or StopTransaction request with a sampled value that leaves one of its optional enumerations unset is never valid; nor is a StopTransaction response without the optional tag information or a GetCompositeSchedule response without the optional schedule, though both are sent; a message with no field set is valid exactly for 25 types listed. Of every type some messages can be sent and are valid (unlike with SOAP).", "quantifier": "all message types and all values of them that can be sent", "why_tests_cant": "unbounded values, lists and strings against 58 schemas", "anchors": ["ws/json/*.json", "messages/v1x: MarshalJSON methods", "cpstatus/error_code.go"]}
{"id": "C101", "title": "What the error log tells", "statement": "Errors are logged through a logger whose Printf formats as fmt.Sprintf does. An error logged with words before it is printed unchanged exactly if its text has no percent sign; one logged by itself is printed unchanged if it has none, and otherwise the logger is not given its text; what is printed for an error with percent signs does not determine the error. With a charge point and a central system of this library connected over OCPP-J, in every schedule, a line is logged for the connection in use exactly for each reply that could not be sent (unless its encoding panicked); each such line stands for a request that was given to the handler exactly once and whose Send never returns an answer. So neither errors of handlers, nor refused requests, nor failed reads or sends are logged. Over SOAP the text of a handler's error, which never reaches the caller (whose Send returns an error with an empty text), is in the log of the server; and if Send returns a response nothing is logged.", "quantifier": "all texts of errors, all schedules of both ends of a connection, all SOAP requests, handlers, ids and senders", "why_tests_cant": "all texts that can be formats, all schedules", "anchors": ["internal/log/log.go: Error", "cs/cs.go: handleWebsocket, handleSoap", "cp/json.go: handleWebsocketConnection", "cp/soap.go", "soap/server.go: Handle"]}
{"id": "C102", "title": "A central system that is started again", "statement": "The process of a central system may end at any moment, whatever was under way, and be started again. Then, with any number of charge points that live on and dial again: every process with the connections made to it behaves as a central system from its start, and every charge point as one over all its connections; once a process started, those before it accept no connection and call no handler. If a charge point's Send returns a response, the process that the connection was made to called its handler exactly once for it, before it ended, and the response is what that call returned; every call of a handler is for a request that was sent to that very process, so no request is handled by a process it was not sent to. A new process knows nobody: GetServiceOf fails for every id, until a charge point with that id has dialled the new process and been registered by it; what is sent through it reaches the handler of such a charge point on a connection made to this process. A charge point whose connections are all closed, not in a handler call and not stopped, comes back to the running process by itself: the library alone gets it to a connection that is open at both ends, registered and given by GetServiceOf.", "quantifier": "all numbers of charge points and restarts, all schedules, all points at which a process ends", "why_tests_cant": "crash points and schedules are unbounded", "anchors": ["cs/cs.go: New, Run, GetServiceOf, handleWebsocket", "cp/cp.go: New", "cp/json.go: handleWebsocketConnection", "ws/conn.go: Dial, SendRequest"]}
{"id": "C103", "title": "A connection that has failed", "statement": "Once a read from a connection has failed, at either end, nothing more is read from it, no handler is called and no answer of a handler is sent because of it, no caller of Send that has not yet been given its answer gets one, and nothing is written to it. The serving loop may ask for the next message of the failed connection again; whenever it does so rather than leave, the news that the connection is closed is there for it to take instead. As gorilla/websocket panics at the 1000th failing read of a connection, in a goroutine nobody recovers, the process can end by it, but only after the loop has passed over the closed connection 999 times; such a schedule exists at both ends. After a close frame of the peer a central system reads the connection no more, and does not end this way.", "quantifier": "all schedules of a connection at either end, all errors a read can end in", "why_tests_cant": "the schedules that matter are a thousand rounds of a race", "anchors": ["ws/conn.go: ReadMessage, ReadMessageAsync", "cp/json.go: handleWebsocketConnection", "cs/cs.go: handleWebsocket", "ws/ws.go: IsCloseError"]}
{"id": "C104", "title": "Charge points that are started again", "statement": "The process of a charge point may end at any moment too, and be started again with the same identity, any number of times, as may the central system's. Whatever the processes before it left behind, a process that starts can dial at once and is then connected, with a connection of its own that is open at both ends, reported, registered, and given by GetServiceOf. A response that its Send returns answers a request that this very process sent, on a connection on which no other process does anything, and the handler was called exactly once for it. Once the central system has registered the connection of a later process after that of an earlier one with the same identity, GetServiceOf never gives the earlier one's again.", "quantifier": "all histories with any number of processes per identity, all points at which they end", "why_tests_cant": "crash points, restarts and schedules are unbounded", "anchors": ["cp/cp.go: New", "cp/json.go: getNewWebsocketConnection", "cs/cs.go: handleWebsocket, GetServiceOf", "ws/conn.go: Dial, SendRequest"]}
{"id": "C105", "title": "The order of requests", "statement": "On a connection the handler at one end is called for the requests of the other end in the order in which they were written, one call at a time: when it is called for a request, its call for any request that was written before has returned, or that request had been refused. In particular, whoever calls Send after an earlier Send on the same connection has returned, be it with an answer or because its time was up, can rely on this: the other side's handler gets the later request only when it is done with the earlier one, even if that one had still been on its way when its Send gave up.", "quantifier": "all schedules of the two ends, all pairs of requests in either direction, all connections of a central system with any number of charge points", "why_tests_cant": "the schedules, and how late a request that has timed out is handled, are unbounded", "anchors": ["ws/conn.go: SendRequest, ReadMessage, ReadMessageAsync", "cs/cs.go: handleWebsocket", "cp/json.go: handleWebsocketConnection"]}
{"id": "C106", "title": "OCPP 1.5 and OCPP 1.6 charge points at one central system", "statement": "A central system serves websocket connections and SOAP requests, and sends requests over both, at the same time with one handler, and everything that holds of either kind of traffic alone holds in the mixture: whenever the handler is called, this is for exactly one Send of the charge point whose id it gets, on that charge point's connection or over SOAP; what a Send over SOAP returns was returned by the other side's handler for it; events of different kinds can happen in either order with the same outcome; and at any moment a SOAP request in either direction can run through whatever the websocket connections are doing, with no registered connection needed, and the connections can go on whatever the SOAP requests are doing. Nothing that is posted to the central system over SOAP ends its process. But a charge point whose handler answers one of its SOAP requests with a response of another type, or with neither a response nor an error, ends it, as do the texts of C12 on any websocket connection; and then no connection is read, no handler called and no Send returned any more, over neither transport.", "quantifier": "all schedules of any number of websocket connections, SOAP requests to the central system, and SOAP requests of the central system to any number of charge points", "why_tests_cant": "the mixtures of traffic are unbounded, and so are the moments at which one kind ends the process of the other", "anchors": ["cs/cs.go: Run, handleWebsocket, handleSoap, GetServiceOf", "cp/soap.go: handleSoap, soapHandler.ServeHTTP", "internal/service/soap.go: Send", "soap/client.go: Call", "ws/conn.go: ReadMessage, SendRequest"]}
{"id": "C107", "title": "What the debug log of a connection tells", "statement": "The lines that an OCPP-J connection prints to the debug logger are a faithful protocol of it, at either end and under any schedule. About what is received there are, for each text read, in the order of reading, first the text and then, if it is a message, the message, with at most two lines still to come; nothing is done with a text before its lines are printed, so if a text ends the process, the last lines about received texts are those of this text. About what is sent there are, one attempt after the other, the text, and a second line exactly if it was written; lines of two attempts are never mixed, and so the log tells which texts were written, in order. Each text is on one line of its own, whatever newlines the peer puts into its texts. But the line that gives a received message in its parsed form prints strings as they are: a peer can send a text that puts any lines whatever into the log.", "quantifier": "all schedules of a connection at either end with the goroutines that print, all texts received, all lines that a peer may want to forge", "why_tests_cant": "the schedules are unbounded, and so are the lines that can be forged", "anchors": ["ws/conn.go: ReadMessage, sendMessage", "internal/log/log.go: Debug", "ws/message.go: CallErrorMessage.Error"]}
{"id": "C108", "title": "A central system among strangers", "statement": "Whoever can connect to a central system over OCPP-J may be anything: a client is any HTTP request followed by any texts and errors. Whatever the clients do: what happens on each connection is a history of a connection by itself, and what it could do by itself it can do in company, as long as the process is up. What a handler is told about a request is true: the HTTP request in the metadata is the one that made the connection on which the text of the request had been read before, it is the same for all requests of the connection, it is a complete websocket opening handshake, and the charge point id is its path without the first slash. A Send returns as an answer only what is made of a text read on its own connection with its message id, so other clients cannot answer for a charge point. GetServiceOf gives a connection exactly if one registered under the id is not finished, namely the last one registered, which is whoever opened a websocket under the path of that id. But nobody has to prove to be this charge point: at any time anybody can connect under any id and is from then on what GetServiceOf gives, and the connection that was there before is never given again; and at any time anybody who connects, under any path, can end the process with one text (the texts of C12), without a handler being called. The number on the landing page is the number of ids under which somebody is registered, and anybody can make it as large as they like, without disturbing anybody who is registered. The channel of WaitDisconnect is closed exactly if nobody was registered under the id at the call or the last connection registered under it is cut off, and that of WaitConnect exactly if somebody was registered under the id at the call or has been since, so a stranger can end the waiting; each listener is called at most once per registration, the disconnection listener only if the connection is cut off, and once the library has nothing left to do, exactly once for every connection, and for every connection that is cut off; then somebody is registered under an id exactly if a connection under it is not cut off. Every history of a central system with charge points of this library is one of these.", "quantifier": "all numbers of clients, all opening requests, all texts and errors they send, all schedules", "why_tests_cant": "the clients are arbitrary and the histories unbounded", "anchors": ["cs/cs.go: Run, handleWebsocket, GetServiceOf, WaitConnect, WaitDisconnect, ChargePointRequestMetadata", "ws/conn.go: Handshake, ReadMessage, SendRequest"]}
{"id": "C109", "title": "A charge point among strangers", "statement": "The clients of a central system can be charge points of this library and anybody else, in any mixture. Whatever the strangers send and whenever they connect: if a Send of a charge point of this library returns a response, its connection was registered under its identity and the central system's handler was called for it exactly once on this connection, with what was sent, the id of this charge point and the HTTP request with which it dialled, and the response is what this call returned; every handler call for a text of such a charge point is for exactly one of its Sends; a Send of the central system on its connection that returns a response was handled exactly once by this charge point's handler. Strangers cannot hinder it: as long as the process of the central system is up, whatever the two ends of a served connection could do by themselves they can do, with nothing changed for anybody else; and at any moment a charge point can dial, is then given by GetServiceOf, and can have its requests answered. And a charge point whose place a stranger takes, by connecting under its id, does not notice it: its requests are answered as ever, while GetServiceOf gives the stranger's connection and never again its own.", "quantifier": "all numbers and mixtures of charge points and other clients, all requests and texts of these, all schedules", "why_tests_cant": "strangers are arbitrary and the schedules unbounded", "anchors": ["cs/cs.go: Run, handleWebsocket, GetServiceOf, WaitConnect, WaitDisconnect, ChargePointRequestMetadata", "cp/json.go: getNewWebsocketConnection", "ws/conn.go: Dial, Handshake, SendRequest"]}
{"id": "C110", "title": "The debug logs of the two ends agree", "statement": "The debug log that a charge point prints about a connection and the one that the central system prints about the same connection tell the same: the texts that one log says to have been received are, one by one and in order, the texts that the other log confirms as written, up to texts that are still under way or whose lines are still to come, and this in both directions and under any schedule. When nothing is under way, nobody is writing and no text received is being looked at, and so whenever nothing has gone wrong and nothing is left to do, the two lists are equal. In the files this holds character for character: for every line Received a message, raw: X of one file there is a line Sending message [raw]: X in the other, although a text is trimmed and its newlines are replaced before it is printed as received and not before it is printed as sent.", "quantifier": "all schedules of the two ends of a connection with the goroutines that print, all requests, responses and refusals", "why_tests_cant": "the two logs are written by different processes, and the schedules are unbounded", "anchors": ["ws/conn.go: ReadMessage, sendMessage", "internal/log/log.go: Debug", "ws/conn.go: UnmarshalMessage"]}
{"id": "C111", "title": "A peer that falls silent", "statement": "The library sends no pings and sets no deadlines, so it does not notice that a peer has gone without closing the connection. As long as reading from the socket gives neither a text nor an error (and nobody closes the connection or makes its handler panic): the connection stays open and WaitDisconnect's channel with it, at either end and however many Sends fail; no Send is answered, unless a text read before names its id; the disconnection listener is not called; the central system keeps the connection and GetServiceOf gives it until another one is registered under the id. From every state of an open connection any number of requests can be sent like this, each given up 60 s after it was written. Worse, if the charge point has connected again and that later connection is then cut off, GetServiceOf gives the dead later connection for as long as the silent one goes unnoticed: WaitDisconnect and WaitConnect return closed channels and no Send through it writes anything. And this is open to strangers: at any time one opening handshake under the path of a charge point, and nothing else, is enough; for as long as the stranger says nothing and no other connection is registered under the id, GetServiceOf gives the stranger's connection, WaitDisconnect says that it is there, and no Send to it is answered.", "quantifier": "all histories and continuations, any number of Sends, charge points and connections, both ends", "why_tests_cant": "silence has no bound: a test can wait only so long, and send only so often", "anchors": ["ws/conn.go: ReadMessage, SendRequest, WaitClose", "cs/cs.go: handleWebsocket, GetServiceOf, WaitDisconnect, WaitConnect", "cp/json.go: handleWebsocketConnection", "internal/request_timeout.go: DefaultRequestTimeout"]}
{"id": "C112", "title": "What a central system never forgets", "statement": "An id that was once the path of an accepted websocket request, or was once given to WaitConnect, keeps its channel in the central system for good; other ids have none, and no two ids share one. Nothing the central system does later (disconnections, bookkeeping, reconnections) gives it up. The id is whatever path the peer wrote. So for any list of ids there is a history after which nobody is connected, the landing page counts 0 and the library has nothing left to do, and the central system still holds a channel for exactly the ids in the list: its memory grows with the ids it was ever shown, not with the charge points it serves.", "quantifier": "all histories and continuations, all ids, any number of them", "why_tests_cant": "that an entry is never removed, after any history, is not something a finite test observes", "anchors": ["cs/cs.go: centralSystem.connChans, handleWebsocket, WaitConnect"]}
