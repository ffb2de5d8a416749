# Formal model of voltbras/go-ocpp in Lean 4: design

The code under study is `/repo` (Go).  Nothing is compiled or run; the only tie between the
model and the code is careful reading, so every definition in the model cites file and lines.
The message tables (structs, tags, encoder and decoder bodies, dispatch tables, JSON schemas, WSDL
types) are not typed in by hand but generated from the Go and JSON texts by `tools/gen.py`.

## Trusted base

* Lean 4.33.0's kernel.
* Axioms.  Every property theorem depends on a subset of `propext`, `Classical.choice`, `Quot.sound`
  (`#print axioms`).  No axiom of our own, no compiled code in proofs.
* The reading of the Go source into the model, including the generator `tools/gen.py`.
* The Go standard library and gorilla/websocket v1.4.1 are *not* verified; what they do enters as explicit
  definitions, in the model, or as parameters with a stated contract:
  * `encoding/json` (scanner, compaction, HTML escaping, number decoding, reflection-based struct decoding with
    case-insensitive names): executable, proved equivalent to the RFC 8259 grammar (`Spec/Json.lean`).
  * `encoding/xml` (tokens, name spaces, struct tags, printing, escaping): executable, proved to accept
    exactly the texts of the grammar in `Spec/XmlLoose.lean`, and to read every document of `Spec/XmlDoc.lean` as what
    `Spec/Infoset.lean` says.
  * `time` (Format/Parse of RFC 3339, lenient as in Go >= 1.20): executable, proved against a calendar counted day by day.
  * `strconv` for floats: printing is a parameter (`FloatFmt`, `FloatText`: any function from float64 values to
    JSON/XML numerals that read back as the value, in integer notation below 10^21, exactly for integers up to 2^53, and
    with ±2^63 printed as ±9223372036854776000, the shortest numeral; an instance is given in `Lemmas/Num.lean`); reading
    is rounding of rationals to nearest even.
  * `net/url`, `path.Clean`, `http.ServeMux`: executable, for absolute `ws`/`wss`/`http`/`https` URLs (user info, malformed
    ports and bracketed hosts are not distinguished from other host texts).
  * `net/http` recovers from panics in handler goroutines; a panic in any other goroutine ends the process.
  * `uuid.New` yields ids that are distinct on one connection.
  * TCP is a reliable FIFO whose tail may be lost; timers may fire at any time after they are set.
  * Critical sections of mutexes, map accesses and channel operations are atomic steps.

## What is modelled

| Code | Model |
|---|---|
| results of Go calls | `Model/Go.lean`, `Model/GoMap.lean` |
| `messages/v1x/*/messages.go`, `json_encode.go`, `messages/req`, `messages/res` | `Model/Codec.lean` (types, statement language, interpreter), `Model/Messages.lean` (generated) |
| encoding/json, numbers, times | `Model/Json.lean`, `Model/Num.lean`, `Model/Time.lean` |
| `ws/message.go`, `ws/conn.go` frames and conversions | `Model/Ocppj.lean` |
| `ws/conn.go` connection, serving loops of `cs/cs.go` and `cp/json.go` | `Model/Conn.lean` (transition system over readers, senders and the loop), `Model/Mutex.lean` (inside one write) |
| `cs/cs.go` registry, waiters, listeners, landing page | `Model/Registry.lean` |
| `cs/cs.go` `Run`, `ws.Dial`, `ws.Handshake`, `ws/ws.go` | `Model/Http.lean`, `Model/Handshake.lean` |
| `cp/cp.go`, `cp/json.go`, `cp/soap.go` | `Model/ChargePoint.lean` |
| `internal/service/*.go` | `Model/Service.lean`, `Model/Soap.lean` |
| `soap/*.go`, XML tags of the messages | `Model/Xml.lean` (structs and trees), `Model/XmlText.lean` (trees and text), `Model/Soap.lean` |
| many SOAP calls, a server and the network | `Model/SoapNet.lean` |
| a central system with websocket connections and SOAP traffic at once | `Model/Mixed.lean` |
| the debug log of a connection (`ws/conn.go`, `internal/log`) | `Model/Debug.lean` |
| writes that take time, streams with limited room | `Model/Stall.lean` |
| accesses to shared data, mutexes (cs, cp, ws, internal/log) | `Model/Race.lean` |
| the time at which things happen on a connection | `Model/Timed.lean` |
| the time at which a charge point dials | `Model/Redial.lean` |
| the texts of the errors of Send over OCPP-J | `Model/SendErr.lean` |
| received and sent bytes that need not be UTF-8: utf8.DecodeRune/DecodeLastRune, bytes.TrimSpace, json's scanner and unquote, string encoder, compact | `Model/Bytes.lean`, specification `Spec/Utf8.lean` |
| what the error logger prints and when it is called (a connection in use, SOAP servers) | `Model/Log.lean`, `Model/Logs.lean` |
| handlers as programs, `example/*/*.go` (the handlers and their clients; not the output, nor the options of `main`) | `Model/Example.lean` |
| two ends of a connection joined by streams | `Model/System.lean` |
| a central system with all its connections | `Model/World.lean` |
| and with charge points that lose connections and dial again | `Model/Fleet.lean` |
| and with a central system whose process ends and is started again | `Model/Restart.lean` |
| and of which reads fail, up to gorilla's panic | `Model/Reread.lean` |
| a central system and whoever connects to it: arbitrary HTTP requests and texts, handler metadata | `Model/Hub.lean` |
| and of whose clients some are charge points of this library | `Model/Company.lean` |

Independent specifications are in `Spec/*.lean`, helper lemmas in `Lemmas/*.lean`, the property theorems (named
`Cnn_...`) in `Props/*.lean`, each with an example that meets its hypotheses.

## What is not modelled

what the debug logger writes (except a connection's lines, C107); real time (the 60 s timeout and the 5 s pause are
nondeterministic, except that C92 and C94 have a clock); the Go memory model (races, C32 and C91, are enabled conflicting accesses, and the
models of what the functions compute treat racing accesses as atomic); gorilla's control frames and its
handshake beyond the path; HTTP parsing; the nesting limits of encoding/json and encoding/xml (10000); in
`strconv.ParseFloat`, that exponents of 10000 and more are cut short, which matters to numerals with thousands of digits only; negative zero (identified with zero); JSON Schema's `format` and `multipleOf`; XML
documents with DOCTYPE, non-ASCII names or literal line ends inside attribute values (the decoder model reads them, but the
document specification of C70-C72 leaves them out).  Each further simplification is in
the header of its model file.

## Expectations that turned out false

The theorems are about the code as it is.  Where the property a user would expect is false, the statement in
`properties.jsonl` says what holds instead and the theorem proves that, usually with an exact characterisation and the
counterexample: C05, C06, C07, C08, C12, C13 (one lenient case), C15, C16, C19, C26, C27, C28, C29, C32, C35, C38
(order), C41 (cut identities), C42 (second run), C44, C45, C47, C50, C51/C59 (panicking Send), C52, C55, C56, C64, C65, C66,
C68 (one process), C70 (prefix clash), C73, C74, C75 (large integers), C76 (enumerations, lengths), C78 (unoffered subprotocol),
C81 (dead connection after a race of registrations), C86 (errors), C88 (redirects), C89 (no time limit), C90 (deadlock),
C91 (the table of connections is read without the lock), C93 (a dead connection is still handed out, a disconnection can be missed),
C94 (no limit for a peer that accepts and drops), C100 (optional fields that have to be set),
C101 (percent signs in errors garble the line; over OCPP-J nothing but a reply that could not be sent is logged), C106 (one SOAP reply of the wrong type ends the process
with all connections), C107 (forged lines),
C108 (anybody can take a charge point's place, anybody can end the process, the landing page counts whoever connects),
C111 (a dead peer is never noticed, one silent handshake makes a charge point unreachable), C112 (memory grows with the ids ever seen).

## Plan per property

| Property | Modelled by | Proof method |
|---|---|---|
| C01 | Codec interpreter, JSON grammar | abstract interpretation of the comma bookkeeping, proved sound; checked on the finite table of types |
| C02, C07 | Codec, Json | structural induction on types; parser completeness w.r.t. the grammar |
| C03 - C06 | Codec decoder | characterisation of the fold over the property map; permutation lemma; uniqueness of the decoded value |
| C08, C09 | Codec interpreter | induction on types |
| C10 - C13, C16 | Json, Ocppj | case analysis; induction on the grammar |
| C14, C15 | Codec, Num, Ocppj | composition; float64 rounding is exact up to 2^53 |
| C17 - C20 | Ocppj, Messages | exhaustive finite tables (finite types, all cases), string case analysis |
| C21 - C32, C58 | Conn, Mutex | inductive invariants over all schedules; stuckness invariants for C26, C27; witness schedules for C32 |
| C33 - C40 | Registry | inductive invariants, refinement to a list of live connections |
| C41, C42 | Http | string lemmas; exact characterisation of `path.Clean` and `url.Parse` on the texts that matter |
| C43 - C46 | ChargePoint | inductive invariants, witnesses |
| C47 | Conn, Ocppj, Soap | instance of the invariants |
| C48 - C56, C59 - C61 | Xml, XmlText, Soap | structural induction, parser/printer inverse, prefix argument for C61, finite tables |
| C57, C65, C66 | System | invariant linking both ends and the streams, combining C14, C21, C23, C24; stuckness for C65, C66 |
| C62 | Time, Codec | calendar arithmetic against day-by-day counting |
| C63 | Codec, Num, Ocppj | uniqueness of JSON texts, decoder characterisation; for the two leniently decoded requests (`Props/Lenient.lean`) induction on the properties in the order of the map keys |
| C64 | Codec, generated JSON schemas | validity as a function, per-type finite check of a sound abstraction, induction on values |
| C67 - C69 | World | simulation of each link by System and of the whole by Registry; commutation of steps |
| C70 - C72 | XmlText, Xml, Soap | reader proved complete for the document grammar; decoding proved a function of the infoset |
| C73 | Xml, Soap, generated WSDL types | writer characterised as an infoset; per message type, a generated case analysis against the sequence |
| C74 | Xml, Soap, generated WSDL types | decidable compatibility of Go types and schema types, proved sound by induction; time stamps against `dateTime` |
| C75 | Codec, Ocppj, generated schema files | relation between JSON value, schema and Go value, proved equal to the decoders by induction on the type; exact integer ranges from float64 rounding |
| C76 | same | the decoders accept only what is valid up to enumerations, lengths and null, by induction on the type; `C76_lenient` for the two leniently decoded requests (payloads without two case variants of one field's name; with them, `C63_lenient` and `C63_lenientRefused` say what becomes of the scalar fields) |
| C77 | Conn, Ocppj | stuttering simulation: readers of such texts are removed from the history |
| C78 | Handshake, Http | case analysis of the handshake; composition with the dispatch of C42 and the URLs of C41 |
| C79 - C82 | Fleet | simulation by World and by ChargePoint, invariant tying the charge point's goroutine to the loop of each connection; numbering of registrations; constructed continuations |
| C83 | System, faults in Spec/Settle | potential of loop, readers and senders for the bound; invariant that every answer read is on its way to its Send; at rest, each call is followed through both ends |
| C84, C85 | XmlText, Soap; loose grammar in Spec/XmlLoose | the grammar is proved equal to the decoder: soundness by an invariant over open elements, completeness by structural induction; prefixes by uniqueness of the end of the root element |
| C86, C87 | SoapNet: transition system of SOAP calls, server and crashes | invariant relating each call's state to its own events; constructed runs; commutation of local steps |
| C88 | SoapNet, Http | exact characterisation of the URL parser and of the mux's redirects; then by the invariant of C86 |
| C89 | Stall: writes in two steps | refinement to Conn; the holder of the mutex is invariant; the loop is busy after one more request |
| C90 | Stall: two ends and streams of limited room | refinement to System; constructed run of any length until the streams are full; the blocked state is invariant |
| C91 | Race: every function as its sequences of accesses | invariant: who holds the mutex is inside its locked part, so two accesses inside never meet; the others by constructed schedules |
| C92 | Timed: Conn with times | invariant about when a Send that waits was written; the way of an answer from socket to return as stages that leave no time |
| C93 | World, Fleet | from C67, C69, C82 and the bookkeeping invariant; on a closed connection no Send gets beyond its write; split of a history at the end of the bookkeeping of a connection; constructed histories, among them a round trip started by the central system after a comeback, and a round of the repository's connection test that ends with the lost connection and may be repeated |
| C94 | Redial: ChargePoint with times | potential function over the rest of a history; invariants until the next dial; constructed histories |
| C95 | Fleet | C83 on one link, carried over to the Fleet: the link is first brought to being served at both ends, then any continuation of a link alone is one of the Fleet |
| C96 | System, Model/SendErr | origin of every answer (C57) followed back to the refused text or the returned response, where C14 excludes ordinary values; the texts of the causes differ |
| C97 | Model/Bytes, Spec/Utf8 | decoding commutes with each step of reading: only bytes below 0x80 matter to the scanner and no encoding of another character contains one; trimming from the right via the last whole encoding. Justifies that all other parts of the model take messages as texts |
| C98 | System, Model/Example | composition of C57, C83 and C96 with a relation describing the handler; the example handlers by cases on the type of the request |
| C99 | System, Soap, Model/Example | composition of C98 with C48, C52, C54 and C59; a value is unchanged by cutting its times exactly if they are whole seconds, by induction |
| C100 | Codec, generated JSON schemas, constants of `cpstatus` (`Spec/JsonSent.lean`) | C64, and per message type a case analysis of its fields against a table written by hand |
| C101 | `fmt.Sprintf` without arguments; steps of the connection that log; SOAP server | a text with a percent sign is never printed unchanged (induction with lengths and first directives); `Linked` of C86 with once-only replies. For errors logged by themselves only the format handed to the logger is shown to differ, not what a second formatting makes of it |
| C102 | Restart: one `World` per process of the central system, charge points as in Fleet | projection: every process's history is one of `World` (C67), every charge point's one of ChargePoint; invariants over all histories as for C79; the schedule of C82 with the running process; a witness history with a restart |
| C103 | Reread: a `Conn` with gorilla's `readErr` and `readErrCount` (v1.4.1, `NextReader`); failed reads stay failed, the 1000th panics | the history is one of `Conn`; after the first failure the newest reader is in one of three places, which bounds the steps and equates the number of failed reads with that of results taken; the dying schedule is built by induction on the rounds |
| C104 | Restart, with an identity listed once per process of the charge point; a process that ended makes no step any more, one that has not started has made none | a charge point without events is in its first state, from which the dial and registration run is built; connections belong to one charge point entry (C102); numbers of connections grow with registration order (C67) |
| C105 | Sys; World for many connections (`Props/Order`) | the calls written at one end are a list of which the other end takes a prefix, in order (`Linked.dues`, from the FIFO transport and the Conn invariant that at most one text is in a reader's hands); a Send that has returned had written its call, and a Send called later writes later (`sequential_written`) |
| C106 | Mixed: `World`, one SoapNet to the central system and one to every SOAP charge point, with common processes | projection to `World` (C67, C68) and to the SOAP networks (C86, C87); steps of different kinds commute; constructed runs, up to the reply that ends the process |
| C107 | the connection with the single calls of `log.Debug`, `sendMessage` split around its write | invariants: what the lines lack, who is inside `sendMessage` with which text; every schedule of the connection has its lines; compact JSON has no newline |
| C108 | Hub: requests and texts by anybody, one Conn per connection, Registry | invariant with the registry's history and each connection's; `C42_serve`/`C78` give id and path; constructed runs for the takeover and the end; the landing page from C40's invariant, inflated by induction on a list of requests; waiting and listeners from C36 to C38 on the registry's part; simulation of `World` by Hub |
| C109 | Company: Hub, with a charge point's Conn behind some of the connections | projections to Hub (C108) and, per charge point, to Sys (C57); constructed runs from every state |
| C110 | Debug at both ends of a Sys execution | C107 at each end, the stream between the ends (C57), JSON texts keep their form when normalised |
| C111 | Conn and Timed at one end, World | silence = continuations without reads, failed reads and closings; C30 and C21 on the whole history; induction on the list of requests, with times; in World from C67, C69 and C93; in Hub from C108; witnesses from C82 and C81 |
| C112 | Registry, then Hub | exact characterisation of the ids with a channel by induction over steps; kept: the same on the longer history; growth: induction on the list, one visit (connect, notify, drop, leave, clean up) per id from a state where all are gone |

No property is considered inexpressible.

## Testing the theorems

`seeded/LOG.jsonl` records edits to the model in scratch copies (wrong boundary, missed case, swapped argument, dropped
update) with the theorems that then failed to build, and the theorems tightened when a claim survived.
