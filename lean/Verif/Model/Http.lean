import Verif.Model.Go
/-!
# HTTP entry of the central system, and how the charge point addresses it

Models `Run` (cs/cs.go:71-93) with the `net/http` default mux, the identity extraction in
`handleWebsocket` (cs.go:97), `ws.Dial` (ws/conn.go:56-65) and `ws.IsWebSocketUpgrade` (ws/ws.go:9-11).

Library behaviour taken from the Go standard library and gorilla/websocket: `url.Parse` (fragment cut
at `#`, query at `?`, authority up to the first `/`, path percent-decoded, control characters
refused), `http.ServeMux` (a path that is not clean is answered by a redirect, which the websocket
dialler treats as a failed handshake), `path.Clean`, `http.HandleFunc` (a pattern registered twice
panics), gorilla's `IsWebSocketUpgrade` (header tokens compared without regard to ASCII case).
The path the server sees is the decoded path of the dialled URL (`URL.EscapedPath` and the server's
parsing are inverse).  A `Text` in this file is a Go string: every character stands for one byte (a
literal non-ASCII character of an identity for the bytes of its encoding).  Only absolute `ws`/`wss` URLs are modelled.
-/
namespace Verif.Http

/-- Hexadecimal digit value (net/url `unhex`). -/
def unhex (c : Char) : Option Nat :=
  if '0' ≤ c ∧ c ≤ '9' then some (c.toNat - '0'.toNat)
  else if 'a' ≤ c ∧ c ≤ 'f' then some (c.toNat - 'a'.toNat + 10)
  else if 'A' ≤ c ∧ c ≤ 'F' then some (c.toNat - 'A'.toNat + 10)
  else none

/-- net/url `unescape` in path mode, on bytes. -/
def unescape : Text → Option Text
  | '%' :: a :: b :: r => do
    let x ← unhex a
    let y ← unhex b
    let t ← unescape r
    return Char.ofNat (16 * x + y) :: t
  | '%' :: _ => none
  | c :: r => (c :: ·) <$> unescape r
  | [] => some []

/-- Text before the first `c`. -/
def before (c : Char) (t : Text) : Text := t.takeWhile (· != c)

/-- `url.Parse` of what follows `scheme://`: authority and decoded path. -/
def parseRest (t : Text) : Option (Text × Text) :=
  if t.any (fun c => c.toNat < 0x20 || c.toNat == 0x7F) then none
  else
    let t := before '?' (before '#' t)
    let auth := before '/' t
    (fun p => (auth, p)) <$> unescape (t.drop auth.length)

/-- Split at `/`. -/
def segments : Text → List Text
  | [] => [[]]
  | c :: r =>
    if c = '/' then [] :: segments r
    else match segments r with
      | [] => [[c]]
      | s :: ss => (c :: s) :: ss

/-- `path.Clean` on the segments of a rooted path, with the segments kept so far in reverse. -/
def cleanSegs : List Text → List Text → List Text
  | acc, [] => acc.reverse
  | acc, s :: ss =>
    if s = [] ∨ s = ['.'] then cleanSegs acc ss
    else if s = ['.', '.'] then cleanSegs acc.tail ss
    else cleanSegs (s :: acc) ss

/-- Join with leading slashes: `/a/b`. -/
def joinSegs (ss : List Text) : Text := ss.flatMap ('/' :: ·)

/-- net/http `cleanPath`. -/
def cleanPath (p : Text) : Text :=
  let p := match p with
    | '/' :: _ => p
    | _ => '/' :: p
  let np := joinSegs (cleanSegs [] (segments p))
  if np = [] then ['/']
  else if p.getLast? = some '/' then np ++ ['/'] else np

/-- A request as the mux sees it. -/
structure Request where
  method : String
  path : Text
  /-- tokens of the `Connection` headers -/
  connection : List String
  /-- tokens of the `Upgrade` headers -/
  upgrade : List String

/-- gorilla `IsWebSocketUpgrade`, through ws/ws.go:9-11. -/
def Request.isUpgrade (r : Request) : Bool :=
  r.connection.any (fun t => t.toList.map Char.toLower == "upgrade".toList) &&
  r.upgrade.any (fun t => t.toList.map Char.toLower == "websocket".toList)

/-- What the central system does with a request. -/
inductive Action where
  /-- the mux redirects to the clean path -/
  | redirect (to : Text)
  /-- `handleWebsocket` with this charge point id (cs.go:74, 97) -/
  | websocket (cpID : Text)
  /-- landing page (cs.go:75-85) -/
  | landing
  /-- `handleSoap` (cs.go:86-88) -/
  | soap
  deriving DecidableEq

/-- `strings.TrimPrefix(path, "/")` (cs.go:97). -/
def trimSlash : Text → Text
  | '/' :: r => r
  | t => t

/-- The handler registered by `Run` (cs.go:72-90). -/
def handler (r : Request) : Action :=
  if r.isUpgrade then .websocket (trimSlash r.path)
  else if r.method = "GET" then .landing
  else .soap

/-- The default mux with the handler of `Run` at "/": `CONNECT` requests are not cleaned. -/
def serve (r : Request) : Action :=
  if r.method ≠ "CONNECT" ∧ cleanPath r.path ≠ r.path then .redirect (cleanPath r.path)
  else handler r

/-- The websocket request of gorilla's dialler for a path. -/
def dialRequest (path : Text) : Request :=
  { method := "GET", path := path, connection := ["Upgrade"], upgrade := ["websocket"] }

/-- `ws.Dial` (ws/conn.go:56-65): the request that reaches the server at `csURL + "/" + identity`;
`csURL` is given without its scheme. -/
def dial (csURL identity : Text) : Option (Text × Request) :=
  (fun p => (p.1, dialRequest p.2))
    <$> parseRest (csURL ++ '/' :: identity)

/-- The id under which a charge point with this identity is registered when it dials this URL;
`none` if the dial cannot succeed. -/
def registeredAs (csURL identity : Text) : Option Text :=
  match dial csURL identity with
  | none => none
  | some (_, r) => match serve r with
    | .websocket id => some id
    | _ => none

/-- `http.HandleFunc("/", …)` on the process-wide default mux (cs.go:72): whether "/" is taken. -/
structure Mux where
  taken : Bool
  deriving DecidableEq

/-- `Run` (cs.go:71-93) up to its return: `listen` is how `ListenAndServe` ends. -/
def run (m : Mux) (listen : String) : Mux × GoRes Unit :=
  if m.taken then (m, .panic "http: multiple registrations for /")
  else (⟨true⟩, .err listen)

end Verif.Http
