import Verif.Model.Log
import Verif.Model.Conn
import Verif.Model.Soap
/-!
# When the error logger is called

Models the calls of `log.Error` in the serving loops of a connection (cs/cs.go:143-146, 151-154, cp/json.go:56-58, 60-63) and behind a
SOAP server (cs/cs.go:180-182, cp/soap.go:42-44, soap/server.go:34-36).  The calls at cs.go:104 (a failed handshake) and json.go:46 (a
failed dial) are only in `Call`.

Simplification: the texts of errors from encoding/json and the socket are arbitrary, and those of encoding/xml as in the rest of the
model.
-/
namespace Verif.Log
open Conn

/-- The loop of a connection calls `log.Error` in this step. -/
inductive ConnLogs {S : Sem} (side : Side) : Ev S → Call → Prop where
  /-- a request for the other side: cs.go:143-146, json.go:56-58 -/
  | wrong {k id r arg} : S.mine r = false → ConnLogs side (.take k id r arg)
      (.plain (match side with | .cs => "not a chargepoint request" | .cp => "not a central system request").toList)
  /-- the reply could not be encoded: conn.go:270-272, cs.go:152-154, json.go:61-63 -/
  | encode {id resp err m} (t : Text) : S.encReply id resp err = .err m →
      ConnLogs side (.answer id resp err none) (.plain ("on marshalling message: ".toList ++ t))
  /-- the reply could not be written: conn.go:275-277, cs.go:152-154, json.go:61-63 -/
  | write {id resp err f} (t : Text) : S.encReply id resp err = .ok f →
      ConnLogs side (.answer id resp err none) (.plain ("on sending message: ".toList ++ t))

/-- The calls of `log.Error` while a SOAP server serves a request: server.go:25-27, 30-32, 34-36, 38-40 with cs.go:180-182 and
cp/soap.go:42-44.  A panic is none. -/
def serveLogs (G : Xml.FloatText) (atCs : Bool) (h : Ocppj.Req → Text → Soap.HandlerResult) (body : Text) : List Call :=
  match Soap.decode body with
  | .err m => [.wrapped "Couldn't handle SOAP request: ".toList ("couldn't decode request ".toList ++ m.toList)]
  | .panic _ => []
  | .ok env =>
    match env.body.content with
    | some (.req r, v) =>
      match env.header with
      | none => []
      | some hd =>
        let res := (Soap.direct atCs h ⟨r, v⟩ (Soap.identityOf hd)).2
        (res.err.toList.map fun e => .wrapped "couldn't handle request: ".toList e) ++
        (match Soap.encodeReply G res.resp res.err with
          | .err m => [.wrapped "Couldn't handle SOAP request: ".toList ("couldn't encode response: ".toList ++ m.toList)]
          | _ => [])
    | _ => [.wrapped "Couldn't handle SOAP request: ".toList "received message is not a request".toList]

end Verif.Log
