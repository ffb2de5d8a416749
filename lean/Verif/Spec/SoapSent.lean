import Verif.Spec.SoapLayout
/-!
# What is sent over SOAP

Envelopes of SOAP 1.2 with the header blocks of WS-Addressing and the identity of OCPP.
-/
namespace Verif.Soap
open Xml

/-- An element with character data only. -/
def plain (space name : String) (s : Text) : Info := .elem ⟨space.toList, name.toList⟩ [] s []

/-- An element with child elements only. -/
def group (space name : String) (ks : List Info) : Info := .elem ⟨space.toList, name.toList⟩ [] [] ks

/-- An envelope with a header, and a message in its body. -/
def requestInfo (to_ action id from_ identity : Text) (message : Info) : Info :=
  group "http://www.w3.org/2003/05/soap-envelope" "Envelope" [
    group "http://www.w3.org/2003/05/soap-envelope" "Header" [
      plain "http://www.w3.org/2005/08/addressing" "To" to_,
      plain "http://www.w3.org/2005/08/addressing" "Action" action,
      plain "http://www.w3.org/2005/08/addressing" "MessageID" id,
      group "http://www.w3.org/2005/08/addressing" "From" [plain "http://www.w3.org/2005/08/addressing" "Address" from_],
      plain "urn://Ocpp/Cp/2012/06/" "chargeBoxIdentity" identity],
    group "http://www.w3.org/2003/05/soap-envelope" "Body" [message]]

/-- A fault: its reason, unless that is empty, is an element `reason` in no name space. -/
def faultInfo (reason : Text) : Info :=
  group "http://www.w3.org/2003/05/soap-envelope" "Fault" (if reason = [] then [] else [plain "" "reason" reason])

/-- An envelope without header, and messages and faults in its body. -/
def replyInfo (messages : List Info) (fault : Option Text) : Info :=
  group "http://www.w3.org/2003/05/soap-envelope" "Envelope" [
    group "http://www.w3.org/2003/05/soap-envelope" "Body" (messages ++ fault.toList.map faultInfo)]

/-- The element of a message: it has the name and the name space of its type, it is laid out as the type says, and it means the
value. -/
def Renders (m : MsgType) (v : Val) (i : Info) : Prop :=
  i.name = nameOf m.ty ∧ Laid (nameOf m.ty).space m.ty i ∧ Means m.ty [i] v

end Verif.Soap
