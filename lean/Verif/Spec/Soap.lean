import Verif.Model.Xml
import Verif.Spec.Message
import Verif.Spec.XmlText
/-!
# What a message is after a trip over SOAP

Characters that XML does not have are replaced; a field without a place in XML (the phase of a sampled
value) is lost; in lists, nil entries and empty strings are lost, and a list that is then empty is nil.
Nothing else changes (times keep their nanoseconds).
-/
namespace Verif

/-- An entry of a list that is written. -/
def Val.present : Val → Bool
  | .nil => false
  | .str [] => false
  | _ => true

/-- A list; without entries it is nil. -/
def listOf : List Val → Val
  | [] => .nil
  | vs => .slice vs

mutual
/-- The value on the other side. -/
def soapTrip : Ty → Val → Val
  | .str, .str s => .str (Xml.cleanText s)
  | .ptr t, .ptr v => .ptr (soapTrip t v)
  | .slice t, .slice vs => listOf ((vs.filter Val.present).map (soapTrip t))
  | .struct info ts, .struct vs => .struct (soapTrips info.fields ts vs)
  | _, v => v
/-- The same for the fields of a struct. -/
def soapTrips : List FieldInfo → List Ty → List Val → List Val
  | f :: fs, t :: ts, v :: vs => (if f.xmlKind = .skip then zeroVal t else soapTrip t v) :: soapTrips fs ts vs
  | _, _, _ => []
end

mutual
/-- The value arrives as it was: its strings have only characters that XML has, its lists are nil or have entries and these are not
nil or empty strings, and it has no phase. -/
def Intact : Ty → Val → Prop
  | .str, .str s => ∀ c ∈ s, Xml.IsXmlChar c
  | .ptr t, .ptr v => Intact t v
  | .slice t, .slice vs => vs ≠ [] ∧ ∀ v ∈ vs, v.present = true ∧ Intact t v
  | .struct info ts, .struct vs => Intacts info.fields ts vs
  | _, _ => True
/-- The same for the fields of a struct. -/
def Intacts : List FieldInfo → List Ty → List Val → Prop
  | f :: fs, t :: ts, v :: vs => (if f.xmlKind = .skip then v = zeroVal t else Intact t v) ∧ Intacts fs ts vs
  | _, _, _ => True
end

namespace Soap

/-- The element name of a message type: the tag of its XMLName field. -/
def nameOf : Ty → XName
  | .struct info _ =>
    match info.xmlName with
    | some x => ⟨x.1, x.2⟩
    | none => ⟨[], []⟩
  | _ => ⟨[], []⟩

/-- The messages that can be received over SOAP: all but a charge point's DataTransfer and the answer to it, and four
messages of OCPP 1.6 and their answers. -/
def bound : MsgType → Bool
  | .req .cpreqDataTransfer | .resp .cprespDataTransfer
  | .req .csreqTriggerMessage | .resp .csrespTriggerMessage
  | .req .csreqClearChargingProfile | .resp .csrespClearChargingProfile
  | .req .csreqGetCompositeSchedule | .resp .csrespGetCompositeSchedule
  | .req .csreqSetChargingProfile | .resp .csrespSetChargingProfile => false
  | _ => true

end Soap

end Verif
