import Verif.Spec.SoapMeans
/-!
# The layout of a SOAP message

The WSDL of OCPP describes a message as a sequence: its elements come in a fixed order, all in the message's name space, and those
that are not optional are there.
-/
namespace Verif.Xml

/-- Types of which a field holds any number of elements. -/
def many : Ty → Bool
  | .slice _ => true
  | _ => false

/-- Types of which a field may hold no element: lists and pointers. -/
def optional : Ty → Bool
  | .slice _ => true
  | .ptr _ => true
  | _ => false

mutual
/-- The element of a value of a type, in a name space: elements only where the type has fields, attributes only in no name space,
character data only where there is no struct or the struct has a place for it. -/
def Laid (D : Text) : Ty → Info → Prop
  | .ptr t, i => Laid D t i
  | .slice t, i => Laid D t i
  | .struct info ts, i => LaidFields D info.fields ts i.attrs i.kids ∧ ((∀ f ∈ info.fields, f.xmlKind ≠ .chardata) → i.data = [])
  | .str, i => i.attrs = [] ∧ i.kids = []
  | .int _, i => i.attrs = [] ∧ i.kids = []
  | .float, i => i.attrs = [] ∧ i.kids = []
  | .bool, i => i.attrs = [] ∧ i.kids = []
  | .time, i => i.attrs = [] ∧ i.kids = []
/-- The attributes and child elements of a struct: those of each field, in the order of the fields; at most one unless the field is a
list, and exactly one element if the field is neither optional nor tagged omitempty. -/
def LaidFields (D : Text) : List FieldInfo → List Ty → List (XName × Text) → List Info → Prop
  | f :: fs, t :: ts, as, ks =>
    match f.xmlKind with
    | .elem => ∃ own rest, ks = own ++ rest ∧ (∀ k ∈ own, k.name = ⟨D, f.xml⟩ ∧ Laid D t k) ∧ (many t = false → own.length ≤ 1) ∧
        (f.xmlOmit = false → optional t = false → own.length = 1) ∧ LaidFields D fs ts as rest
    | .attr => ∃ own rest, as = own ++ rest ∧ own.length ≤ 1 ∧ (∀ a ∈ own, a.1 = ⟨[], f.xml⟩) ∧ LaidFields D fs ts rest ks
    | _ => LaidFields D fs ts as ks
  | [], [], as, ks => as = [] ∧ ks = []
  | _, _, _, _ => False
end

end Verif.Xml
