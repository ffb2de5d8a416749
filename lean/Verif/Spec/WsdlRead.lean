import Verif.Spec.Wsdl
import Verif.Spec.SoapDoc
/-!
# Reading messages that are valid against the WSDL files
-/
namespace Verif.Soap
open Xml

mutual
/-- The texts in some elements that are read as times. -/
def timesRead : Ty → List Info → List Text
  | .time, is => is.map Info.data
  | .ptr t, is => timesRead t is
  | .slice t, is => timesRead t is
  | .struct info ts, is => timesReads info info.fields ts is
  | _, _ => []
/-- Those for the fields of a struct. -/
def timesReads (info : StructInfo) : List FieldInfo → List Ty → List Info → List Text
  | f :: fs, t :: ts, is =>
    (match f.xmlKind with
      | .elem => timesRead t (elemsFor info f is)
      | _ => []) ++ timesReads info fs ts is
  | _, _, _ => []
end

/-- The text is a time stamp of RFC 3339 (as far as this library follows it, C62). -/
def Readable (s : Text) : Prop := ∃ (st : Cal.Stamp) (t : GoTime), st.Valid ∧ st.Spelled s ∧ st.Denotes t

/-- The type is not a composite one. -/
def Leaf : Ty → Prop
  | .ptr _ | .slice _ | .struct _ _ => False
  | _ => True

/-- A field is filled from elements of a name. -/
def Takes (info : StructInfo) (f : FieldInfo) (n : XName) : Prop := f.xmlKind = .elem ∧ Named (fieldName info f) n

/-- Something in the element, named by a path, has no influence on the value of the type that is read from it: an element that no field
takes, an element that a later one replaces, an attribute or character data that no field takes. -/
inductive Lost : Ty → Info → List Text → Prop where
  | unknown {info ts i k} : k ∈ i.kids → (∀ x ∈ info.fields.zip ts, ¬ Takes info x.1 k.name) → Lost (.struct info ts) i [k.name.loc]
  | replaced {info ts i a k b k'} {x : FieldInfo × Ty} : i.kids = a ++ k :: b → x ∈ info.fields.zip ts → Takes info x.1 k.name →
      (∀ t, x.2 ≠ .slice t) → k' ∈ b → Takes info x.1 k'.name → Lost (.struct info ts) i [k.name.loc]
  | attr {info ts i a} : a ∈ i.attrs → (∀ f ∈ info.fields, ¬ (f.xmlKind = .attr ∧ f.xml = a.1.loc)) → Lost (.struct info ts) i ['@' :: a.1.loc]
  | text {info ts i} : ¬ Space i.data → (∀ f ∈ info.fields, f.xmlKind ≠ .chardata) → Lost (.struct info ts) i ["#text".toList]
  | inside {info ts i k p} {x : FieldInfo × Ty} : k ∈ i.kids → x ∈ info.fields.zip ts → Takes info x.1 k.name → Lost x.2 k p →
      Lost (.struct info ts) i (k.name.loc :: p)
  | leafElem {t i k} : Leaf t → k ∈ i.kids → Lost t i [k.name.loc]
  | leafAttr {t i a} : Leaf t → a ∈ i.attrs → Lost t i ['@' :: a.1.loc]
  | ptr {t i p} : Lost t i p → Lost (.ptr t) i p
  | slice {t i p} : Lost t i p → Lost (.slice t) i p

/-- There is an element at the path. -/
def Has : List Text → Info → Prop
  | [], _ => True
  | n :: p, i => ∃ k ∈ i.kids, k.name.loc = n ∧ Has p k

/-- What is lost of valid messages: the meter values in a StopTransaction; the entries and the hash of a SendLocalList and the hash in
the answer; the data in the answer to a DataTransfer and the status of the tag in the answer to a StopTransaction. -/
def lostParts : MsgType → List (List String)
  | .req .cpreqStopTransaction => [["transactionData", "values"]]
  | .req .csreqSendLocalList => [["localAuthorisationList"], ["hash"]]
  | .resp .csrespSendLocalList => [["hash"]]
  | .resp .cprespDataTransfer => [["data"]]
  | .resp .cprespStopTransaction => [["idTagInfo"]]
  | _ => []

/-- An envelope with a header that gives an identity and a body with one element. -/
def Carries (env : Info) (id : Text) (i : Info) : Prop :=
  env.name.loc = "Envelope".toList ∧ parts "Header" env ≠ [] ∧ identity env = id ∧ (parts "Body" env).flatMap Info.kids = [i]

end Verif.Soap
