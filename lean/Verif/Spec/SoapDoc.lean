import Verif.Spec.SoapMeans
import Verif.Spec.SoapBody
/-!
# What a SOAP document says to this library

A SOAP document is any spelling of an envelope: with any prefixes, quotes, white space, comments, CDATA sections, processing
instructions, character references, with or without XML declaration and byte order mark.
-/
namespace Verif.Soap
open Xml

/-- The text is an XML document that says `i` (and no prefix in it has the name of an attribute of OCPP). -/
def SoapDoc (t : Text) (i : Info) : Prop :=
  ∃ x, Document t x ∧ Says (fun _ => none) x i ∧ ∀ p ∈ prefixes x, p ∉ attrFields

/-- The children with a local name, in whatever name space. -/
def parts (n : String) (i : Info) : List Info := i.kids.filter fun k => k.name.loc = n.toList

/-- The character data of the last child with a local name in some elements; empty if there is none. -/
def lastData (n : String) (is : List Info) : Text := (((is.flatMap (parts n)).getLast?).map Info.data).getD []

/-- What stands in a body. -/
inductive Said where
  | message (m : MsgType) (v : Val)
  | fault (reason : Text)

/-- What an element in a body says: an element `Fault` is a fault, with the text in its `Reason/Text`; an element with the local
name of a message that can be received is such a message. -/
inductive SaidBy : Info → Said → Prop where
  | fault {i} : i.name.loc = "Fault".toList → SaidBy i (.fault (lastData "Text" (parts "Reason" i)))
  | message {i v} {m : MsgType} : bound m = true → i.name.loc = (nameOf m.ty).loc → Means m.ty [i] v → SaidBy i (.message m v)

/-- What an envelope says: everything in its body must be readable. -/
def EnvelopeSays (i : Info) (l : List Said) : Prop :=
  i.name.loc = "Envelope".toList ∧ List.Forall₂ SaidBy ((parts "Body" i).flatMap Info.kids) l

/-- The last message. -/
def message (l : List Said) : Option (MsgType × Val) :=
  (l.filterMap fun x => match x with | .message m v => some (m, v) | _ => none).getLast?

/-- The reason in the last fault. -/
def fault (l : List Said) : Option Text :=
  (l.filterMap fun x => match x with | .fault s => some s | _ => none).getLast?

/-- The envelope has a header. -/
def HasHeader (i : Info) : Prop := parts "Header" i ≠ []

/-- The identity in the header. -/
def identity (i : Info) : Text := lastData "chargeBoxIdentity" (parts "Header" i)

end Verif.Soap
