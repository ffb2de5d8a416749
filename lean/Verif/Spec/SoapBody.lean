import Verif.Model.Soap
import Verif.Spec.Soap
/-!
# What a SOAP body says

A body is a sequence of messages and faults.
-/
namespace Verif.Soap
open Xml

/-- A message or a fault. -/
inductive Item where
  | message (m : MsgType) (v : Val)
  | fault (f : Val)

/-- What a node inside a body stands for: character data for nothing, an element `Fault` for a fault, an element with the
local name of a message that can be received for such a message. -/
inductive ReadsAs : RNode → Option Item → Prop
  | text {s} : ReadsAs (.text s) none
  | fault {n as ks f} (hn : n.loc = "Fault".toList) (hf : fromXml faultTy n as ks (zeroVal faultTy) = .ok f) :
      ReadsAs (.elem n as ks) (some (.fault f))
  | message {n as ks v} {m : MsgType} (hb : bound m = true) (hn : n.loc = (nameOf m.ty).loc)
      (hf : fromXml m.ty n as ks (zeroVal m.ty) = .ok v) : ReadsAs (.elem n as ks) (some (.message m v))

/-- The last message. -/
def lastMessage (l : List (Option Item)) : Option (MsgType × Val) :=
  (l.filterMap fun x => match x with | some (.message m v) => some (m, v) | _ => none).getLast?

/-- The last fault. -/
def lastFault (l : List (Option Item)) : Option Val :=
  (l.filterMap fun x => match x with | some (.fault f) => some f | _ => none).getLast?

/-- RFC 1950: what the first two bytes of a zlib stream are (method 8, header check).  This is what HTTP calls
`deflate` (RFC 9110, 8.4.1.2). -/
def ZlibStart (b : List UInt8) : Prop :=
  ∃ cmf flg r, b = cmf :: flg :: r ∧ cmf.toNat % 16 = 8 ∧ (cmf.toNat * 256 + flg.toNat) % 31 = 0

/-- The bytes of a text. -/
def utf8 (t : Text) : List UInt8 := t.flatMap String.utf8EncodeChar

end Verif.Soap
