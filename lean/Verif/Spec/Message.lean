import Verif.Model.Messages
/-!
# Which JSON object a message stands for

The specification of the JSON form of a message, on the level of JSON values and without reference to
the encoder programs: the members are the struct's fields under their `json` tag names, in
alphabetical order, with the treatment of absent values listed in `fieldMode`.
-/
namespace Verif

/-- What happens to a field when the message is encoded.
* `always`: a member is written (a nil pointer or nil list as `null`);
* `omitNil`: a nil value is left out;
* `require`: a nil value makes the encoding fail with an error;
* `deref`: a nil value makes the encoding panic;
* `omitEmpty`: a zero value (`false`, 0, empty string, nil or empty list) is left out. -/
inductive Mode where
  | always | omitNil | require | deref | omitEmpty
  deriving DecidableEq, Repr

/-- A member of the JSON object: name, index of the struct field, treatment. -/
structure Slot where
  key : Text
  idx : Nat
  mode : Mode
  deriving DecidableEq, Repr

/-- The two requests encoded by reflection. -/
def reflective (info : StructInfo) : Bool :=
  info.pkg = "csreq" && (info.name = "RemoteStartTransaction" || info.name = "RemoteStopTransaction")

/-- The sub-objects without which a message is refused (C09). -/
def requiredObjects : List (String × String × String) := [
  ("cpresp", "Authorize", "IdTagInfo"),
  ("cpresp", "StartTransaction", "IdTagInfo"),
  ("csreq", "ChargingProfile", "ChargingSchedule"),
  ("csreq", "CsChargingProfiles", "ChargingSchedule"),
  ("csreq", "SetChargingProfile", "CsChargingProfiles")]

/-- The treatment of a field.  `omitempty` in the tags counts only for the two requests encoded by
reflection; elsewhere only absent (nil) times are left out, and the key list of a GetConfiguration
request.  The exception is the expiry date of an authorization list entry (C08). -/
def fieldMode (info : StructInfo) (f : FieldInfo) (t : Ty) : Mode :=
  if reflective info then (if f.jsonOmit then .omitEmpty else .always)
  else match t with
    | .ptr .time => if info.pkg = "csreq" ∧ info.name = "IdTagInfo" then .deref else .omitNil
    | .ptr (.struct _ _) => if (info.pkg, info.name, f.go) ∈ requiredObjects then .require else .always
    | .slice _ => if info.pkg = "csreq" ∧ info.name = "GetConfiguration" then .omitNil else .always
    | _ => .always

/-- Alphabetical order of names. -/
def textLe : Text → Text → Bool
  | [], _ => true
  | _ :: _, [] => false
  | a :: as, b :: bs => if a = b then textLe as bs else a.toNat < b.toNat

/-- Insert into an alphabetical list of members. -/
def insertSlot (s : Slot) : List Slot → List Slot
  | [] => [s]
  | s' :: ss => if textLe s.key s'.key then s :: s' :: ss else s' :: insertSlot s ss

/-- Members of the fields from index `i` on, in struct order. -/
def fieldSlots (info : StructInfo) : Nat → List FieldInfo → List Ty → List Slot
  | i, f :: fs, t :: ts => ⟨f.json, i, fieldMode info f t⟩ :: fieldSlots info (i + 1) fs ts
  | _, _, _ => []

/-- The members of a struct: alphabetical, or in struct order for the two requests encoded by
reflection. -/
def slots (info : StructInfo) (ts : List Ty) : List Slot :=
  let l := fieldSlots info 0 info.fields ts
  if reflective info then l else l.foldr insertSlot []

/-- The text of the error for a missing required sub-object names the property. -/
def requireMsg (key : Text) : Text := key ++ " is a required field".toList

/-- Is this the nil pointer or nil list? -/
def Val.isNil : Val → Bool
  | .nil => true
  | _ => false

/-- Is this a zero value in the sense of `omitempty`? -/
def Val.isEmpty : Val → Bool
  | .str s => s.isEmpty
  | .int n => n == 0
  | .float (.fin q) => q == 0
  | .bool b => !b
  | .nil => true
  | .slice vs => vs.isEmpty
  | _ => false

/-- The member of one field, if any; `w` is what the field's value stands for. -/
def slotMember (s : Slot) (v : Val) (w : GoRes JVal) : GoRes (List (Text × JVal)) :=
  match s.mode with
  | .always => w.bind fun j => .ok [(s.key, j)]
  | .omitNil => if v.isNil then .ok [] else w.bind fun j => .ok [(s.key, j)]
  | .require => if v.isNil then .err (String.ofList (requireMsg s.key)) else w.bind fun j => .ok [(s.key, j)]
  | .deref => if v.isNil then .panic "invalid memory address or nil pointer dereference"
      else w.bind fun j => .ok [(s.key, j)]
  | .omitEmpty => if v.isEmpty then .ok [] else w.bind fun j => .ok [(s.key, j)]

/-- The members of a struct value; the first failing one decides. -/
def slotMembers (vs : List Val) (ws : List (GoRes JVal)) : List Slot → GoRes (List (Text × JVal))
  | [] => .ok []
  | s :: ss => (slotMember s (vs.getD s.idx .nil) (ws.getD s.idx (.panic "no such field"))).bind fun m =>
      (slotMembers vs ws ss).bind fun ms => .ok (m ++ ms)

/-- All values, or the first failure. -/
def allOk {α : Type} : List (GoRes α) → GoRes (List α)
  | [] => .ok []
  | x :: xs => x.bind fun a => (allOk xs).bind fun as => .ok (a :: as)

mutual
/-- The JSON value a Go value of a type stands for: times in RFC 3339 with whole seconds, integers as
plain digits, NaN and infinities not at all. -/
def wire (F : FloatFmt) : Ty → Val → GoRes JVal
  | .str, .str s => .ok (.str s)
  | .int _, .int n => .ok (.num (.ofInt n))
  | .float, .float (.fin q) => .ok (.num (F.fmt q))
  | .float, .float _ => .err "json: unsupported value"
  | .bool, .bool b => .ok (.bool b)
  | .time, .time t => .ok (.str t.format)
  | .ptr _, .nil => .ok .null
  | .ptr t, .ptr v => wire F t v
  | .slice _, .nil => .ok .null
  | .slice t, .slice vs => (allOk (vs.map (wire F t))).bind fun js => .ok (.arr js)
  | .struct info ts, .struct vs => (slotMembers vs (wireAll F ts vs) (slots info ts)).bind fun ms => .ok (.obj ms)
  | _, _ => .panic "ill-typed value"
/-- The JSON values of the fields of a struct. -/
def wireAll (F : FloatFmt) : List Ty → List Val → List (GoRes JVal)
  | t :: ts, v :: vs => wire F t v :: wireAll F ts vs
  | _, _ => []
end

/-- A message type: a request or a response. -/
inductive MsgType where
  | req (r : ReqType)
  | resp (r : RespType)
  deriving DecidableEq, Repr

/-- The struct of a message type. -/
def MsgType.ty : MsgType → Ty
  | .req r => r.ty
  | .resp r => r.ty

mutual
/-- No object in the value has two members of the same name. -/
def DistinctNames : JVal → Prop
  | .arr vs => DistinctAll vs
  | .obj ms => (ms.map Prod.fst).Nodup ∧ DistinctMembers ms
  | _ => True
/-- The same for all elements. -/
def DistinctAll : List JVal → Prop
  | [] => True
  | v :: vs => DistinctNames v ∧ DistinctAll vs
/-- The same for all member values. -/
def DistinctMembers : List (Text × JVal) → Prop
  | [] => True
  | (_, v) :: ms => DistinctNames v ∧ DistinctMembers ms
end

end Verif
