import Verif.Spec.Message
import Verif.Spec.Schemas
/-!
# Which message a JSON value is decoded to

The specification of decoding, on the level of JSON values: the JSON schema of the message says which
properties are read, which are required and whether others are allowed; the struct's tags say which
field a property belongs to.  There is no property map and hence no iteration order in it.
-/
namespace Verif

/-- A reader of a property: JSON value, value the field had before. -/
abbrev Reader := JVal → Val → Option Val

/-- The value of a property: the last one, if it occurs several times. -/
def lastVal : List (Text × JVal) → Text → Option JVal
  | [], _ => none
  | (k, j) :: ms, k' =>
    match lastVal ms k' with
    | some j' => some j'
    | none => if k = k' then some j else none

/-- Fields in struct order: a field whose name is a property of the schema and which is present is read,
any other keeps its value. -/
def readFields (props : List (Text × Schema)) (ms : List (Text × JVal)) :
    List FieldInfo → List Reader → List Val → Option (List Val)
  | f :: fs, r :: rs, v :: vs =>
    match (if (props.map Prod.fst).contains f.json then lastVal ms f.json else none) with
    | some j =>
      match r j v, readFields props ms fs rs vs with
      | some v', some vs' => some (v' :: vs')
      | _, _ => none
    | none => (readFields props ms fs rs vs).map (v :: ·)
  | _, _, _ => some []

/-- Upper and lower case letters, the long s and the Kelvin sign are identified. -/
def foldName (s : Text) : Text :=
  s.map fun c => if c.toNat = 0x17F then 's' else if c.toNat = 0x212A then 'k' else c.toLower

/-- The field a property name belongs to in the two leniently decoded requests: the one with exactly
that name, otherwise the first one with that name up to case. -/
def fieldOf (fs : List FieldInfo) (k : Text) : Option Nat :=
  match fs.findIdx? (fun f => f.json == k) with
  | some i => some i
  | none => fs.findIdx? (fun f => foldName f.json == foldName k)

/-- Properties read one after the other, unknown ones skipped. -/
def readLenient (fs : List FieldInfo) (rs : List Reader) : List (Text × JVal) → List Val → Option (List Val)
  | [], vs => some vs
  | (k, j) :: ms, vs =>
    match fieldOf fs k with
    | none => readLenient fs rs ms vs
    | some i =>
      match rs[i]?, vs[i]? with
      | some r, some v =>
        match r j v with
        | some v' => readLenient fs rs ms (vs.set i v')
        | none => none
      | _, _ => none

/-- All elements, or nothing. -/
def allSome {α : Type} : List (Option α) → Option (List α)
  | [] => some []
  | some a :: xs => (allSome xs).map (a :: ·)
  | none :: _ => none

/-- A struct value's fields. -/
def Val.fields : Val → List Val
  | .struct vs => vs
  | _ => []

/-- A struct. -/
def readStruct (info : StructInfo) (rs : List Reader) (sch : Schema) (j : JVal) (old : Val) : Option Val :=
  match j, sch with
  | .obj ms, .obj props required closed =>
    if reflective info then (readLenient info.fields rs ms old.fields).map .struct
    else if (closed = true → ∀ m ∈ ms, (props.map Prod.fst).contains m.1 = true) ∧
        (∀ k ∈ required, (ms.map Prod.fst).contains k = true) then
      (readFields props ms info.fields rs old.fields).map .struct
    else none
  | .null, .obj _ required _ => if reflective info ∨ required = [] then some old else none
  | _, _ => none

mutual
/-- The Go value a JSON value is decoded to, if any; `old` is the value of the variable before.
`null` leaves scalars as they were and empties pointers and lists. -/
def read : Ty → Schema → JVal → Val → Option Val
  | .ptr t, sch, j, old =>
    match j with
    | .null => some .nil
    | j => (read t sch j (match old with | .ptr v => v | _ => zeroVal t)).map .ptr
  | .slice t, sch, j, _ =>
    match j, sch with
    | .null, _ => some .nil
    | .arr js, .arr items => (allSome (js.map fun j => read t items j (zeroVal t))).map .slice
    | _, _ => none
  | .struct info ts, sch, j, old =>
    match sch with
    | .obj props _ _ => readStruct info (readers ts info.fields props) sch j old
    | _ => none
  | .str, _, j, old =>
    match j with
    | .str s => some (.str s)
    | .null => some old
    | _ => none
  | .int b, _, j, old =>
    match j with
    | .num l =>
      if l.isInt ∧ -(2 ^ (b - 1)) ≤ l.intVal ∧ l.intVal < 2 ^ (b - 1) then some (.int l.intVal) else none
    | .null => some old
    | _ => none
  | .float, _, j, old =>
    match j with
    | .num l => (fl64 l.value).map fun q => .float (.fin q)
    | .null => some old
    | _ => none
  | .bool, _, j, old =>
    match j with
    | .bool b => some (.bool b)
    | .null => some old
    | _ => none
  | .time, _, j, old =>
    match j with
    | .str s => (GoTime.parseTime s).map .time
    | .null => some old
    | _ => none
/-- The readers of the fields of a struct. -/
def readers : List Ty → List FieldInfo → List (Text × Schema) → List Reader
  | t :: ts, f :: fs, props => read t ((props.lookup f.json).getD .str) :: readers ts fs props
  | _, _, _ => []
end

/-- The schema of a message type. -/
def MsgType.schema : MsgType → Schema
  | .req r => r.schema
  | .resp r => r.schema

/-- Decoding a JSON value to a fresh message. -/
def MsgType.read (m : MsgType) (j : JVal) : Option Val := Verif.read m.ty m.schema j (zeroVal m.ty)

end Verif
