import Verif.Model.Time
/-!
# Message types and their JSON codecs

The Go message structs (messages/v1x/*/messages.go) and the hand-rolled `MarshalJSON` /
`UnmarshalJSON` methods (messages/v1x/*/json_encode.go) as data with an interpreter.  The data
itself, one entry per Go struct, is in `Verif.Model.Messages`, generated from the Go text by
tools/gen.py.
-/
namespace Verif

/-! ### Programs -/

/-- One statement of a generated MarshalJSON body (e.g. cpreq/json_encode.go:11-32):
`if comma { buf.WriteString(",") }`, `buf.WriteString("...")`, `json.Marshal(m.F)` with
`buf.Write(tmp)`, the same with `m.F.Format(time.RFC3339)`, `comma = true`. -/
inductive Simple where
  | commaIf
  | lit (s : Text)
  | field (i : Nat)
  | timeField (i : Nat)
  | setComma
  deriving DecidableEq, Repr

/-- Statements with control flow: `if m.F != nil { ... }` (e.g. cpresp/json_encode.go:317-325) and
`if m.F == nil { return nil, errors.New(...) }` (e.g. cpresp/json_encode.go:17-19). -/
inductive Stmt where
  | simple (s : Simple)
  | ifNotNil (i : Nat) (body : List Simple)
  | requireNonNil (i : Nat) (msg : Text)
  deriving DecidableEq, Repr

/-- How a struct is encoded: a statement program; the map of csreq.GetConfiguration
(csreq/json_encode.go:668-674); or the default reflective struct encoding with tags
(csreq.RemoteStartTransaction and RemoteStopTransaction have no MarshalJSON).  The reflective form
lists name, field index and `omitempty`. -/
inductive Enc where
  | prog (p : List Stmt)
  | mapIfNotNil (key : Text) (i : Nat)
  | reflect (fs : List (Text × Nat × Bool))
  deriving DecidableEq, Repr

/-- How a struct is decoded: a `switch` over property names with (`strict`) or without a rejecting
default branch and a list of required properties (e.g. cpreq/json_encode.go:34-57); or reflectively
(property name and field index). -/
inductive Dec where
  | cases (cs : List (Text × Nat)) (strict : Bool) (required : List Text)
  | reflect (fs : List (Text × Nat))
  deriving DecidableEq, Repr

/-- Role of a struct field in encoding/xml, from its `xml` tag. -/
inductive XmlKind where
  | elem | attr | chardata | skip
  deriving DecidableEq, Repr

/-- A struct field: Go name, `json` tag name and `omitempty`, `xml` role, name and `omitempty`. -/
structure FieldInfo where
  go : String
  json : Text
  jsonOmit : Bool
  xmlKind : XmlKind
  xml : Text
  xmlOmit : Bool
  deriving DecidableEq, Repr

/-- A Go struct apart from the types of its fields.  `xmlName` is name space and local name of the
`XMLName` tag. -/
structure StructInfo where
  pkg : String
  name : String
  fields : List FieldInfo
  enc : Enc
  dec : Dec
  xmlName : Option (Text × Text)
  deriving DecidableEq, Repr

/-- The Go types that occur in messages: string kinds, signed integers of a width, float64, bool,
time.Time, pointers, slices, structs. -/
inductive Ty where
  | str
  | int (bits : Nat)
  | float
  | bool
  | time
  | ptr (t : Ty)
  | slice (t : Ty)
  | struct (info : StructInfo) (fs : List Ty)
  deriving Repr

/-- Go values.  `nil` is the nil pointer and the nil slice. -/
inductive Val where
  | str (s : Text)
  | int (n : Int)
  | float (f : GoFloat)
  | bool (b : Bool)
  | time (t : GoTime)
  | nil
  | ptr (v : Val)
  | slice (vs : List Val)
  | struct (vs : List Val)
  deriving Repr

mutual
/-- `HasTy t v`: `v` is a value of Go type `t`. -/
def HasTy : Ty → Val → Prop
  | .str, .str _ => True
  | .int b, .int n => -(2 ^ (b - 1)) ≤ n ∧ n < 2 ^ (b - 1)
  | .float, .float (.fin q) => IsF64 q
  | .float, .float _ => True
  | .bool, .bool _ => True
  | .time, .time t => t.nano < 10 ^ 9
  | .ptr _, .nil => True
  | .ptr t, .ptr v => HasTy t v
  | .slice _, .nil => True
  | .slice t, .slice vs => ∀ v ∈ vs, HasTy t v
  | .struct _ fs, .struct vs => HasTys fs vs
  | _, _ => False
/-- Values of a list of field types. -/
def HasTys : List Ty → List Val → Prop
  | [], [] => True
  | t :: ts, v :: vs => HasTy t v ∧ HasTys ts vs
  | _, _ => False
end

mutual
/-- Go's zero values. -/
def zeroVal : Ty → Val
  | .str => .str []
  | .int _ => .int 0
  | .float => .float (.fin 0)
  | .bool => .bool false
  | .time => .time .zero
  | .ptr _ => .nil
  | .slice _ => .nil
  | .struct _ fs => .struct (zeroVals fs)
/-- Zero values of fields. -/
def zeroVals : List Ty → List Val
  | [] => []
  | t :: ts => zeroVal t :: zeroVals ts
end

/-! ### Encoding -/

namespace Codec
open Json

/-- Buffer and `comma` variable of a MarshalJSON body. -/
structure Buf where
  out : Text
  comma : Bool
  deriving Repr

/-- A statement: `texts` are the results of `json.Marshal` on the fields, `vals` the fields. -/
def runSimple (texts : List (GoRes Text)) (vals : List Val) (s : Simple) (b : Buf) : GoRes Buf :=
  match s with
  | .commaIf => .ok (if b.comma then { b with out := b.out ++ [','] } else b)
  | .lit s => .ok { b with out := b.out ++ s }
  | .field i => (texts.getD i (.panic "no such field")).bind fun t => .ok { b with out := b.out ++ t }
  | .timeField i =>
    match vals[i]? with
    | some (.time t) => .ok { b with out := b.out ++ quote t.format }
    | some (.ptr (.time t)) => .ok { b with out := b.out ++ quote t.format }
    | some .nil => .panic "invalid memory address or nil pointer dereference"
    | _ => .panic "no such time field"
  | .setComma => .ok { b with comma := true }

/-- A sequence of statements. -/
def runSimples (texts : List (GoRes Text)) (vals : List Val) : List Simple → Buf → GoRes Buf
  | [], b => .ok b
  | s :: ss, b => (runSimple texts vals s b).bind (runSimples texts vals ss)

/-- `m.F == nil`. -/
def isNil (vals : List Val) (i : Nat) : Bool :=
  match vals[i]? with
  | some .nil => true
  | _ => false

/-- A statement with control flow. -/
def runStmt (texts : List (GoRes Text)) (vals : List Val) (s : Stmt) (b : Buf) : GoRes Buf :=
  match s with
  | .simple s => runSimple texts vals s b
  | .ifNotNil i body => if isNil vals i then .ok b else runSimples texts vals body b
  | .requireNonNil i msg => if isNil vals i then .err (String.ofList msg) else .ok b

/-- A MarshalJSON body. -/
def runStmts (texts : List (GoRes Text)) (vals : List Val) : List Stmt → Buf → GoRes Buf
  | [], b => .ok b
  | s :: ss, b => (runStmt texts vals s b).bind (runStmts texts vals ss)

/-- Zero values as `omitempty` sees them (encode.go `isEmptyValue`). -/
def isEmpty : Val → Bool
  | .str s => s.isEmpty
  | .int n => n == 0
  | .float (.fin q) => q == 0
  | .bool b => !b
  | .nil => true
  | .slice vs => vs.isEmpty
  | _ => false

/-- Reflective struct encoding: members of the listed fields (encode.go `structEncoder.encode`);
`next` is what precedes the next member, `{` or `,`. -/
def runReflect (texts : List (GoRes Text)) (vals : List Val) : List (Text × Nat × Bool) → Char → Text → GoRes Text
  | [], next, out => .ok (if next = '{' then out ++ ['{', '}'] else out ++ ['}'])
  | (k, i, om) :: fs, next, out =>
    if om && isEmpty (vals.getD i .nil) then runReflect texts vals fs next out
    else (texts.getD i (.panic "no such field")).bind fun t =>
      runReflect texts vals fs ',' (out ++ next :: (quote k ++ ':' :: t))

/-- The text a struct's own encoder yields. -/
def runEnc (e : Enc) (texts : List (GoRes Text)) (vals : List Val) : GoRes Text :=
  match e with
  | .prog p => (runStmts texts vals p ⟨[], false⟩).bind fun b => .ok b.out
  | .mapIfNotNil key i =>
    if isNil vals i then .ok ['{', '}']
    else (texts.getD i (.panic "no such field")).bind fun t => .ok ('{' :: (quote key ++ ':' :: (t ++ ['}'])))
  | .reflect fs => runReflect texts vals fs '{' []

/-- `json.Marshal` post-processes the text of a MarshalJSON method with `compact`
(encode.go `marshalerEncoder`); reflective encoding is written directly. -/
def finishEnc (e : Enc) (t : Text) : GoRes Text :=
  match e with
  | .reflect _ => .ok t
  | _ =>
    match compact t with
    | some t' => .ok t'
    | none => .err "json: error calling MarshalJSON"

/-- Elements of a slice: `[`, elements separated by commas, `]`. -/
def joinElems : List (GoRes Text) → Text → GoRes Text
  | [], out => .ok (out ++ [']'])
  | x :: xs, out => x.bind fun t => joinElems xs (out ++ (if out = ['['] then t else ',' :: t))

/-- Text of an integer (`strconv.AppendInt`). -/
def intText (n : Int) : Text := (rawOfLit (NumLit.ofInt n)).text

mutual
/-- `json.Marshal` of a value of a Go type.  Struct types occur in messages only behind pointers, so
their MarshalJSON (pointer receiver) is always the one used. -/
def marshal (F : FloatFmt) : Ty → Val → GoRes Text
  | .str, .str s => .ok (quote s)
  | .int _, .int n => .ok (intText n)
  | .float, .float (.fin q) => .ok (rawOfLit (F.fmt q)).text
  | .float, .float _ => .err "json: unsupported value"
  | .bool, .bool b => .ok (if b then ['t', 'r', 'u', 'e'] else ['f', 'a', 'l', 's', 'e'])
  | .time, .time t =>
    if 0 ≤ t.year ∧ t.year ≤ 9999 then .ok (quote t.formatNano)
    else .err "Time.MarshalJSON: year outside of range [0,9999]"
  | .ptr _, .nil => .ok ['n', 'u', 'l', 'l']
  | .ptr t, .ptr v => marshal F t v
  | .slice _, .nil => .ok ['n', 'u', 'l', 'l']
  | .slice t, .slice vs => joinElems (vs.map (marshal F t)) ['[']
  | .struct info fs, .struct vs =>
    (runEnc info.enc (marshalAll F fs vs) vs).bind (finishEnc info.enc)
  | _, _ => .panic "ill-typed value"
/-- `json.Marshal` of each field. -/
def marshalAll (F : FloatFmt) : List Ty → List Val → List (GoRes Text)
  | t :: ts, v :: vs => marshal F t v :: marshalAll F ts vs
  | _, _ => []
end

/-! ### Decoding -/

/-- The contents of a Go map filled from the members in order: the last of several equal names wins. -/
def lastWins : List (Text × JVal) → List (Text × JVal)
  | [] => []
  | (k, v) :: ms => if (ms.map Prod.fst).contains k then lastWins ms else (k, v) :: lastWins ms

/-- Go's map iteration order: for each map (identified by where in the decoding it occurs) any
permutation of its entries. -/
structure Order where
  ord : List Nat → List (Text × JVal) → List (Text × JVal)
  perm : ∀ p l, (ord p l).Perm l

/-- A field decoder: place, JSON value, old value. -/
abbrev FieldDec := List Nat → JVal → Val → GoRes Val

/-- The loop `for k, v := range jsonMap { switch k {...} }`; `n` counts the entries seen. -/
def goCases (cs : List (Text × Nat)) (strict : Bool) (decs : List FieldDec) (p : List Nat) :
    Nat → List (Text × JVal) → List Val → GoRes (List Val)
  | _, [], vs => .ok vs
  | n, (k, j) :: ms, vs =>
    match cs.lookup k with
    | some i =>
      ((decs.getD i (fun _ _ _ => .panic "no such field")) (n :: p) j (vs.getD i .nil)).bind fun v =>
        goCases cs strict decs p (n + 1) ms (vs.set i v)
    | none =>
      if strict then .err "additional property not allowed"
      else goCases cs strict decs p (n + 1) ms vs

/-- Required checks after the loop. -/
def checkRequired (required : List Text) (keys : List Text) (vs : List Val) : GoRes Val :=
  if required.all (keys.contains ·) then .ok (.struct vs) else .err "is required but was not present"

/-- Case folding of property names in reflective decoding (encoding/json fold.go: ASCII letters, the
long s and the Kelvin sign). -/
def foldChar (c : Char) : Char :=
  if c.toNat = 0x17F then 's' else if c.toNat = 0x212A then 'k' else c.toLower

/-- The field a property name denotes: exact match first, then a case-insensitive one. -/
def lookupFold (fs : List (Text × Nat)) (k : Text) : Option Nat :=
  match fs.lookup k with
  | some i => some i
  | none => (fs.find? fun f => f.1.map foldChar == k.map foldChar).map Prod.snd

/-- Reflective decoding of the members in order; unknown names are skipped. -/
def goReflect (fs : List (Text × Nat)) (decs : List FieldDec) (p : List Nat) :
    Nat → List (Text × JVal) → List Val → GoRes (List Val)
  | _, [], vs => .ok vs
  | n, (k, j) :: ms, vs =>
    match lookupFold fs k with
    | some i =>
      ((decs.getD i (fun _ _ _ => .panic "no such field")) (n :: p) j (vs.getD i .nil)).bind fun v =>
        goReflect fs decs p (n + 1) ms (vs.set i v)
    | none => goReflect fs decs p (n + 1) ms vs

/-- Fields of a struct value. -/
def fieldsOf : Val → List Val
  | .struct vs => vs
  | _ => []

/-- Decoding into a struct.  For a `cases` decoder JSON `null` reaches UnmarshalJSON only at top level,
where it gives an empty map. -/
def decStruct (o : Order) (d : Dec) (decs : List FieldDec) (p : List Nat) (j : JVal) (old : Val) : GoRes Val :=
  match d, j with
  | .cases cs strict required, .obj ms =>
    let ents := o.ord p (lastWins ms)
    (goCases cs strict decs p 0 ents (fieldsOf old)).bind (checkRequired required (ents.map Prod.fst))
  | .cases _ _ required, .null => checkRequired required [] (fieldsOf old)
  | .cases _ _ _, _ => .err "json: cannot unmarshal into map"
  | .reflect fs, .obj ms => (goReflect fs decs p 0 ms (fieldsOf old)).bind fun vs => .ok (.struct vs)
  | .reflect _, .null => .ok old
  | .reflect _, _ => .err "json: cannot unmarshal into struct"

/-- Decode the elements of an array. -/
def decElems (f : Nat → JVal → GoRes Val) : Nat → List JVal → GoRes (List Val)
  | _, [] => .ok []
  | n, j :: js => (f n j).bind fun v => (decElems f (n + 1) js).bind fun vs => .ok (v :: vs)

mutual
/-- `json.Unmarshal` of a value into a variable of a Go type that holds `old`.  The raw text of a
property (json.RawMessage) is represented by its JSON value.  Simplification: a slice is always filled
with fresh elements (Go reuses old elements when a slice is decoded into twice, which only
case-variant duplicates of `chargingProfile` can bring about). -/
def unmarshal (o : Order) : Ty → List Nat → JVal → Val → GoRes Val
  | .str, _, j, old =>
    match j with
    | .str s => .ok (.str s)
    | .null => .ok old
    | _ => .err "json: cannot unmarshal into string"
  | .int b, _, j, old =>
    match j with
    | .num l =>
      if l.isInt ∧ -(2 ^ (b - 1)) ≤ l.intVal ∧ l.intVal < 2 ^ (b - 1) then .ok (.int l.intVal)
      else .err "json: cannot unmarshal number into int"
    | .null => .ok old
    | _ => .err "json: cannot unmarshal into int"
  | .float, _, j, old =>
    match j with
    | .num l =>
      match fl64 l.value with
      | some q => .ok (.float (.fin q))
      | none => .err "json: cannot unmarshal number into float64"
    | .null => .ok old
    | _ => .err "json: cannot unmarshal into float64"
  | .bool, _, j, old =>
    match j with
    | .bool b => .ok (.bool b)
    | .null => .ok old
    | _ => .err "json: cannot unmarshal into bool"
  | .time, _, j, old =>
    match j with
    | .str s =>
      match GoTime.parseTime s with
      | some t => .ok (.time t)
      | none => .err "parsing time"
    | .null => .ok old
    | _ => .err "Time.UnmarshalJSON: input is not a JSON string"
  | .ptr t, p, j, old =>
    match j with
    | .null => .ok .nil
    | j => (unmarshal o t p j (match old with | .ptr v => v | _ => zeroVal t)).bind fun v => .ok (.ptr v)
  | .slice t, p, j, _ =>
    match j with
    | .null => .ok .nil
    | .arr js => (decElems (fun n j => unmarshal o t (n :: p) j (zeroVal t)) 0 js).bind fun vs => .ok (.slice vs)
    | _ => .err "json: cannot unmarshal into slice"
  | .struct info fs, p, j, old => decStruct o info.dec (unmarshalAll o fs) p j old
/-- The decoders of a struct's fields. -/
def unmarshalAll (o : Order) : List Ty → List FieldDec
  | [] => []
  | t :: ts => unmarshal o t :: unmarshalAll o ts
end

/-- `json.Unmarshal(text, msg)` with `msg` a pointer to a fresh message. -/
def decode (o : Order) (t : Ty) (text : Text) : GoRes Val :=
  match parse text with
  | some j => unmarshal o t [] j (zeroVal t)
  | none => .err "invalid JSON"

end Codec
end Verif
