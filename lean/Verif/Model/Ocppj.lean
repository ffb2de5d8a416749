import Verif.Model.Conn
import Verif.Model.Messages
/-!
# OCPP-J frames

The functions that turn text frames into messages and back (ws/conn.go:113-162, 181-183, 226-261;
ws/message.go) and, with them, the concrete meaning `ocppj` of the parameter `Sem` of
`Verif.Model.Conn`.
-/
namespace Verif
open Json Codec

/-- An `interface{}` as filled by encoding/json (decode.go `valueInterface`): nil, bool, float64,
string, slice, map.  A map is represented by its entries in the order of their keys, each key once
(`mapPut`), so that equal maps are equal lists. -/
inductive GoAny where
  | nil
  | bool (b : Bool)
  | num (q : ℚ)
  | str (s : Text)
  | arr (vs : List GoAny)
  | obj (ms : List (Text × GoAny))

/-- A decoded JSON object, `map[string]interface{}`. -/
abbrev Payload := List (Text × GoAny)

namespace Ocppj

/-- Order of map keys (strings compare bytewise, which for UTF-8 is the order of the code points). -/
def keyLt : Text → Text → Bool
  | _, [] => false
  | [], _ :: _ => true
  | a :: as, b :: bs => if a = b then keyLt as bs else decide (a.toNat < b.toNat)

/-- `m[k] = v` (decode.go:1116 `m[key] = d.valueInterface()`). -/
def mapPut {α : Type} (k : Text) (v : α) : List (Text × α) → List (Text × α)
  | [] => [(k, v)]
  | (k', v') :: m =>
    if k = k' then (k, v) :: m
    else if keyLt k k' then (k, v) :: (k', v') :: m
    else (k', v') :: mapPut k v m

mutual
/-- `json.Unmarshal` into an `interface{}`; `none` is the error for a number that is out of the range of
float64 (decode.go `convertNumber`), which makes the whole decoding fail. -/
def toAny : JVal → Option GoAny
  | .null => some .nil
  | .bool b => some (.bool b)
  | .num l => (fl64 l.value).map .num
  | .str s => some (.str s)
  | .arr vs => (toAnys vs).map .arr
  | .obj ms => (toEntries ms []).map .obj
/-- Elements of an array. -/
def toAnys : List JVal → Option (List GoAny)
  | [] => some []
  | v :: vs =>
    match toAny v, toAnys vs with
    | some a, some as => some (a :: as)
    | _, _ => none
/-- Members of an object, put into the map one after the other. -/
def toEntries : List (Text × JVal) → Payload → Option Payload
  | [], m => some m
  | (k, v) :: ms, m =>
    match toAny v with
    | some a => toEntries ms (mapPut k a m)
    | none => none
end

mutual
/-- `json.Marshal` of an `interface{}`: maps in key order (encode.go `mapEncoder`), never failing on values
that came out of `toAny`. -/
def anyText (F : FloatFmt) : GoAny → Text
  | .nil => ['n', 'u', 'l', 'l']
  | .bool b => if b then ['t', 'r', 'u', 'e'] else ['f', 'a', 'l', 's', 'e']
  | .num q => (rawOfLit (F.fmt q)).text
  | .str s => quote s
  | .arr vs => '[' :: (anyTexts F vs ++ [']'])
  | .obj ms => '{' :: (entryTexts F ms ++ ['}'])
/-- Elements, separated by commas. -/
def anyTexts (F : FloatFmt) : List GoAny → Text
  | [] => []
  | v :: vs =>
    match vs with
    | [] => anyText F v
    | _ => anyText F v ++ ',' :: anyTexts F vs
/-- Members, separated by commas. -/
def entryTexts (F : FloatFmt) : List (Text × GoAny) → Text
  | [] => []
  | (k, v) :: ms =>
    match ms with
    | [] => quote k ++ ':' :: anyText F v
    | _ => quote k ++ ':' :: (anyText F v ++ ',' :: entryTexts F ms)
end

/-! ### Receiving -/

/-- `unicode.IsSpace` (White_Space of Unicode), as used by `bytes.TrimSpace`. -/
def isSpace (c : Char) : Bool :=
  (9 ≤ c.toNat && c.toNat ≤ 13) || c.toNat == 0x20 || c.toNat == 0x85 || c.toNat == 0xA0 || c.toNat == 0x1680 ||
  (0x2000 ≤ c.toNat && c.toNat ≤ 0x200A) || c.toNat == 0x2028 || c.toNat == 0x2029 || c.toNat == 0x202F ||
  c.toNat == 0x205F || c.toNat == 0x3000

/-- `bytes.TrimSpace`. -/
def trimSpace (t : Text) : Text := ((t.dropWhile isSpace).reverse.dropWhile isSpace).reverse

/-- ws/conn.go:181 `bytes.TrimSpace(bytes.Replace(messageBytes, newline, space, -1))`. -/
def normalise (t : Text) : Text := trimSpace (t.map fun c => if c = '\n' then ' ' else c)

/-- `frame[i]`. -/
def index (frame : List GoAny) (i : Nat) : GoRes GoAny :=
  match frame[i]? with
  | some a => .ok a
  | none => .panic "index out of range"

/-- `a.(float64)` with the error of a failed assertion. -/
def asFloat (msg : String) : GoAny → GoRes ℚ
  | .num q => .ok q
  | _ => .err msg

/-- `a.(string)`. -/
def asString (msg : String) : GoAny → GoRes Text
  | .str s => .ok s
  | _ => .err msg

/-- `a.(map[string]interface{})`. -/
def asMap (msg : String) : GoAny → GoRes Payload
  | .obj m => .ok m
  | _ => .err msg

/-- ws/conn.go:122-161: the elements of the frame, checked from left to right; `none` is `(nil, nil)`. -/
def readFrame (frame : List GoAny) : GoRes (Option (Msg Payload)) := do
  let msgType ← (← index frame 0) |> asFloat "first field is not a message type"
  let id ← (← index frame 1) |> asString "second field is not a message ID"
  if msgType = 2 then
    let action ← (← index frame 2) |> asString "third field is not action"
    let payload ← (← index frame 3) |> asMap "fourth field is not payload"
    return some (.call (String.ofList id) (String.ofList action) payload)
  else if msgType = 3 then
    let payload ← (← index frame 2) |> asMap "third field is not payload"
    return some (.result (String.ofList id) payload)
  else if msgType = 4 then
    let code ← (← index frame 2) |> asString "third field is not error code"
    let desc ← (← index frame 3) |> asString "fourth field is not error description"
    let details ← (← index frame 4) |> asMap "fifth field is not error details"
    return some (.error (String.ofList id) (String.ofList code) (String.ofList desc) details)
  else
    return none

/-- ws/conn.go:116-162 `UnmarshalMessage`.  Decoding `null` into the slice leaves it nil. -/
def unmarshalMessage (t : Text) : GoRes (Option (Msg Payload)) :=
  match parse t with
  | none => .err "on unmarshalling websocket message"
  | some .null => readFrame []
  | some (.arr vs) =>
    match toAnys vs with
    | some frame => readFrame frame
    | none => .err "on unmarshalling websocket message"
  | some _ => .err "on unmarshalling websocket message"

/-! ### Requests and responses -/

/-- A request object: its Go type and its value. -/
structure Req where
  type : ReqType
  val : Val

/-- A response object. -/
structure Resp where
  type : RespType
  val : Val

/-- ws/conn.go:226-240 `callToRequest`.  The GenericError branch (conn.go:231-234) is left out:
`json.Marshal` does not fail on a map that came out of `json.Unmarshal`.  A panicking decoder (there is
none, C04) would be reported as FormationViolation here. -/
def callToRequest (F : FloatFmt) (o : Order) (action : String) (p : Payload) : Except String Req :=
  match reqFromAction action.toList with
  | none => .error "NotSupported"
  | some r =>
    match decode o r.ty (anyText F (.obj p)) with
    | .ok v => .ok ⟨r, v⟩
    | _ => .error "FormationViolation"

/-- ws/conn.go:251-260, the rest of `callResultToResponse` for the action of the call that was sent.
`FromActionName` is nil for an action it does not know, and so is the receiver of `GetResponse`. -/
def resultToResponse (F : FloatFmt) (o : Order) (action : String) (p : Payload) : GoRes Resp :=
  match reqFromAction action.toList with
  | none => .panic "invalid memory address or nil pointer dereference"
  | some r =>
    match decode o r.response.ty (anyText F (.obj p)) with
    | .ok v => .ok ⟨r.response, v⟩
    | .err _ => .err "FormationViolation"
    | .panic m => .panic m

/-! ### Sending -/

/-- `json.Marshal(msg)` (ws/conn.go:269) of a message whose MarshalJSON marshals the slice of these
elements (ws/message.go:47, 71, 131). -/
def frameText (parts : List (GoRes Text)) : GoRes Text :=
  (joinElems parts ['[']).bind fun t =>
    match compact t with
    | some t' => .ok t'
    | none => .err "json: error calling MarshalJSON"

/-- The message type number (ws/message.go:13-17, a float64). -/
def typeText (F : FloatFmt) (q : ℚ) : GoRes Text := .ok (rawOfLit (F.fmt q)).text

/-- ws/message.go:46-48 `(*CallMessage).MarshalJSON`. -/
def callText (F : FloatFmt) (id action : String) (p : Payload) : GoRes Text :=
  frameText [typeText F 2, .ok (quote id.toList), .ok (quote action.toList), .ok (anyText F (.obj p))]

/-- ws/message.go:141-152 `UnmarshalRequest`: the payload of a request, through its JSON text. -/
def requestPayload (F : FloatFmt) (r : Req) : GoRes Payload :=
  (marshal F r.type.ty r.val).bind fun t =>
    match parse t with
    | some (.obj ms) =>
      match toEntries ms [] with
      | some m => .ok m
      | none => .err "json: cannot unmarshal number into float64"
    | _ => .err "json: cannot unmarshal into map"

/-- ws/conn.go:291 and 269: a request as a frame. -/
def encCall (F : FloatFmt) (id : String) (r : Req) : GoRes Text :=
  (requestPayload F r).bind fun p => callText F id (String.ofList r.type.action) p

/-- ws/message.go:130-132 `(*CallErrorMessage).MarshalJSON`; the details of an error made by the library
are the empty map (message.go:114-121). -/
def errorText (F : FloatFmt) (id code desc : String) : GoRes Text :=
  frameText [typeText F 4, .ok (quote id.toList), .ok (quote code.toList), .ok (quote desc.toList), .ok (anyText F (.obj []))]

/-- ws/message.go:134-139 `unmarshalResponse` and 70-72 `(*CallResultMessage).MarshalJSON`: the reply to a
call, from the handler's response (`none` is nil) and error. -/
def encReply (F : FloatFmt) (id : String) (resp : Option Resp) (err : Option String) : GoRes Text :=
  match err with
  | some e => errorText F id "InternalError" e
  | none =>
    match resp with
    | some r => frameText [typeText F 3, .ok (quote id.toList), marshal F r.type.ty r.val]
    | none => frameText [typeText F 3, .ok (quote id.toList), .ok ['n', 'u', 'l', 'l']]

/-- ws/conn.go:203 the refusal of a call.  (`errorText` never fails.) -/
def encRefusal (F : FloatFmt) (id code : String) : Text :=
  match errorText F id code "on handling message" with
  | .ok t => t
  | _ => []

/-- The meaning of texts on a connection served by the loop of `side`. -/
def ocppj (F : FloatFmt) (o : Order) (side : Side) : Sem where
  Frame := Text
  Req := Req
  Resp := Resp
  Pay := Payload
  read := fun t => unmarshalMessage (normalise t)
  toRequest := callToRequest F o
  toResponse := resultToResponse F o
  encCall := encCall F
  encReply := encReply F
  encRefusal := encRefusal F
  action := fun r => String.ofList r.type.action
  mine := fun r =>
    match side with
    | .cs => r.type.isChargePoint
    | .cp => !r.type.isChargePoint

end Ocppj
end Verif
