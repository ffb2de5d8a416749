import Verif.Model.Ocppj
import Verif.Model.Conn
/-!
# The texts of the errors of Send

`err.Error()` for the errors that `SendRequest` returns after its request was written (ws/conn.go:301-311; the services pass them
on unchanged: internal/service/json.go:26-28, cp.go:42-46, cs.go:42-46), with the part of Go's `fmt` that prints them.
-/
namespace Verif.Ocppj
open Json Codec Conn

mutual
/-- A value printed by `fmt` with the verb `%s` inside a `map[string]interface{}` (fmt/print.go `printValue`): strings as they are, nil
as `<nil>`, lists in brackets, maps in key order; for a bool or a float64 the verb is wrong, and `badVerb` prints type and value.
`V` is the text of a float64 under `%v` (not modelled further). -/
def sprintS (V : ℚ → Text) : GoAny → Text
  | .nil => "<nil>".toList
  | .bool b => "%!s(bool=".toList ++ (if b then "true".toList else "false".toList) ++ [')']
  | .num q => "%!s(float64=".toList ++ V q ++ [')']
  | .str s => s
  | .arr vs => '[' :: (sprintElems V vs ++ [']'])
  | .obj ms => "map[".toList ++ (sprintEntries V ms ++ [']'])
/-- Elements, separated by spaces. -/
def sprintElems (V : ℚ → Text) : List GoAny → Text
  | [] => []
  | v :: vs =>
    match vs with
    | [] => sprintS V v
    | _ => sprintS V v ++ ' ' :: sprintElems V vs
/-- Entries, separated by spaces. -/
def sprintEntries (V : ℚ → Text) : List (Text × GoAny) → Text
  | [] => []
  | (k, v) :: ms =>
    match ms with
    | [] => k ++ ':' :: sprintS V v
    | _ => k ++ ':' :: (sprintS V v ++ ' ' :: sprintEntries V ms)
end

/-- ws/message.go:110-112 `(*CallErrorMessage).Error`: `fmt.Sprintf("[%s] %s: %s", code, description, details)`.  (The code is an
`ErrorCode`, whose `Error` method, message.go:99-101, gives the code itself.) -/
def callErrorText (V : ℚ → Text) (code desc : String) (details : Payload) : Text :=
  '[' :: (code.toList ++ (']' :: ' ' :: (desc.toList ++ (':' :: ' ' :: sprintS V (.obj details)))))

/-- The text of the error `SendRequest` returns for what it received (conn.go:305-308): none for a response; a code is its own text
(message.go:99-101). -/
def answerError (V : ℚ → Text) {F : FloatFmt} {o : Order} {side : Side} : Answer (ocppj F o side) → Option Text
  | .resp _ => none
  | .code c => some c.toList
  | .callErr c d x => some (callErrorText V c d x)

/-- conn.go:310 -/
def timeoutText : Text := "request timeout exceeded".toList

end Verif.Ocppj
