import Verif.Spec.Json
/-!
# JSON schemas

The fragment of JSON schema draft 4 that matters for the shape of OCPP messages.
-/
namespace Verif

/-- Types, properties (in the order of the schema), required names and whether further properties
are forbidden (`"additionalProperties": false`). -/
inductive Schema where
  | str
  | int
  | num
  | bool
  | arr (items : Schema)
  | obj (props : List (Text × Schema)) (required : List Text) (closed : Bool)
  deriving Repr

end Verif
