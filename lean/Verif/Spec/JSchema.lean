import Verif.Spec.Json
/-!
# JSON schemas with enumerations and lengths

The fragment of JSON schema draft 4 used by the files of ws/json, but for `format` and `multipleOf`.
-/
namespace Verif

/-- A schema: strings with `enum` and `maxLength`; properties, `required` and whether further properties are forbidden. -/
inductive JSchema where
  | str (enum : Option (List Text)) (maxLen : Option Nat)
  | int
  | num
  | bool
  | arr (items : JSchema)
  | obj (props : List (Text × JSchema)) (required : List Text) (closed : Bool)

/-- What a schema demands of a string. -/
def StrOk (enum : Option (List Text)) (maxLen : Option Nat) (s : Text) : Prop :=
  (∀ l, enum = some l → s ∈ l) ∧ (∀ n, maxLen = some n → s.length ≤ n)

/-- `Conforms sch j`: the JSON value `j` is valid against the schema (JSON schema validation, draft 4). -/
inductive Conforms : JSchema → JVal → Prop where
  | str {en ml s} : StrOk en ml s → Conforms (.str en ml) (.str s)
  | int {l : NumLit} {n : ℤ} : l.value = n → Conforms .int (.num l)
  | num {l} : Conforms .num (.num l)
  | bool {b} : Conforms .bool (.bool b)
  | arr {it js} : (∀ j ∈ js, Conforms it j) → Conforms (.arr it) (.arr js)
  | obj {props required closed ms} : (∀ k sch j, (k, sch) ∈ props → (k, j) ∈ ms → Conforms sch j) →
      (∀ k ∈ required, k ∈ ms.map Prod.fst) → (closed = true → ∀ k ∈ ms.map Prod.fst, k ∈ props.map Prod.fst) →
      Conforms (.obj props required closed) (.obj ms)

end Verif
