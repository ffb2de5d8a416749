import Verif.Spec.JSchemas
import Verif.Spec.Message
/-!
# Which messages conform to the schemas, in terms of their Go values
-/
namespace Verif

/-- The schema file of a message type. -/
def MsgType.jschema : MsgType → JSchema
  | .req r => r.jschema
  | .resp r => r.jschema

/-- The field is not written. -/
def LeftOut (m : Mode) (v : Val) : Prop := (m = .omitNil ∧ v.isNil = true) ∨ (m = .omitEmpty ∧ v.isEmpty = true)

mutual
/-- Every string in the value is allowed by the schema (its enumeration and length), and every list and object that is
written is there (not nil). -/
def Sound : Ty → JSchema → Val → Prop
  | .ptr t, sch, .ptr v => Sound t sch v
  | .str, .str en ml, .str s => StrOk en ml s
  | .slice t, .arr it, .slice vs => ∀ v ∈ vs, Sound t it v
  | .struct info ts, .obj props _ _, .struct vs => SoundFields info info.fields ts props vs
  | .ptr _, _, .nil => False
  | .slice _, _, .nil => False
  | _, _, _ => True
/-- The same for the fields of a struct: left out, or sound. -/
def SoundFields (info : StructInfo) : List FieldInfo → List Ty → List (Text × JSchema) → List Val → Prop
  | f :: fs, t :: ts, props, v :: vs =>
    (LeftOut (fieldMode info f t) v ∨ ∀ sch, (f.json, sch) ∈ props → Sound t sch v) ∧ SoundFields info fs ts props vs
  | _, _, _, _ => True
end

end Verif
