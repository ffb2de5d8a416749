import Verif.Spec.SoapSent
/-!
# The element of a message, exactly

What is written for a value: an element for each field that is not left out, in the order of the fields.  `om` is the `omitempty` of
the field.
-/
namespace Verif.Soap
open Xml

/-- What a field tagged `omitempty` is left out for. -/
def Blank : Val → Bool
  | .str s => s.isEmpty
  | .int n => n == 0
  | .float (.fin q) => q == 0
  | .bool b => !b
  | .nil => true
  | .slice vs => vs.isEmpty
  | _ => false

/-- The text of a scalar; floats as `strconv` spells them, times in RFC 3339 with the fraction of the second. -/
def scalarText (G : FloatText) : Val → Text
  | .str s => s
  | .int n => Codec.intText n
  | .float (.fin q) => G.fmt q
  | .float .nan => "NaN".toList
  | .float (.inf neg) => if neg then "-Inf".toList else "+Inf".toList
  | .bool b => if b then "true".toList else "false".toList
  | .time t => t.formatNano
  | _ => []

mutual
/-- The elements for a field of a type, with a name in a name space. -/
def render (G : FloatText) (D : Text) : Ty → Text → Bool → Val → List Info
  | .ptr t, n, _, v =>
    match v with
    | .ptr v => render G D t n false v
    | _ => []
  | .slice t, n, om, v =>
    match v with
    | .slice vs => vs.flatMap (render G D t n om)
    | _ => []
  | .struct info ts, n, _, v =>
    match v with
    | .struct vs => [.elem ⟨D, n⟩ (renderAttrs G info.fields vs) (renderData G info.fields vs) (renderFields G D info.fields ts vs)]
    | _ => []
  | _, n, om, v => if om = true ∧ Blank v = true then [] else [.elem ⟨D, n⟩ [] (cleanText (scalarText G v)) []]
/-- The child elements of a struct. -/
def renderFields (G : FloatText) (D : Text) : List FieldInfo → List Ty → List Val → List Info
  | f :: fs, t :: ts, v :: vs =>
    (match f.xmlKind with | .elem => render G D t f.xml f.xmlOmit v | _ => []) ++ renderFields G D fs ts vs
  | _, _, _ => []
/-- Its attributes. -/
def renderAttrs (G : FloatText) : List FieldInfo → List Val → List (XName × Text)
  | f :: fs, v :: vs =>
    (if f.xmlKind = .attr ∧ ¬ (f.xmlOmit = true ∧ Blank v = true) then [(⟨[], f.xml⟩, cleanText (scalarText G v))] else []) ++
      renderAttrs G fs vs
  | _, _ => []
/-- Its character data. -/
def renderData (G : FloatText) : List FieldInfo → List Val → Text
  | f :: fs, v :: vs => (if f.xmlKind = .chardata then cleanText (scalarText G v) else []) ++ renderData G fs vs
  | _, _ => []
end

/-- The element of a message. -/
def rendered (G : FloatText) (m : MsgType) (v : Val) : Info :=
  match m.ty, v with
  | .struct info ts, .struct vs =>
    .elem (nameOf m.ty) (renderAttrs G info.fields vs) (renderData G info.fields vs) (renderFields G (nameOf m.ty).space info.fields ts vs)
  | _, _ => .elem (nameOf m.ty) [] [] []

end Verif.Soap
