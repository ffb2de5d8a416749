import Verif.Model.Codec
/-!
# What a message is after a trip over the wire

Times cut to whole seconds; nothing else changes.
-/
namespace Verif

mutual
/-- Every time in the value cut to whole seconds. -/
def Val.cutTimes : Val → Val
  | .time t => .time t.cut
  | .ptr v => .ptr v.cutTimes
  | .slice vs => .slice (Val.cutAll vs)
  | .struct vs => .struct (Val.cutAll vs)
  | v => v
/-- The same for a list. -/
def Val.cutAll : List Val → List Val
  | [] => []
  | v :: vs => v.cutTimes :: Val.cutAll vs
end

mutual
/-- A condition on every time in the value. -/
def Val.TimesAll (P : GoTime → Prop) : Val → Prop
  | .time t => P t
  | .ptr v => v.TimesAll P
  | .slice vs => Val.TimesAlls P vs
  | .struct vs => Val.TimesAlls P vs
  | _ => True
/-- The same for a list. -/
def Val.TimesAlls (P : GoTime → Prop) : List Val → Prop
  | [] => True
  | v :: vs => v.TimesAll P ∧ Val.TimesAlls P vs
end

end Verif

namespace Verif

mutual
/-- A condition on every integer in the value. -/
def Val.IntsAll (P : Int → Prop) : Val → Prop
  | .int n => P n
  | .ptr v => v.IntsAll P
  | .slice vs => Val.IntsAlls P vs
  | .struct vs => Val.IntsAlls P vs
  | _ => True
/-- The same for a list. -/
def Val.IntsAlls (P : Int → Prop) : List Val → Prop
  | [] => True
  | v :: vs => v.IntsAll P ∧ Val.IntsAlls P vs
end

end Verif

namespace Verif

mutual
/-- Every integer in the value replaced. -/
def Val.mapInts (f : Int → Int) : Val → Val
  | .int n => .int (f n)
  | .ptr v => .ptr (v.mapInts f)
  | .slice vs => .slice (Val.mapIntss f vs)
  | .struct vs => .struct (Val.mapIntss f vs)
  | v => v
/-- The same for a list. -/
def Val.mapIntss (f : Int → Int) : List Val → List Val
  | [] => []
  | v :: vs => v.mapInts f :: Val.mapIntss f vs
end

end Verif
