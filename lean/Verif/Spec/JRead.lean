import Verif.Spec.Conform
import Verif.Spec.Frame
import Verif.Spec.Calendar
/-!
# What becomes of the properties of a payload that is valid against its schema file
-/
namespace Verif.Ocppj

/-- The number, rounded to float64, is an integer in the range of the field (except for -2^63). -/
def IntFits (b : Nat) (l : NumLit) (k : ℤ) : Prop := IsNum l (k : ℚ) ∧ -(2 ^ (b - 1)) ≤ k ∧ k < 2 ^ (b - 1) ∧ k ≠ -(2 ^ 63)

/-- `Lax sch j`: the JSON value is valid against the schema up to the enumerations and lengths of strings, with numbers for integers,
and with `null` for any value; of several properties of one name only the last one counts. -/
inductive Lax : JSchema → JVal → Prop where
  | null {sch} : Lax sch .null
  | str {en ml s} : Lax (.str en ml) (.str s)
  | int {l} : Lax .int (.num l)
  | num {l} : Lax .num (.num l)
  | bool {b} : Lax .bool (.bool b)
  | arr {it js} : (∀ j ∈ js, Lax it j) → Lax (.arr it) (.arr js)
  | obj {props required closed ms} : (∀ k sch j, (k, sch) ∈ props → lastVal ms k = some j → Lax sch j) →
      (∀ k ∈ required, k ∈ ms.map Prod.fst) → (closed = true → ∀ k ∈ ms.map Prod.fst, k ∈ props.map Prod.fst) →
      Lax (.obj props required closed) (.obj ms)

/-- `Gets f t sch j v`: the Go value `v` of type `t` has taken over the JSON value `j` with schema `sch`.  Every property of the
schema has a field of its name; a field has the (last) property of its name, and is zero if there is none, if it is
`null`, or if the schema does not list it.  `f` is what becomes of the integers. -/
inductive Gets (f : ℤ → ℤ) : Ty → JSchema → JVal → Val → Prop where
  | null {t sch} : Gets f t sch .null (zeroVal t)
  | str {sch s} : Gets f .str sch (.str s) (.str s)
  | bool {sch b} : Gets f .bool sch (.bool b) (.bool b)
  | float {sch l q} : IsNum l q → Gets f .float sch (.num l) (.float (.fin q))
  | int {sch b l k} : IntFits b l k → Gets f (.int b) sch (.num l) (.int (f k))
  | time {sch s g} {st : Cal.Stamp} : st.Valid → st.Spelled s → st.Denotes g → Gets f .time sch (.str s) (.time g)
  | ptr {t sch j v} : j ≠ .null → Gets f t sch j v → Gets f (.ptr t) sch j (.ptr v)
  | slice {t it js vs} : js.length = vs.length → (∀ (i : Nat) j v, js[i]? = some j → vs[i]? = some v → Gets f t it j v) →
      Gets f (.slice t) (.arr it) (.arr js) (.slice vs)
  | struct {info ts props required closed ms vs} : vs.length = ts.length →
      (∀ k ∈ props.map Prod.fst, ∃ fl ∈ info.fields, fl.json = k) →
      (∀ (i : Nat) fl t v sch j, info.fields[i]? = some fl → ts[i]? = some t → vs[i]? = some v → (fl.json, sch) ∈ props →
        lastVal ms fl.json = some j → Gets f t sch j v) →
      (∀ (i : Nat) fl t v, info.fields[i]? = some fl → ts[i]? = some t → vs[i]? = some v →
        (fl.json ∉ props.map Prod.fst ∨ lastVal ms fl.json = none) → v = zeroVal t) →
      Gets f (.struct info ts) (.obj props required closed) (.obj ms) (.struct vs)

/-- `Part t sch j t' j'`: when `j` is read as a `t`, then `j'` is read as the scalar `t'`. -/
inductive Part : Ty → JSchema → JVal → Ty → JVal → Prop where
  | str {sch j} : Part .str sch j .str j
  | bool {sch j} : Part .bool sch j .bool j
  | float {sch j} : Part .float sch j .float j
  | int {b sch j} : Part (.int b) sch j (.int b) j
  | time {sch j} : Part .time sch j .time j
  | ptr {t sch j t' j'} : Part t sch j t' j' → Part (.ptr t) sch j t' j'
  | item {t it js j t' j'} : j ∈ js → Part t it j t' j' → Part (.slice t) (.arr it) (.arr js) t' j'
  | prop {info ts props required closed ms} {i : Nat} {fl t sch j t' j'} : info.fields[i]? = some fl → ts[i]? = some t →
      (fl.json, sch) ∈ props → lastVal ms fl.json = some j → Part t sch j t' j' →
      Part (.struct info ts) (.obj props required closed) (.obj ms) t' j'

/-- A JSON value of the right kind that the library takes: a number that fits the integer field, a time stamp of RFC 3339 (as far as the library
follows it, C62).  Every other value is taken. -/
def Takable : Ty → JVal → Prop
  | .int b, .num l => ∃ k, IntFits b l k
  | .time, .str s => ∃ (st : Cal.Stamp) (g : GoTime), st.Valid ∧ st.Spelled s ∧ st.Denotes g
  | _, _ => True

end Verif.Ocppj
