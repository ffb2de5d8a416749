import Verif.Model.Ocppj
import Verif.Spec.Decode
/-!
# OCPP-J frames: the shape of frames

What the OCPP-J specification says about frames, on the level of JSON values, plus the meaning of the
untyped values in which payloads are kept.
-/
namespace Verif.Ocppj

/-- The number literal denotes (after rounding to float64) this number. -/
def IsNum (l : NumLit) (q : ℚ) : Prop := fl64 l.value = some q

mutual
/-- No number in the value is beyond the range of float64. -/
def InRange : JVal → Prop
  | .num l => ∃ q, IsNum l q
  | .arr vs => InRanges vs
  | .obj ms => InRangeMembers ms
  | _ => True
/-- The same for all elements. -/
def InRanges : List JVal → Prop
  | [] => True
  | v :: vs => InRange v ∧ InRanges vs
/-- The same for all members. -/
def InRangeMembers : List (Text × JVal) → Prop
  | [] => True
  | (_, v) :: ms => InRange v ∧ InRangeMembers ms
end

/-- `Holds j a`: the untyped value `a` is what the JSON value `j` means: numbers are rounded to float64; of
several members of one name the last one counts; a map lists its names in order. -/
inductive Holds : JVal → GoAny → Prop where
  | null : Holds .null .nil
  | bool {b} : Holds (.bool b) (.bool b)
  | str {s} : Holds (.str s) (.str s)
  | num {l q} : IsNum l q → Holds (.num l) (.num q)
  | arr {vs as} : vs.length = as.length → (∀ (i : Nat) v a, vs[i]? = some v → as[i]? = some a → Holds v a) →
      Holds (.arr vs) (.arr as)
  | obj {ms p} : (p.map Prod.fst).Pairwise (fun a b => keyLt a b = true) →
      (∀ k a j, p.lookup k = some a → lastVal ms k = some j → Holds j a) →
      (∀ k, (p.lookup k).isSome = (lastVal ms k).isSome) → InRangeMembers ms → Holds (.obj ms) (.obj p)

/-- The elements of a frame, and the message they are.  Elements after the last one that counts are
ignored. -/
inductive Shape : List JVal → Msg Payload → Prop where
  | call {l id a ms p rest} : IsNum l 2 → Holds (.obj ms) (.obj p) →
      Shape (.num l :: .str id :: .str a :: .obj ms :: rest) (.call (String.ofList id) (String.ofList a) p)
  | result {l id ms p rest} : IsNum l 3 → Holds (.obj ms) (.obj p) →
      Shape (.num l :: .str id :: .obj ms :: rest) (.result (String.ofList id) p)
  | error {l id c d ms p rest} : IsNum l 4 → Holds (.obj ms) (.obj p) →
      Shape (.num l :: .str id :: .str c :: .str d :: .obj ms :: rest)
        (.error (String.ofList id) (String.ofList c) (String.ofList d) p)

/-- The frames that crash the reader: `null`; arrays that end, with all elements so far of the right type,
before the last element that the message kind needs; arrays with an unknown message type number. -/
inductive Crashing : JVal → Prop where
  | null : Crashing .null
  | noType : Crashing (.arr [])
  | noId {l} : Crashing (.arr [.num l])
  | unknown {l q id rest} : IsNum l q → q ≠ 2 → q ≠ 3 → q ≠ 4 → Crashing (.arr (.num l :: .str id :: rest))
  | call1 {l id} : IsNum l 2 → Crashing (.arr [.num l, .str id])
  | call2 {l id a} : IsNum l 2 → Crashing (.arr [.num l, .str id, .str a])
  | result1 {l id} : IsNum l 3 → Crashing (.arr [.num l, .str id])
  | error1 {l id} : IsNum l 4 → Crashing (.arr [.num l, .str id])
  | error2 {l id c} : IsNum l 4 → Crashing (.arr [.num l, .str id, .str c])
  | error3 {l id c d} : IsNum l 4 → Crashing (.arr [.num l, .str id, .str c, .str d])

/-- The JSON values that are no frames: no array (nor `null`), or an array with an element of the wrong
type, where the elements before it are all right. -/
inductive Malformed : JVal → Prop where
  | notArray {j} : j ≠ .null → (∀ vs, j ≠ .arr vs) → Malformed j
  | type {v rest} : (∀ l, v ≠ .num l) → Malformed (.arr (v :: rest))
  | id {l v rest} : (∀ s, v ≠ .str s) → Malformed (.arr (.num l :: v :: rest))
  | action {l id v rest} : IsNum l 2 → (∀ s, v ≠ .str s) → Malformed (.arr (.num l :: .str id :: v :: rest))
  | payload {l id a v rest} : IsNum l 2 → (∀ ms, v ≠ .obj ms) → Malformed (.arr (.num l :: .str id :: .str a :: v :: rest))
  | result {l id v rest} : IsNum l 3 → (∀ ms, v ≠ .obj ms) → Malformed (.arr (.num l :: .str id :: v :: rest))
  | code {l id v rest} : IsNum l 4 → (∀ s, v ≠ .str s) → Malformed (.arr (.num l :: .str id :: v :: rest))
  | desc {l id c v rest} : IsNum l 4 → (∀ s, v ≠ .str s) → Malformed (.arr (.num l :: .str id :: .str c :: v :: rest))
  | details {l id c d v rest} : IsNum l 4 → (∀ ms, v ≠ .obj ms) →
      Malformed (.arr (.num l :: .str id :: .str c :: .str d :: v :: rest))

end Verif.Ocppj

namespace Verif.Ocppj

mutual
/-- The JSON value that is written for an untyped value. -/
def jsonOf (F : FloatFmt) : GoAny → JVal
  | .nil => .null
  | .bool b => .bool b
  | .num q => .num (F.fmt q)
  | .str s => .str s
  | .arr vs => .arr (jsonOfs F vs)
  | .obj ms => .obj (jsonOfEntries F ms)
/-- Elements. -/
def jsonOfs (F : FloatFmt) : List GoAny → List JVal
  | [] => []
  | v :: vs => jsonOf F v :: jsonOfs F vs
/-- Members. -/
def jsonOfEntries (F : FloatFmt) : List (Text × GoAny) → List (Text × JVal)
  | [] => []
  | (k, v) :: ms => (k, jsonOf F v) :: jsonOfEntries F ms
end

end Verif.Ocppj
