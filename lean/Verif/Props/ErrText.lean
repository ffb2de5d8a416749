import Verif.Model.SendErr
/-!
# The text of the error of a peer of another implementation: C96, continued

The library itself sends `CallError`s without details.  Another implementation may send any; this is
how they are shown in the text of the error that `Send` returns (ws/message.go:110-112 and Go's `fmt`).
-/
namespace Verif.Ocppj
open Json Codec Conn

/-- `t` is how Go's `fmt` shows the value under `%s`: strings as they are, null as `<nil>`, truth values and numbers (`V` is the text
of a number under `%v`) marked as not being strings, lists in brackets, objects as `map[key:value ...]`, in their order. -/
inductive Shown (V : ℚ → Text) : GoAny → Text → Prop where
  | null : Shown V .nil ['<', 'n', 'i', 'l', '>']
  | true : Shown V (.bool true) ['%', '!', 's', '(', 'b', 'o', 'o', 'l', '=', 't', 'r', 'u', 'e', ')']
  | false : Shown V (.bool false) ['%', '!', 's', '(', 'b', 'o', 'o', 'l', '=', 'f', 'a', 'l', 's', 'e', ')']
  | num (q : ℚ) : Shown V (.num q) (['%', '!', 's', '(', 'f', 'l', 'o', 'a', 't', '6', '4', '='] ++ V q ++ [')'])
  | str (s : Text) : Shown V (.str s) s
  | arr (vs : List GoAny) (ts : List Text) : ts.length = vs.length →
      (∀ (i : Nat) v t, vs[i]? = some v → ts[i]? = some t → Shown V v t) →
      Shown V (.arr vs) ('[' :: ([' '].intercalate ts ++ [']']))
  | obj (ms : List (Text × GoAny)) (ts : List Text) : ts.length = ms.length →
      (∀ (i : Nat) k v t, ms[i]? = some (k, v) → ts[i]? = some t → Shown V v t) →
      Shown V (.obj ms) (['m', 'a', 'p', '['] ++ ([' '].intercalate (List.zipWith (fun m t => m.1 ++ ':' :: t) ms ts) ++ [']']))

theorem intercalate_cons2 (x y : Text) (l : List Text) : [' '].intercalate (x :: y :: l) = x ++ ' ' :: [' '].intercalate (y :: l) := by
  simp [List.intercalate, List.intersperse]

theorem elems_eq (V : ℚ → Text) : ∀ vs, sprintElems V vs = [' '].intercalate (vs.map (sprintS V))
  | [] => by simp [sprintElems, List.intercalate]
  | [v] => by simp [sprintElems, List.intercalate]
  | v :: w :: vs => by
    rw [List.map_cons, List.map_cons, intercalate_cons2, ← List.map_cons, ← elems_eq V (w :: vs)]
    conv => lhs; unfold sprintElems

theorem entries_eq (V : ℚ → Text) : ∀ ms, sprintEntries V ms = [' '].intercalate (ms.map fun m => m.1 ++ ':' :: sprintS V m.2)
  | [] => by simp [sprintEntries, List.intercalate]
  | [(k, v)] => by simp [sprintEntries, List.intercalate]
  | (k, v) :: w :: ms => by
    rw [List.map_cons, List.map_cons, intercalate_cons2, ← List.map_cons (f := fun m : Text × GoAny => m.1 ++ ':' :: sprintS V m.2), ← entries_eq V (w :: ms)]
    conv => lhs; unfold sprintEntries
    simp

theorem map_of_shown {α : Type} {f : α → Text} {vs : List α} {ts : List Text} (hl : ts.length = vs.length)
    (h : ∀ (i : Nat) v t, vs[i]? = some v → ts[i]? = some t → t = f v) : ts = vs.map f := by
  refine List.ext_getElem (by simpa using hl) fun i h1 h2 => ?_
  have h3 : i < vs.length := by simpa using h2
  simpa using h i _ _ (List.getElem?_eq_getElem h3) (List.getElem?_eq_getElem h1)

section
variable (V : ℚ → Text)
theorem s_nil : sprintS V .nil = ['<', 'n', 'i', 'l', '>'] := by
  unfold sprintS; rw [show "<nil>".toList = ['<', 'n', 'i', 'l', '>'] by decide]
theorem s_true : sprintS V (.bool true) = ['%', '!', 's', '(', 'b', 'o', 'o', 'l', '=', 't', 'r', 'u', 'e', ')'] := by
  unfold sprintS
  rw [show "%!s(bool=".toList = ['%', '!', 's', '(', 'b', 'o', 'o', 'l', '='] by decide, if_pos rfl, show "true".toList = ['t', 'r', 'u', 'e'] by decide]
  simp only [List.cons_append, List.nil_append]
theorem s_false : sprintS V (.bool false) = ['%', '!', 's', '(', 'b', 'o', 'o', 'l', '=', 'f', 'a', 'l', 's', 'e', ')'] := by
  unfold sprintS
  rw [show "%!s(bool=".toList = ['%', '!', 's', '(', 'b', 'o', 'o', 'l', '='] by decide, if_neg (by simp), show "false".toList = ['f', 'a', 'l', 's', 'e'] by decide]
  simp only [List.cons_append, List.nil_append]
theorem s_num (q : ℚ) : sprintS V (.num q) = ['%', '!', 's', '(', 'f', 'l', 'o', 'a', 't', '6', '4', '='] ++ V q ++ [')'] := by
  unfold sprintS; rw [show "%!s(float64=".toList = ['%', '!', 's', '(', 'f', 'l', 'o', 'a', 't', '6', '4', '='] by decide]
theorem s_str (t : Text) : sprintS V (.str t) = t := by unfold sprintS; rfl
theorem s_arr (vs : List GoAny) : sprintS V (.arr vs) = '[' :: ([' '].intercalate (vs.map (sprintS V)) ++ [']']) := by
  rw [← elems_eq]; conv => lhs; unfold sprintS
theorem s_obj (ms : List (Text × GoAny)) :
    sprintS V (.obj ms) = ['m', 'a', 'p', '['] ++ ([' '].intercalate (ms.map fun m => m.1 ++ ':' :: sprintS V m.2) ++ [']']) := by
  rw [← entries_eq]; conv => lhs; unfold sprintS
  rw [show "map[".toList = ['m', 'a', 'p', '['] by decide]
end

theorem Shown.eq {V : ℚ → Text} {v : GoAny} {t : Text} (h : Shown V v t) : t = sprintS V v := by
  induction h with
  | null => rw [s_nil]
  | true => rw [s_true]
  | false => rw [s_false]
  | num q => rw [s_num]
  | str => rw [s_str]
  | arr vs ts hl _ ih => rw [s_arr, map_of_shown hl ih]
  | obj ms ts hl _ ih =>
    have := map_of_shown (f := fun m : Text × GoAny => sprintS V m.2) hl (fun i m t hm ht => ih i m.1 m.2 t hm ht)
    rw [s_obj]
    subst this
    rw [List.zipWith_map_right, List.zipWith_self]

mutual
theorem shown (V : ℚ → Text) : ∀ v, Shown V v (sprintS V v)
  | .nil => by rw [s_nil]; exact .null
  | .bool true => by rw [s_true]; exact .true
  | .bool false => by rw [s_false]; exact .false
  | .num q => by rw [s_num]; exact .num q
  | .str s => by rw [s_str]; exact .str s
  | .arr vs => by
    rw [s_arr]
    refine .arr vs _ (by simp) fun i v t hv ht => ?_
    rw [List.getElem?_map, hv] at ht
    cases ht
    exact showns V vs v (List.mem_of_getElem? hv)
  | .obj ms => by
    rw [s_obj]
    have := Shown.obj (V := V) ms (ms.map fun m => sprintS V m.2) (by simp) (fun i k v t hv ht => by
      rw [List.getElem?_map, hv] at ht
      cases ht
      exact shownm V ms (k, v) (List.mem_of_getElem? hv))
    rwa [List.zipWith_map_right, List.zipWith_self] at this
theorem showns (V : ℚ → Text) : ∀ vs : List GoAny, ∀ v ∈ vs, Shown V v (sprintS V v)
  | [], _, h => by cases h
  | w :: vs, v, h => by
    have h1 := shown V w
    have h2 := showns V vs
    rcases List.mem_cons.1 h with h | h
    · rw [h]; exact h1
    · exact h2 v h
theorem shownm (V : ℚ → Text) : ∀ ms : List (Text × GoAny), ∀ m ∈ ms, Shown V m.2 (sprintS V m.2)
  | [], _, h => by cases h
  | (k, w) :: ms, m, h => by
    have h1 := shown V w
    have h2 := shownm V ms
    rcases List.mem_cons.1 h with h | h
    · rw [h]; exact h1
    · exact h2 m h
end

/-- **C96** The text of the error for a `CallError` of any peer: code, description, and the details as an object is shown. -/
theorem C96_details (V : ℚ → Text) {F : FloatFmt} {o : Order} {side : Side} (code desc : String) (details : Payload) (t : Text) :
    answerError V (F := F) (o := o) (side := side) (.callErr code desc details) = some t ↔
    ∃ d, Shown V (.obj details) d ∧ t = ['['] ++ code.toList ++ [']', ' '] ++ desc.toList ++ [':', ' '] ++ d := by
  simp only [answerError, callErrorText, Option.some.injEq]
  constructor
  · rintro rfl; exact ⟨_, shown V _, by simp⟩
  · rintro ⟨d, hd, rfl⟩; rw [hd.eq]; simp

/-- `[C] d: map[a:%!s(bool=true) b:[<nil> x]]`. -/
example (V : ℚ → Text) {F : FloatFmt} {o : Order} {side : Side} :
    answerError V (F := F) (o := o) (side := side) (.callErr "C" "d" [(['a'], .bool true), (['b'], .arr [.nil, .str ['x']])]) =
      some "[C] d: map[a:%!s(bool=true) b:[<nil> x]]".toList := by
  rw [C96_details]
  refine ⟨_, shown V _, ?_⟩
  simp only [s_obj, s_arr, s_true, s_nil, s_str, List.map_cons, List.map_nil, List.intercalate, List.intersperse]
  decide

end Verif.Ocppj
