/-!
# Go maps with string keys

An association list without duplicate keys (`Verif.GoMap.WF`); iteration order is not part of the
meaning.
-/
namespace Verif

/-- `map[string]V`. -/
abbrev GoMap (V : Type) := List (String × V)

namespace GoMap
variable {V : Type}

/-- `m[k]` with the comma-ok flag. -/
def get (m : GoMap V) (k : String) : Option V :=
  match m with
  | [] => none
  | (k', v) :: m => if k' = k then some v else get m k

/-- `delete(m, k)`. -/
def del (m : GoMap V) (k : String) : GoMap V := m.filter (fun p => p.1 != k)

/-- `m[k] = v`. -/
def put (m : GoMap V) (k : String) (v : V) : GoMap V := (k, v) :: del m k

/-- No key twice. -/
def WF (m : GoMap V) : Prop := (m.map (·.1)).Nodup

theorem get_del (m : GoMap V) (k k' : String) :
    (m.del k).get k' = if k' = k then none else m.get k' := by
  induction m with
  | nil => simp [del, get]
  | cons p m ih =>
    simp only [del] at ih
    simp only [del, List.filter_cons]
    by_cases h : p.1 = k
    · simp only [h, bne_self_eq_false, Bool.false_eq_true, if_false, ih, get]
      by_cases hk : k' = k
      · simp [hk]
      · have : ¬ k = k' := fun h => hk h.symm
        simp [hk, this]
    · have hb : (p.1 != k) = true := by simpa using h
      simp only [hb, if_true, get, ih]
      by_cases hk : k' = k
      · subst hk; simp [h]
      · simp [hk]

theorem get_put (m : GoMap V) (k k' : String) (v : V) :
    (m.put k v).get k' = if k' = k then some v else m.get k' := by
  unfold put
  simp only [get]
  by_cases h : k = k'
  · simp [h]
  · have : ¬ k' = k := fun h' => h h'.symm
    simp [h, this, get_del]

theorem get_isSome (m : GoMap V) (k : String) : (m.get k).isSome ↔ k ∈ m.map (·.1) := by
  induction m with
  | nil => simp [get]
  | cons p m ih =>
    simp only [get, List.map_cons, List.mem_cons]
    by_cases h : p.1 = k
    · simp [h]
    · have : ¬ k = p.1 := fun h' => h h'.symm
      simp [h, this, ih]

theorem WF.nil : WF ([] : GoMap V) := by simp [WF]

theorem WF.del {m : GoMap V} (h : WF m) (k : String) : WF (m.del k) := by
  unfold WF GoMap.del at *
  exact List.Nodup.sublist (List.Sublist.map _ List.filter_sublist) h

theorem WF.put {m : GoMap V} (h : WF m) (k : String) (v : V) : WF (m.put k v) := by
  have := h.del k
  unfold WF GoMap.put at *
  simp only [List.map_cons, List.nodup_cons]
  refine ⟨?_, this⟩
  intro hm
  rw [← get_isSome, get_del] at hm
  simp at hm

end GoMap
end Verif
