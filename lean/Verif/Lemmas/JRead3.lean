import Verif.Lemmas.JRead2
/-! # What is read is valid, but for enumerations, lengths and nulls -/
set_option linter.unusedSimpArgs false
namespace Verif.Ocppj
open Json Codec Decode Encode Trip

mutual
/-- No struct is decoded by reflection. -/
def strict : Ty → Bool
  | .ptr t => strict t
  | .slice t => strict t
  | .struct info ts => !reflective info && stricts ts
  | _ => true
/-- The same for fields. -/
def stricts : List Ty → Bool
  | [] => true
  | t :: ts => strict t && stricts ts
end

set_option maxRecDepth 8000 in
theorem strict_msg (m : MsgType) : strict m.ty = !m.lenient := by
  cases m with
  | req r => cases r <;> decide
  | resp r => cases r <;> decide

theorem stricts_mem {ts : List Ty} (h : stricts ts = true) {t : Ty} (ht : t ∈ ts) : strict t = true := by
  induction ts with
  | nil => cases ht
  | cons t' ts ih =>
    simp only [stricts, Bool.and_eq_true] at h
    rcases List.mem_cons.1 ht with rfl | e
    · exact h.1
    · exact ih h.2 e

mutual
theorem lax_of_read (F : FloatFmt) (t : Ty) (sch : JSchema) (hfit : jfits t sch = true) (hst : strict t = true) (j : JVal) (a : GoAny)
    (hh : Holds j a) (v : Val) (h : read t (plain sch) (jsonOf F a) (zeroVal t) = some v) : Lax sch j := by
  by_cases hj0 : j = .null
  · subst hj0; exact .null
  match t with
  | .str =>
    cases sch <;> simp only [jfits, Bool.false_eq_true] at hfit
    cases hh <;> simp only [jsonOf, read, reduceCtorEq] at h
    · exact absurd rfl hj0
    · exact .str
  | .bool =>
    cases sch <;> simp only [jfits, Bool.false_eq_true] at hfit
    cases hh <;> simp only [jsonOf, read, reduceCtorEq] at h
    · exact absurd rfl hj0
    · exact .bool
  | .float =>
    cases sch <;> simp only [jfits, Bool.false_eq_true] at hfit
    cases hh <;> simp only [jsonOf, read, reduceCtorEq] at h
    · exact absurd rfl hj0
    · exact .num
  | .int b =>
    cases sch with
    | int =>
      cases hh <;> simp only [jsonOf, read, reduceCtorEq] at h
      · exact absurd rfl hj0
      · exact .int
    | _ => simp only [jfits, Bool.false_eq_true] at hfit
  | .time =>
    cases sch <;> simp only [jfits, Bool.false_eq_true] at hfit
    cases hh <;> simp only [jsonOf, read, reduceCtorEq] at h
    · exact absurd rfl hj0
    · exact .str
  | .ptr t =>
    have hnn := holds_notNull hj0 hh (F := F)
    have he : read (.ptr t) (plain sch) (jsonOf F a) (zeroVal (.ptr t)) = (read t (plain sch) (jsonOf F a) (zeroVal t)).map .ptr := by
      revert hnn
      cases jsonOf F a <;> intro hnn <;> first | exact absurd rfl hnn | rfl
    rw [he, Option.map_eq_some_iff] at h
    obtain ⟨w, h, -⟩ := h
    exact lax_of_read F t sch (by simpa [jfits] using hfit) (by simpa [strict] using hst) j a hh w h
  | .slice t =>
    cases sch with
    | arr it =>
      obtain ⟨hnt, hfit'⟩ : notStruct t = true ∧ jfits t it = true := by simpa [jfits] using hfit
      have ih := fun j a ha v h => lax_of_read F t it hfit' (by simpa [strict] using hst) j a ha v h
      cases hh with
      | arr hlen hall =>
        rename_i js as
        simp only [jsonOf, plain, read, Option.map_eq_some_iff, allSome_iff, jsonOfs_map] at h
        obtain ⟨vs, ⟨h1, h2⟩, -⟩ := h
        simp only [List.length_map] at h1
        refine .arr ?_
        intro j hj
        obtain ⟨i, hi⟩ := List.mem_iff_getElem?.1 hj
        have hil := (List.getElem?_eq_some_iff.1 hi).1
        obtain ⟨a, ha⟩ : ∃ a, as[i]? = some a := ⟨_, List.getElem?_eq_getElem (by omega)⟩
        obtain ⟨v, hv⟩ : ∃ a, vs[i]? = some a := ⟨_, List.getElem?_eq_getElem (by omega)⟩
        have := h2 i _ v (by rw [List.getElem?_map, List.getElem?_map, ha]; rfl) hv
        exact ih j a (hall i j a hi ha) v this
      | null => exact absurd rfl hj0
      | _ => simp only [jsonOf, plain, read, reduceCtorEq] at h
    | _ => simp only [jfits, Bool.false_eq_true] at hfit
  | .struct info ts =>
    cases sch with
    | obj props required closed =>
      simp only [jfits, Bool.and_eq_true, decide_eq_true_eq, List.all_eq_true, List.any_eq_true, beq_iff_eq, Bool.or_eq_true, Bool.not_eq_true'] at hfit
      obtain ⟨⟨⟨⟨hnp, hnf⟩, hall⟩, hre⟩, hfs⟩ := hfit
      obtain ⟨hlen, hget⟩ := jfitss_get hfs
      simp only [strict, Bool.and_eq_true, Bool.not_eq_true'] at hst
      have ih := lax_each F ts
      cases hh with
      | obj hs hl hsome hr =>
        rename_i ms p
        have hkeys : ∀ k, k ∈ (jsonOfEntries F p).map Prod.fst ↔ k ∈ ms.map Prod.fst := by
          intro k
          rw [← not_iff_not, ← lastVal_none, ← lastVal_none, lastVal_entries F hs, Option.map_eq_none_iff]
          have := hsome k
          cases h1 : p.lookup k <;> cases h2 : lastVal ms k <;> simp [h1, h2] at this ⊢
        simp only [jsonOf, plain, read, readStruct, zeroVal, hst.1, Bool.false_eq_true, if_false, Val.fields] at h
        split at h
        · rename_i hc
          rw [Option.map_eq_some_iff] at h
          obtain ⟨vs, h, -⟩ := h
          rw [readFields_iff (readers_length _ _ _ hlen) (by rw [zeroVals_length, hlen])] at h
          refine .obj ?_ (fun k hk => (hkeys k).1 (List.contains_iff_mem.1 (hc.2 k hk))) ?_
          · intro k s j hk hj
            obtain ⟨f, hf, e⟩ := hall _ hk
            simp only at e
            subst e
            obtain ⟨i, hi⟩ := List.mem_iff_getElem?.1 hf
            have hil := (List.getElem?_eq_some_iff.1 hi).1
            obtain ⟨t, ht⟩ : ∃ t, ts[i]? = some t := ⟨_, List.getElem?_eq_getElem (by omega)⟩
            have hlk := Conf.lookup_of_mem hnp hk
            obtain ⟨v', -, hp⟩ := h.2 i f _ _ hi (readers_get ht hi) (zeroVals_get ht)
            have := hsome f.json
            rw [hj] at this
            obtain ⟨a, ha⟩ := Option.isSome_iff_exists.1 this
            rw [plains_keys, if_pos (List.contains_iff_mem.2 (List.mem_map_of_mem (f := Prod.fst) hk)), plains_lookup, lastVal_entries F hs, ha, hlk] at hp
            simp only [Option.map_some, Option.getD_some, Picked] at hp
            exact ih t (List.mem_of_getElem? ht) s (hget i f t s hi ht hlk).1 (stricts_mem hst.2 (List.mem_of_getElem? ht)) j a (hl _ _ _ ha hj) v' hp
          · intro hcl k hk
            obtain ⟨x, hx, e⟩ := List.mem_map.1 ((hkeys k).2 hk)
            have := hc.1 hcl x hx
            rw [plains_keys, e] at this
            exact List.contains_iff_mem.1 this
        · cases h
      | null => exact absurd rfl hj0
      | _ => simp only [jsonOf, plain, read, readStruct, reduceCtorEq] at h
    | _ => simp only [jfits, Bool.false_eq_true] at hfit
  termination_by structural t
theorem lax_each (F : FloatFmt) (ts : List Ty) : ∀ t ∈ ts, ∀ (sch : JSchema) (_ : jfits t sch = true) (_ : strict t = true) (j : JVal) (a : GoAny)
    (_ : Holds j a) (v : Val) (_ : read t (plain sch) (jsonOf F a) (zeroVal t) = some v), Lax sch j := by
  match ts with
  | [] => exact fun t ht => by cases ht
  | t :: ts =>
    intro t' ht' sch hfit hst j a hh v h
    rcases List.mem_cons.1 ht' with e | e
    · rw [e] at hfit hst h
      exact lax_of_read F t sch hfit hst j a hh v h
    · exact lax_each F ts t' e sch hfit hst j a hh v h
  termination_by structural ts
end

end Verif.Ocppj
