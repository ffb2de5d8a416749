import Verif.Lemmas.Debug
import Verif.Lemmas.Json2
import Verif.Lemmas.Ocppj3
import Verif.Props.Frame
set_option linter.unusedSimpArgs false
namespace Verif
namespace Json

/-- What `compact` makes of the text, whatever follows, contains no newline. -/
def Clean (t : Text) : Prop := ∃ u, '\n' ∉ u ∧ ∀ r, compactGo false false (t ++ r) = u ++ compactGo false false r

theorem Clean.append {t t' : Text} (h : Clean t) (h' : Clean t') : Clean (t ++ t') := by
  obtain ⟨u, h1, h2⟩ := h
  obtain ⟨u', h1', h2'⟩ := h'
  exact ⟨u ++ u', by simp [h1, h1'], fun r => by rw [List.append_assoc, h2, h2', List.append_assoc]⟩

theorem clean_ws {w : Text} (h : IsWs w) : Clean w := ⟨[], by simp, fun r => by rw [compactGo_ws h]; rfl⟩

theorem clean_plain {t : Text} (h : ∀ c ∈ t, plainChar c = true) : Clean t := by
  refine ⟨t, fun hn => ?_, compactGo_plain h⟩
  have := h _ hn
  exact absurd this (by decide)

theorem Clean.cons {c : Char} {t : Text} (hc : plainChar c = true) (h : Clean t) : Clean (c :: t) :=
  Clean.append (t := [c]) (clean_plain (by simpa using hc)) h

theorem uEsc_clean {c : Char} (h : c = '<' ∨ c = '>' ∨ c = '&' ∨ c.toNat = 0x2028 ∨ c.toNat = 0x2029) : '\n' ∉ uEsc c.toNat := by
  rcases h with rfl | rfl | rfl | h | h
  · decide
  · decide
  · decide
  · rw [h]; decide
  · rw [h]; decide

theorem simpleEsc_nl {e c : Char} (h : simpleEsc e = some c) : e ≠ '\n' := by rintro rfl; rw [show simpleEsc '\n' = none from by decide] at h; cases h

theorem clean_strText {is : List StrItem} {u : Text} (h : StrText is u) :
    ∃ u', '\n' ∉ u' ∧ ∀ r, compactGo true false (u ++ '"' :: r) = u' ++ '"' :: compactGo false false r := by
  induction h with
  | nil => exact ⟨[], by simp, fun r => by rw [List.nil_append, compactGo.eq_def]; simp⟩
  | @plain c is t h1 h2 h3 _ ih =>
    obtain ⟨u', hu, hr⟩ := ih
    by_cases hc : c = '<' ∨ c = '>' ∨ c = '&' ∨ c.toNat = 0x2028 ∨ c.toNat = 0x2029
    · refine ⟨uEsc c.toNat ++ u', by simp [uEsc_clean hc, hu], fun r => ?_⟩
      rw [List.cons_append, compactGo.eq_def]; simp [hc, h1, h2, hr]
    · refine ⟨c :: u', ?_, fun r => ?_⟩
      · simp only [List.mem_cons, not_or]
        refine ⟨?_, hu⟩
        rintro rfl
        exact absurd h3 (by decide)
      · rw [List.cons_append, compactGo_strChar hc h1 h2, hr, List.cons_append]
  | @esc e c is t h1 _ ih =>
    obtain ⟨u', hu, hr⟩ := ih
    have f := simpleEsc_facts h1
    refine ⟨'\\' :: e :: u', ?_, fun r => ?_⟩
    · simp only [List.mem_cons, not_or]
      exact ⟨by decide, fun h => simpleEsc_nl h1 h.symm, hu⟩
    · have hb : ¬ ('\\' = '<' ∨ '\\' = '>' ∨ '\\' = '&' ∨ '\\'.toNat = 0x2028 ∨ '\\'.toNat = 0x2029) := by decide
      rw [List.cons_append, List.cons_append, compactGo.eq_def]
      simp only [hb, if_false, if_true, Bool.false_eq_true, List.cons_append, List.nil_append, List.cons.injEq, true_and]
      rw [compactGo.eq_def]
      simp [f, hr]
  | @uni a b c d n is t h1 _ ih =>
    obtain ⟨u', hu, hr⟩ := ih
    obtain ⟨⟨_, fa⟩, ⟨_, fb⟩, ⟨_, fc⟩, ⟨_, fd⟩⟩ := hex4_facts h1
    have fa := hexVal_facts fa
    have fb := hexVal_facts fb
    have fc := hexVal_facts fc
    have fd := hexVal_facts fd
    refine ⟨'\\' :: 'u' :: a :: b :: c :: d :: u', ?_, fun r => ?_⟩
    · simp only [List.mem_cons, not_or]
      exact ⟨by decide, by decide, fun h => fa.2.2.2 h.symm, fun h => fb.2.2.2 h.symm, fun h => fc.2.2.2 h.symm, fun h => fd.2.2.2 h.symm, hu⟩
    have hb : ¬ ('\\' = '<' ∨ '\\' = '>' ∨ '\\' = '&' ∨ '\\'.toNat = 0x2028 ∨ '\\'.toNat = 0x2029) := by decide
    have hU : ¬ ('u' = '<' ∨ 'u' = '>' ∨ 'u' = '&' ∨ 'u'.toNat = 0x2028 ∨ 'u'.toNat = 0x2029) := by decide
    simp only [List.cons_append]
    rw [compactGo.eq_def]
    simp only [hb, if_false, if_true, Bool.false_eq_true, List.cons_append, List.nil_append, List.cons.injEq, true_and]
    rw [compactGo.eq_def]
    simp only [hU, if_false, if_true, List.cons_append, List.nil_append, List.cons.injEq, true_and]
    rw [compactGo_strChar fa.1 fa.2.1 fa.2.2.1, compactGo_strChar fb.1 fb.2.1 fb.2.2.1,
      compactGo_strChar fc.1 fc.2.1 fc.2.2.1, compactGo_strChar fd.1 fd.2.1 fd.2.2.1, hr]

theorem clean_str {k t : Text} (h : Str k t) : Clean t := by
  obtain ⟨is, u, hu, rfl, rfl⟩ := h
  obtain ⟨u', hn, hr⟩ := clean_strText hu
  refine ⟨'"' :: (u' ++ ['"']), by simp [hn], fun r => ?_⟩
  rw [List.cons_append, compactGo.eq_def]
  simp [hr]

mutual
theorem clean_value {v : JVal} {t : Text} (h : Value v t) : Clean t := by
  match h with
  | .null => exact clean_plain (by decide)
  | .true_ => exact clean_plain (by decide)
  | .false_ => exact clean_plain (by decide)
  | .num (r := r) h => exact clean_plain (rawNum_plain r)
  | .str h => exact clean_str h
  | .arrNil hw => exact .cons (by decide) ((clean_ws hw).append (clean_plain (by decide)))
  | .arr he => exact .cons (by decide) ((clean_elems he).append (clean_plain (by decide)))
  | .objNil hw => exact .cons (by decide) ((clean_ws hw).append (clean_plain (by decide)))
  | .obj he => exact .cons (by decide) ((clean_members he).append (clean_plain (by decide)))
theorem clean_elems {vs : List JVal} {t : Text} (h : Elems vs t) : Clean t := by
  match h with
  | .one hw hv hw' => exact (clean_ws hw).append ((clean_value hv).append (clean_ws hw'))
  | .cons hw hv hw' he => exact (clean_ws hw).append ((clean_value hv).append ((clean_ws hw').append (.cons (by decide) (clean_elems he))))
theorem clean_members {ms : List (Text × JVal)} {t : Text} (h : Members ms t) : Clean t := by
  match h with
  | .one hw hk hw₁ hw₂ hv hw' =>
    exact (clean_ws hw).append ((clean_str hk).append ((clean_ws hw₁).append (.cons (by decide) ((clean_ws hw₂).append ((clean_value hv).append (clean_ws hw'))))))
  | .cons hw hk hw₁ hw₂ hv hw' he =>
    exact (clean_ws hw).append ((clean_str hk).append ((clean_ws hw₁).append (.cons (by decide) ((clean_ws hw₂).append ((clean_value hv).append
      ((clean_ws hw').append (.cons (by decide) (clean_members he))))))))
end

theorem compact_clean {t t' : Text} (h : compact t = some t') : '\n' ∉ t' := by
  obtain ⟨v, ⟨w, u, w', hw, hv, hw', rfl⟩, -⟩ := compact_sound h
  obtain ⟨x, hx, hr⟩ := (clean_ws hw).append ((clean_value hv).append (clean_ws hw'))
  have h0 := hr []
  unfold compact at h
  split at h
  · simp only [Option.some.injEq] at h
    rw [← h]
    rw [List.append_nil] at h0
    rw [h0]
    simpa [compactGo] using hx
  · cases h

end Json

namespace Ocppj
open Json Codec
variable {F : FloatFmt}

theorem frameText_clean {ps : List (GoRes Text)} {t : Text} (h : frameText ps = .ok t) : '\n' ∉ t := by
  unfold frameText at h
  rcases hj : joinElems ps ['['] with u | m | m <;> rw [hj] at h <;> simp only [GoRes.bind, reduceCtorEq] at h
  split at h
  · rename_i t' hc
    cases h
    exact compact_clean hc
  · cases h

theorem encRefusal_clean (id c : String) : '\n' ∉ encRefusal F id c := by
  unfold encRefusal
  split
  · rename_i t ht; exact frameText_clean ht
  · simp

theorem encReply_clean {id : String} {resp : Option Resp} {err : Option String} {t : Text} (h : encReply F id resp err = .ok t) : '\n' ∉ t := by
  unfold encReply at h
  split at h
  · exact frameText_clean h
  · split at h <;> exact frameText_clean h

theorem encCall_clean {id : String} {q : Req} {t : Text} (h : encCall F id q = .ok t) : '\n' ∉ t := by
  unfold encCall at h
  rcases hj : requestPayload F q with u | m | m <;> rw [hj] at h <;> simp only [GoRes.bind, reduceCtorEq] at h
  exact frameText_clean h

theorem normalise_clean (t : Text) : '\n' ∉ normalise t := by
  intro h
  unfold normalise trimSpace at h
  rw [List.mem_reverse] at h
  have h := (List.dropWhile_sublist _).subset h
  rw [List.mem_reverse] at h
  have h := (List.dropWhile_sublist _).subset h
  rw [List.mem_map] at h
  obtain ⟨c, -, hc⟩ := h
  split at hc
  · exact absurd hc (by decide)
  · contradiction

end Ocppj
end Verif
