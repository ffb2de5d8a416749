import Verif.Lemmas.Ocppj2
set_option linter.unusedSimpArgs false
set_option linter.unnecessarySeqFocus false
/-!
# Normalisation of received texts
-/
namespace Verif.Ocppj
open Json Codec Decode

/-- `bytes.Replace(·, "\n", " ")` on a character. -/
def nl (c : Char) : Char := if c = '\n' then ' ' else c

theorem normalise_eq (t : Text) : normalise t = trimSpace (t.map nl) := rfl

theorem nl_id {t : Text} (h : ∀ c ∈ t, c ≠ '\n') : t.map nl = t := by
  induction t with
  | nil => rfl
  | cons c t ih =>
    simp only [List.map_cons, ih fun c hc => h c (by simp [hc])]
    rw [nl, if_neg (h c (by simp))]

theorem digitChar_vis (d : Fin 10) : isSpace (digitChar d) = false ∧ digitChar d ≠ '\n' := by revert d; decide

theorem rawNum_vis (r : RawNum) : ∀ c ∈ r.text, isSpace c = false ∧ c ≠ '\n' := by
  intro c hc
  rw [RawNum.text_eq] at hc
  have hd : ∀ (ds : List (Fin 10)) c, c ∈ ds.map digitChar → isSpace c = false ∧ c ≠ '\n' := by
    intro ds c hc
    obtain ⟨d, _, rfl⟩ := List.mem_map.1 hc
    exact digitChar_vis d
  simp only [List.mem_append] at hc
  rcases hc with ((hc | hc) | hc) | hc
  · split at hc
    · simp at hc; subst hc; decide
    · simp at hc
  · exact hd _ _ hc
  · cases hf : r.frac with
    | none => rw [hf] at hc; simp [fracText] at hc
    | some ds =>
      rw [hf] at hc
      simp only [fracText, List.mem_cons] at hc
      rcases hc with rfl | hc
      · decide
      · exact hd _ _ hc
  · cases he : r.exp with
    | none => rw [he] at hc; simp [expText] at hc
    | some e =>
      obtain ⟨u, s, ds⟩ := e
      rw [he] at hc
      simp only [expText, List.mem_cons, List.mem_append] at hc
      rcases hc with rfl | hc | hc
      · cases u <;> decide
      · rcases s with _ | _ | _ <;> simp at hc <;> subst hc <;> decide
      · exact hd _ _ hc

theorem strText_nl {is : List StrItem} {u : Text} (h : StrText is u) : ∀ c ∈ u, c ≠ '\n' := by
  induction h with
  | nil => simp
  | plain _ _ h3 _ ih =>
    intro c hc
    rcases List.mem_cons.1 hc with rfl | hc
    · rintro rfl; revert h3; decide
    · exact ih c hc
  | esc h _ ih =>
    intro c hc
    simp only [List.mem_cons] at hc
    rcases hc with rfl | rfl | hc
    · decide
    · rintro rfl; revert h; simp [simpleEsc]
    · exact ih c hc
  | uni h _ ih =>
    intro c hc
    have hx : ∀ c, (hexVal c).isSome = true → c ≠ '\n' := by rintro c h rfl; revert h; decide
    simp only [hex4] at h
    split at h
    · rename_i ha hb hcc hd
      simp only [List.mem_cons] at hc
      rcases hc with rfl | rfl | rfl | rfl | rfl | rfl | hc
      · decide
      · decide
      · exact hx _ (by rw [ha]; rfl)
      · exact hx _ (by rw [hb]; rfl)
      · exact hx _ (by rw [hcc]; rfl)
      · exact hx _ (by rw [hd]; rfl)
      · exact ih c hc
    · simp at h

theorem str_nl {s t : Text} (h : Str s t) : t.map nl = t := by
  obtain ⟨is, u, hu, _, rfl⟩ := h
  apply nl_id
  intro c hc
  simp only [List.mem_cons, List.mem_append, List.not_mem_nil, or_false] at hc
  rcases hc with rfl | hc | rfl
  · decide
  · exact strText_nl hu c hc
  · decide

theorem isWs_nl {w : Text} (h : IsWs w) : IsWs (w.map nl) := by
  intro c hc
  obtain ⟨d, hd, rfl⟩ := List.mem_map.1 hc
  have := h d hd
  unfold nl
  split
  · decide
  · exact this

theorem nl_lit {c : Char} (h : c ≠ '\n') : nl c = c := if_neg h

mutual
theorem value_nl {v : JVal} {t : Text} (h : Value v t) : Value v (t.map nl) := by
  match h with
  | .null => exact .null
  | .true_ => exact .true_
  | .false_ => exact .false_
  | .num (r := r) h => rw [nl_id fun c hc => (rawNum_vis r c hc).2]; exact .num h
  | .str h => rw [str_nl h]; exact .str h
  | .arrNil hw => rw [List.map_cons, List.map_append]; exact .arrNil (isWs_nl hw)
  | .arr he => rw [List.map_cons, List.map_append]; exact .arr (elems_nl he)
  | .objNil hw => rw [List.map_cons, List.map_append]; exact .objNil (isWs_nl hw)
  | .obj he => rw [List.map_cons, List.map_append]; exact .obj (members_nl he)
theorem elems_nl {vs : List JVal} {t : Text} (h : Elems vs t) : Elems vs (t.map nl) := by
  match h with
  | .one hw hv hw' => rw [List.map_append, List.map_append]; exact .one (isWs_nl hw) (value_nl hv) (isWs_nl hw')
  | .cons hw hv hw' he =>
    rw [List.map_append, List.map_append, List.map_append, List.map_cons]
    exact .cons (isWs_nl hw) (value_nl hv) (isWs_nl hw') (elems_nl he)
theorem members_nl {ms : List (Text × JVal)} {t : Text} (h : Members ms t) : Members ms (t.map nl) := by
  match h with
  | .one hw hk hw₁ hw₂ hv hw' =>
    rw [List.map_append, List.map_append, List.map_append, List.map_cons, List.map_append, List.map_append, str_nl hk]
    exact .one (isWs_nl hw) hk (isWs_nl hw₁) (isWs_nl hw₂) (value_nl hv) (isWs_nl hw')
  | .cons hw hk hw₁ hw₂ hv hw' he =>
    rw [List.map_append, List.map_append, List.map_append, List.map_cons, List.map_append, List.map_append, List.map_append,
      List.map_cons, str_nl hk]
    exact .cons (isWs_nl hw) hk (isWs_nl hw₁) (isWs_nl hw₂) (value_nl hv) (isWs_nl hw') (members_nl he)
end

theorem ws_space {c : Char} (h : wsChar c = true) : isSpace c = true := by
  simp only [wsChar, Bool.or_eq_true, beq_iff_eq] at h
  rcases h with ((rfl | rfl) | rfl) | rfl <;> decide

theorem value_ends {v : JVal} {t : Text} (h : Value v t) :
    (∃ c u, t = c :: u ∧ isSpace c = false) ∧ (∃ u c, t = u ++ [c] ∧ isSpace c = false) := by
  cases h with
  | null => exact ⟨⟨_, _, rfl, by decide⟩, ⟨['n', 'u', 'l'], 'l', rfl, by decide⟩⟩
  | true_ => exact ⟨⟨_, _, rfl, by decide⟩, ⟨['t', 'r', 'u'], 'e', rfl, by decide⟩⟩
  | false_ => exact ⟨⟨_, _, rfl, by decide⟩, ⟨['f', 'a', 'l', 's'], 'e', rfl, by decide⟩⟩
  | @num r h =>
    obtain ⟨c, u, hc, _⟩ := h.text_start
    have hv := rawNum_vis r
    refine ⟨⟨c, u, hc, (hv c (by rw [hc]; simp)).1⟩, ?_⟩
    have hne : r.text ≠ [] := by rw [hc]; simp
    exact ⟨_, _, (List.dropLast_append_getLast hne).symm, (hv _ (List.getLast_mem hne)).1⟩
  | str h =>
    obtain ⟨_, u, _, _, rfl⟩ := h
    exact ⟨⟨_, _, rfl, by decide⟩, ⟨'"' :: u, '"', rfl, by decide⟩⟩
  | @arrNil w => exact ⟨⟨_, _, rfl, by decide⟩, ⟨'[' :: w, ']', rfl, by decide⟩⟩
  | @arr _ w => exact ⟨⟨_, _, rfl, by decide⟩, ⟨'[' :: w, ']', rfl, by decide⟩⟩
  | @objNil w => exact ⟨⟨_, _, rfl, by decide⟩, ⟨'{' :: w, '}', rfl, by decide⟩⟩
  | @obj _ w => exact ⟨⟨_, _, rfl, by decide⟩, ⟨'{' :: w, '}', rfl, by decide⟩⟩

theorem dropWhile_ws {w u : Text} (h : ∀ c ∈ w, isSpace c = true) : (w ++ u).dropWhile isSpace = u.dropWhile isSpace := by
  induction w with
  | nil => rfl
  | cons c w ih =>
    rw [List.cons_append, List.dropWhile_cons, if_pos (h c (by simp))]
    exact ih fun c hc => h c (by simp [hc])

theorem trim_ws {w u w' : Text} (hw : IsWs w) (hw' : IsWs w') {v : JVal} (hu : Value v u) : trimSpace (w ++ (u ++ w')) = u := by
  obtain ⟨⟨c, x, hx, hc⟩, ⟨y, d, hy, hd⟩⟩ := value_ends hu
  unfold trimSpace
  rw [dropWhile_ws fun c hc => ws_space (hw c hc)]
  have h1 : (u ++ w').dropWhile isSpace = u ++ w' := by
    rw [hx, List.cons_append, List.dropWhile_cons, hc]; rfl
  rw [h1, List.reverse_append, dropWhile_ws fun c hc => ws_space (hw' c (by simpa using hc))]
  have h2 : u.reverse.dropWhile isSpace = u.reverse := by
    rw [hy, List.reverse_append, List.reverse_singleton, List.cons_append, List.dropWhile_cons, hd]; rfl
  rw [h2, List.reverse_reverse]

/-- Normalisation keeps the value of a JSON text and strips it of the white space around. -/
theorem normalise_value {j : JVal} {t : Text} (h : JsonText j t) : Value j (normalise t) := by
  obtain ⟨w, u, w', hw, hu, hw', rfl⟩ := h
  rw [normalise_eq, List.map_append, List.map_append, trim_ws (isWs_nl hw) (isWs_nl hw') (value_nl hu)]
  exact value_nl hu

end Verif.Ocppj
