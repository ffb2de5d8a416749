import Verif.Lemmas.XmlDoc
/-!
# XML declarations and whole documents
-/
set_option linter.unusedSimpArgs false
namespace Verif.Xml

theorem procInst_skip (p : Text) (c : Char) (r : Text) (h : p.isPrefixOf (c :: r) = false) : procInst p (c :: r) = procInst p r := by
  rw [procInst.eq_def]
  simp only [h, Bool.false_eq_true, false_and, if_false]

theorem procInst_space {x : Char} {p : Text} (hx : Space [x] → False) {sp : Text} (h : Space sp) (t : Text) :
    procInst (x :: p) (sp ++ t) = procInst (x :: p) t := by
  induction sp with
  | nil => rfl
  | cons c sp ih =>
    have hc : x ≠ c := by
      rintro rfl
      exact hx (fun d hd => by rw [List.mem_singleton.1 hd]; exact h _ (by simp))
    rw [List.cons_append, procInst_skip _ _ _ (by simp [List.isPrefixOf, hc])]
    exact ih (fun d hd => h d (by simp [hd]))

theorem procInst_hit (p : Text) (hp : p ≠ []) {v q : Text} (hq : Quoted v q) (h1 : '"' ∉ v) (h2 : '\'' ∉ v) (t : Text) :
    procInst p (p ++ (q ++ t)) = v := by
  have key : ∀ x, x ∉ v → (v ++ x :: t).takeWhile (· ≠ x) = v := by
    intro x hx
    clear hq h1 h2
    induction v with
    | nil => simp
    | cons a v ih =>
      simp only [List.mem_cons, not_or] at hx
      rw [List.cons_append, List.takeWhile_cons, if_pos (by simpa using Ne.symm hx.1), ih hx.2]
  cases p with
  | nil => exact absurd rfl hp
  | cons c p =>
    rw [List.cons_append, procInst.eq_def]
    simp only
    rw [if_pos ⟨by rw [← List.cons_append]; simp, by simp⟩]
    rw [← List.cons_append, List.drop_left]
    rcases hq with rfl | rfl
    · simp only [List.cons_append, List.append_assoc, List.nil_append, List.singleton_append]
      rw [if_pos (by simp), if_pos (by simp)]
      simpa using key '"' h1
    · simp only [List.cons_append, List.append_assoc, List.nil_append, List.singleton_append]
      rw [if_pos (by simp), if_pos (by simp)]
      simpa using key '\'' h2

theorem space_e : Space ['e'] → False := fun h => by have := h 'e' (by simp); revert this; decide

theorem version_skip {v : Text} (hv : Quoted "1.0".toList v) (t : Text) :
    procInst "encoding=".toList ("version=".toList ++ (v ++ t)) = procInst "encoding=".toList t := by
  rcases hv with rfl | rfl <;>
  · simp only [String.reduceToList, List.cons_append, List.nil_append, List.append_assoc]
    repeat rw [procInst_skip _ _ _ (by simp [List.isPrefixOf])]

theorem standalone_skip {q e : Text} (hv : Quoted e q) (he : e = "yes".toList ∨ e = "no".toList) (t : Text) :
    procInst "encoding=".toList ("standalone=".toList ++ (q ++ t)) = procInst "encoding=".toList t := by
  rcases hv with rfl | rfl <;> rcases he with rfl | rfl <;>
  · simp only [String.reduceToList, List.cons_append, List.nil_append, List.append_assoc]
    repeat rw [procInst_skip _ _ _ (by simp [List.isPrefixOf])]

theorem rawToken_declData {sp : Text} (hne : sp ≠ []) (hsp : Space sp) (D : Text) (hD : ∃ r, D = 'v' :: r) (hno : ¬ "?>".toList <:+: D)
    (hok : declOk D = true) (t : Text) :
    rawToken ('<' :: '?' :: ("xml".toList ++ (sp ++ (D ++ '?' :: '>' :: t)))) = some (.other, t) := by
  have hname : ∀ u, readName ("xml".toList ++ (sp ++ u)) = some ("xml".toList, sp ++ u) := by
    intro u
    cases sp with
    | nil => exact absurd rfl hne
    | cons c r =>
      refine readName_ok ⟨'x', "ml".toList, rfl, .inl (by decide), ?_⟩ ?_ _
      · intro d hd; left; left; revert d; decide
      · rcases hsp c (by simp) with rfl | rfl | rfl | rfl <;> decide
  obtain ⟨r, rfl⟩ := hD
  have e5 : skipSpace (('v' :: r) ++ '?' :: '>' :: t) = ('v' :: r) ++ '?' :: '>' :: t := skipSpace_cons (by decide) _
  unfold rawToken
  simp only
  rw [hname]
  simp only
  rw [space_skip hsp, e5, readPI_ok _ hno]
  simp only [hok, Bool.true_eq_false, and_false, if_false]

theorem rawToken_decl {d : Text} (h : Decl d) (t : Text) : rawToken (d ++ t) = some (.other, t) := by
  obtain ⟨sp, v, enc, sa, sp', rfl, hne, hsp, hv, henc, hsa, hsp'⟩ := h
  have e : "<?xml".toList ++ (sp ++ ("version=".toList ++ (v ++ (enc ++ (sa ++ (sp' ++ "?>".toList)))))) ++ t =
      '<' :: '?' :: ("xml".toList ++ (sp ++ (("version=".toList ++ (v ++ (enc ++ (sa ++ sp')))) ++ '?' :: '>' :: t))) := by simp
  rw [e]
  have hq : ∀ x, x ≠ '?' → ∀ s q : Text, Quoted s q → (∀ c ∈ s, c ≠ '?') → ∀ c ∈ q, c ≠ '?' := by
    intro x _ s q hq hs c hc
    rcases hq with rfl | rfl <;>
    · simp only [List.mem_cons, List.mem_append, List.not_mem_nil, or_false] at hc
      rcases hc with rfl | hc | rfl
      · decide
      · exact hs c hc
      · decide
  have hspace : ∀ s, Space s → ∀ c ∈ s, c ≠ '?' := by
    intro s hs c hc
    rcases hs c hc with rfl | rfl | rfl | rfl <;> decide
  have hencs : ∀ c ∈ enc, c ≠ '?' := by
    rcases henc with rfl | ⟨s, e', q, rfl, -, hs, hqq, he⟩
    · simp
    · intro c hc
      simp only [List.mem_append] at hc
      rcases hc with hc | hc | hc
      · exact hspace s hs c hc
      · revert c; decide
      · refine hq 'x' (by decide) e' q hqq ?_ c hc
        rintro c hc rfl
        have : '?' ∈ e'.map Char.toLower := List.mem_map.2 ⟨'?', hc, by decide⟩
        rw [he] at this; revert this; decide
  have hsas : ∀ c ∈ sa, c ≠ '?' := by
    rcases hsa with rfl | ⟨s, e', q, rfl, -, hs, hqq, he⟩
    · simp
    · intro c hc
      simp only [List.mem_append] at hc
      rcases hc with hc | hc | hc
      · exact hspace s hs c hc
      · revert c; decide
      · refine hq 'x' (by decide) e' q hqq ?_ c hc
        rcases he with rfl | rfl <;> decide
  have hnoq : ∀ c ∈ "version=".toList ++ (v ++ (enc ++ (sa ++ sp'))), c ≠ '?' := by
    intro c hc
    simp only [List.mem_append] at hc
    rcases hc with hc | hc | hc | hc | hc
    · revert c; decide
    · exact hq 'x' (by decide) _ v hv (by decide) c hc
    · exact hencs c hc
    · exact hsas c hc
    · exact hspace sp' hsp' c hc
  have hnoend : ¬ "?>".toList <:+: "version=".toList ++ (v ++ (enc ++ (sa ++ sp'))) := fun hi => hnoq '?' (hi.subset (by simp)) rfl
  have hok : declOk ("version=".toList ++ (v ++ (enc ++ (sa ++ sp')))) = true := by
    have h1 : procInst "version=".toList ("version=".toList ++ (v ++ (enc ++ (sa ++ sp')))) = "1.0".toList :=
      procInst_hit _ (by decide) hv (by decide) (by decide) _
    have h2 : procInst "encoding=".toList ("version=".toList ++ (v ++ (enc ++ (sa ++ sp')))) = [] ∨
        (procInst "encoding=".toList ("version=".toList ++ (v ++ (enc ++ (sa ++ sp'))))).map Char.toLower = "utf-8".toList := by
      rw [version_skip hv]
      have hE : "encoding=".toList = 'e' :: "ncoding=".toList := rfl
      rcases henc with rfl | ⟨s, e', q, rfl, -, hs, hqq, he⟩
      · left
        rw [List.nil_append]
        have hend : procInst "encoding=".toList sp' = [] := by
          have := procInst_space (p := "ncoding=".toList) space_e hsp' []
          rw [List.append_nil] at this
          rw [hE, this, procInst.eq_def]
        rcases hsa with rfl | ⟨s, e', q, rfl, -, hs, hqq, he⟩
        · exact hend
        · rw [List.append_assoc, hE, procInst_space space_e hs, ← hE, List.append_assoc, standalone_skip hqq he]
          exact hend
      · right
        rw [List.append_assoc, hE, procInst_space space_e hs, ← hE, List.append_assoc, procInst_hit _ (by decide) hqq ?_ ?_]
        · exact he
        · intro hm
          have : '"' ∈ e'.map Char.toLower := List.mem_map.2 ⟨'"', hm, by decide⟩
          rw [he] at this; revert this; decide
        · intro hm
          have : '\'' ∈ e'.map Char.toLower := List.mem_map.2 ⟨'\'', hm, by decide⟩
          rw [he] at this; revert this; decide
    unfold declOk
    simp only [h1]
    rcases h2 with h2 | h2
    · rw [h2]; decide
    · rw [h2]; simp
  exact rawToken_declData hne hsp _ ⟨_, rfl⟩ hnoend hok t

theorem element_head {raw : Text} {n : XNode} (h : Element raw n) : ∃ r, raw = '<' :: r := by
  cases h <;> exact ⟨_, rfl⟩

theorem misc_head {m : Text} (h : Misc m) (t : Text) (ht : ∃ r, t = '<' :: r) : ∃ c r, m ++ t = c :: r := by
  obtain ⟨r, rfl⟩ := ht
  cases m with
  | nil => exact ⟨_, _, rfl⟩
  | cons c m => exact ⟨_, _, rfl⟩

/-- Every document is read as its tree. -/
theorem document_read {t : Text} {n : XNode} (h : Document t n) : parseXml t = some n := by
  obtain ⟨bom, decl, misc, root, rest, rfl, hb, hd, hm, hr, -⟩ := h
  obtain ⟨r, hroot⟩ := element_head hr
  have h1 : readTree [] (misc ++ (root ++ rest)) = some n := by
    rw [hroot, List.cons_append, misc_read hm, ← List.cons_append, ← hroot, element_read hr]
    obtain ⟨a, b, c, rfl⟩ : ∃ a b c, n = .elem a b c := by cases hr <;> exact ⟨_, _, _, rfl⟩
    rfl
  have h2 : readTree [] (decl ++ (misc ++ (root ++ rest))) = some n := by
    rcases hd with rfl | hd
    · exact h1
    · have hl : 0 < decl.length := by obtain ⟨_, _, _, _, _, rfl, -⟩ := hd; simp
      rw [readTree_step (rawToken_decl hd _) rfl (by simp; omega)]
      exact h1
  unfold parseXml
  rcases hb with rfl | rfl
  · exact h2
  · by_cases hlt : ∃ w, decl ++ (misc ++ (root ++ rest)) = '<' :: w
    · obtain ⟨w, hw⟩ := hlt
      have hcd : CharData ['\uFEFF'] ['\uFEFF'] := .char (by decide) (by decide) (by decide) (by decide) .nil
      rw [hw] at h2 ⊢
      rw [readTree_step (rawToken_data hcd (by simp) (by decide) w) rfl (by simp)]
      exact h2
    · -- white space right after the byte order mark is one text with it
      have hdecl : decl = [] := by
        rcases hd with h | ⟨_, _, _, _, _, rfl, -⟩
        · exact h
        · exact absurd ⟨_, rfl⟩ hlt
      subst hdecl
      simp only [List.nil_append] at hlt ⊢
      cases hm with
      | nil => rw [hroot] at hlt; exact absurd ⟨_, rfl⟩ hlt
      | comment hc => obtain ⟨x, rfl, -⟩ := hc; exact absurd ⟨_, rfl⟩ hlt
      | pi hc => obtain ⟨x, d, rfl, -⟩ := hc; exact absurd ⟨_, rfl⟩ hlt
      | @space sp t' hne hsp hnext hm' =>
        obtain ⟨w, hw⟩ : ∃ w, t' ++ (root ++ rest) = '<' :: w := by
          rcases hnext with rfl | hnext
          · rw [hroot]; exact ⟨_, rfl⟩
          · cases t' with
            | nil => simp at hnext
            | cons a b => simp at hnext; subst hnext; exact ⟨_, rfl⟩
        obtain ⟨s, hs⟩ := space_charData sp hsp
        have hcd : CharData ('\uFEFF' :: sp) ('\uFEFF' :: s) := .char (by decide) (by decide) (by decide) (by decide) hs
        have hno : ¬ "]]>".toList <:+: '\uFEFF' :: sp := by
          intro hi
          have hm : ']' ∈ '\uFEFF' :: sp := hi.subset (by simp)
          rcases List.mem_cons.1 hm with h | h
          · revert h; decide
          · have := hsp ']' h; revert this; decide
        have h3 : readTree [] (t' ++ (root ++ rest)) = some n := by
          rw [hroot, List.cons_append, misc_read hm', ← List.cons_append, ← hroot, element_read hr]
          obtain ⟨a, b, c, rfl⟩ : ∃ a b c, n = .elem a b c := by cases hr <;> exact ⟨_, _, _, rfl⟩
          rfl
        rw [hw] at h3
        have e : ['\uFEFF'] ++ (sp ++ t' ++ (root ++ rest)) = ('\uFEFF' :: sp) ++ '<' :: w := by
          rw [List.append_assoc, hw]; rfl
        rw [e, readTree_step (rawToken_data hcd (by simp) hno w) rfl (by simp; omega)]
        exact h3

end Verif.Xml
