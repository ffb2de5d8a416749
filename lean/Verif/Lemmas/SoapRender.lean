import Verif.Spec.SoapRender
import Verif.Lemmas.SoapWrite
/-!
# What is written for a value, exactly
-/
set_option linter.unusedSimpArgs false
namespace Verif.Soap
open Xml

theorem blank_eq (v : Val) : Blank v = Codec.isEmpty v := by
  cases v with
  | float g => cases g <;> rfl
  | _ => rfl

theorem scalarText_of {G : FloatText} {v : Val} {s : Text} (h : simpleText G v = .ok s) : s = scalarText G v := by
  unfold simpleText at h
  split at h <;> try (simp only [GoRes.ok.injEq] at h; subst h; rfl)
  · split at h
    · simp only [GoRes.ok.injEq] at h; subst h; rfl
    · cases h
  · cases h

theorem textOf_txt (s : Text) : textOf (cleanNodes (txt s)) = cleanText s := by
  unfold txt
  split
  · rename_i h; subst h; rfl
  · simp [cleanNodes, cleanNode, textOf]

theorem render_simple (G : FloatText) {t : Ty} (ht : simpleTy t = true) (D n : Text) (om : Bool) (v : Val) :
    render G D t n om v = if om = true ∧ Blank v = true then [] else [.elem ⟨D, n⟩ [] (cleanText (scalarText G v)) []] := by
  cases t <;> first | rfl | cases ht

theorem rendered_simple (G : FloatText) {t : Ty} (ht : simpleTy t = true) {n : XName} {D : Text} (hD : cleanText D = D)
    (hs : n.space = [] ∨ n.space = D) {om : Bool} {v : Val} {ks : List XNode} (h : toXml G t n om v = .ok ks) :
    infosOf D (cleanNodes ks) = render G D t n.loc om v := by
  rw [toXml_simple G ht] at h
  rw [render_simple G ht, blank_eq]
  split at h
  · rename_i ho
    simp only [GoRes.ok.injEq] at h
    subst h
    rw [if_pos ho]; rfl
  · rename_i ho
    rw [GoRes.bind_eq_ok] at h
    obtain ⟨s, h1, h⟩ := h
    simp only [GoRes.ok.injEq] at h
    subst h
    rw [if_neg ho]
    have hi := inner_mkElem (n := n) hD hs (as := []) (by simp) (txt s)
    have : infosOf D (cleanNodes [mkElem n [] (txt s)]) = [infoOf D (cleanNode (mkElem n [] (txt s)))] := rfl
    rw [this, hi, textOf_txt, (laid_txt D s).2, scalarText_of h1]
    rfl

mutual
theorem render_ty (G : FloatText) (t : Ty) (ht : ncTy t = true) (hw : wfTy t = true) {n : XName} (hn : isNC n.loc = true) (hx : n.loc ≠ "xmlns".toList)
    {D : Text} (hD : cleanText D = D) (hs : n.space = [] ∨ n.space = D) {om : Bool} {v : Val} (hv : HasTy t v) {ks : List XNode}
    (h : toXml G t n om v = .ok ks) : infosOf D (cleanNodes ks) = render G D t n.loc om v := by
  match t with
  | .str => exact rendered_simple G (t := .str) rfl hD hs h
  | .int b => exact rendered_simple G (t := .int b) rfl hD hs h
  | .float => exact rendered_simple G (t := .float) rfl hD hs h
  | .bool => exact rendered_simple G (t := .bool) rfl hD hs h
  | .time => exact rendered_simple G (t := .time) rfl hD hs h
  | .ptr t =>
    simp only [ncTy, Bool.and_eq_true, Bool.not_eq_true'] at ht
    rw [wfTy] at hw
    match v with
    | .ptr v =>
      rw [toXml] at h
      rw [render]
      exact render_ty G t ht.1 hw hn hx hD hs hv h
    | .nil =>
      rw [toXml] at h
      simp only [GoRes.ok.injEq] at h
      subst h
      rfl
    | .str _ => exact absurd hv (by simp [HasTy])
    | .int _ => exact absurd hv (by simp [HasTy])
    | .float _ => exact absurd hv (by simp [HasTy])
    | .bool _ => exact absurd hv (by simp [HasTy])
    | .time _ => exact absurd hv (by simp [HasTy])
    | .slice _ => exact absurd hv (by simp [HasTy])
    | .struct _ => exact absurd hv (by simp [HasTy])
  | .slice t =>
    simp only [ncTy, Bool.and_eq_true, Bool.not_eq_true'] at ht
    rw [wfTy] at hw
    match v with
    | .slice vs =>
      rw [toXml] at h
      rw [render]
      have hv' : ∀ v ∈ vs, HasTy t v := hv
      have hall : ∀ (vs : List Val) (ks : List XNode), (∀ v ∈ vs, HasTy t v) → joinAll (vs.map (toXml G t n om)) = .ok ks →
          infosOf D (cleanNodes ks) = vs.flatMap (render G D t n.loc om) := by
        intro vs
        induction vs with
        | nil => intro ks _ h; simp only [List.map_nil, joinAll, GoRes.ok.injEq] at h; subst h; rfl
        | cons v vs ih =>
          intro ks hv h
          rw [List.map_cons, joinAll_eq_ok] at h
          obtain ⟨a, b, h1, h2, rfl⟩ := h
          rw [cleanNodes_append, infosOf_append, List.flatMap_cons, render_ty G t ht.1 hw hn hx hD hs (hv v (by simp)) h1,
            ih b (fun v hm => hv v (by simp [hm])) h2]
      exact hall vs ks hv' h
    | .nil =>
      rw [toXml] at h
      simp only [GoRes.ok.injEq] at h
      subst h
      rfl
    | .str _ => exact absurd hv (by simp [HasTy])
    | .int _ => exact absurd hv (by simp [HasTy])
    | .float _ => exact absurd hv (by simp [HasTy])
    | .bool _ => exact absurd hv (by simp [HasTy])
    | .time _ => exact absurd hv (by simp [HasTy])
    | .ptr _ => exact absurd hv (by simp [HasTy])
    | .struct _ => exact absurd hv (by simp [HasTy])
  | .struct info ts =>
    simp only [ncTy, Bool.and_eq_true, Option.isNone_iff_eq_none] at ht
    simp only [wfTy, Bool.and_eq_true, beq_iff_eq] at hw
    match v with
    | .struct vs =>
      rw [toXml] at h
      simp only [GoRes.bind_eq_ok, GoRes.ok.injEq, ht.1.1] at h
      obtain ⟨as, h1, cs, h2, rfl⟩ := h
      have hst := laid_fields G info info.fields ts ht.1.2 ht.2 hw.2 hD (by simp [ht.1.1]) hv hw.1 h1 h2
      have hrf := render_fields G info info.fields ts ht.1.2 ht.2 hw.2 hD (by simp [ht.1.1]) hv hw.1 h1 h2
      have hi := inner_mkElem (n := n) hD hs (fun a ha => (hst.attrs a ha).2) cs
      have : infosOf D (cleanNodes [mkElem n as cs]) = [infoOf D (cleanNode (mkElem n as cs))] := rfl
      rw [this, hi, render, hrf.1, hrf.2.1, hrf.2.2]
    | .nil => exact absurd hv (by simp [HasTy])
    | .slice _ => exact absurd hv (by simp [HasTy])
    | .ptr _ => exact absurd hv (by simp [HasTy])
    | .str _ => exact absurd hv (by simp [HasTy])
    | .int _ => exact absurd hv (by simp [HasTy])
    | .float _ => exact absurd hv (by simp [HasTy])
    | .bool _ => exact absurd hv (by simp [HasTy])
    | .time _ => exact absurd hv (by simp [HasTy])
theorem render_fields (G : FloatText) (info : StructInfo) (fs : List FieldInfo) (ts : List Ty) (hf : fs.all ncField = true)
    (ht : ncTys ts = true) (hw : wfTys ts = true) {D : Text} (hD : cleanText D = D) (hi : ∀ x, info.xmlName = some x → x.1 = D) {vs : List Val} (hv : HasTys ts vs)
    (hl : fs.length = ts.length)
    {as : List (Text × Text)} {ks : List XNode} (h1 : joinAll ((fs.zip vs).map fun x => attrOf G x.1 x.2) = .ok as)
    (h2 : joinAll ((fs.zip (vs.zip (toXmls G info fs ts vs))).map fun x => kidOf G x.1 x.2.1 x.2.2) = .ok ks) :
    as.map (fun a => ((⟨[], a.1⟩ : XName), cleanText a.2)) = renderAttrs G fs vs ∧ textOf (cleanNodes ks) = renderData G fs vs ∧
      infosOf D (cleanNodes ks) = renderFields G D fs ts vs := by
  match ts, fs, vs with
  | [], [], [] =>
    simp only [List.zip_nil_left, List.map_nil, joinAll, GoRes.ok.injEq] at h1 h2
    subst h1 h2
    exact ⟨rfl, rfl, rfl⟩
  | t :: ts, f :: fs, v :: vs =>
    simp only [List.all_cons, Bool.and_eq_true] at hf
    simp only [ncTys, Bool.and_eq_true] at ht
    simp only [wfTys, Bool.and_eq_true] at hw
    rw [List.zip_cons_cons, List.map_cons, joinAll_eq_ok] at h1
    rw [toXmls, List.zip_cons_cons, List.zip_cons_cons, List.map_cons, joinAll_eq_ok] at h2
    obtain ⟨a0, a1, h3, h4, rfl⟩ := h1
    obtain ⟨k0, k1, h5, h6, rfl⟩ := h2
    obtain ⟨i1, i2, i3⟩ := render_fields G info fs ts hf.2 ht.2 hw.2 hD hi hv.2 (by simpa using hl) h4 h6
    rw [renderAttrs, renderData, renderFields, List.map_append, cleanNodes_append, textOf_append, infosOf_append, i1, i2, i3]
    cases hk : f.xmlKind with
    | elem =>
      have h0 : a0 = [] := by simpa [attrOf, hk] using h3.symm
      subst h0
      simp only [kidOf, hk] at h5
      simp only [ncField, hk, Bool.and_eq_true, bne_iff_ne] at hf
      have hr := render_ty G t ht.1 hw.1 (n := fieldName info f) hf.1.1 hf.1.2 hD (fieldName_space hi f) hv.1 h5
      obtain ⟨h7, -, -⟩ := laid_ty G t ht.1 hw.1 (n := fieldName info f) hf.1.1 hf.1.2 hD (fieldName_space hi f) hv.1 h5
      have hel := infosOf_elems D (ks := cleanNodes k0) (by
        intro k hk'
        rw [cleanNodes_eq_map, List.mem_map] at hk'
        obtain ⟨k', hk', rfl⟩ := hk'
        have := (h7 k' hk').elem
        cases k' <;> simp_all [isElem, cleanNode])
      refine ⟨by simp, by rw [hel.2]; simp, ?_⟩
      rw [hr]; rfl
    | attr =>
      have h0 : k0 = [] := by simpa [kidOf, hk] using h5.symm
      subst h0
      refine ⟨?_, by simp [cleanNodes, textOf], by simp [cleanNodes, infosOf]⟩
      unfold attrOf at h3
      rw [hk] at h3
      rw [blank_eq]
      split at h3
      · rename_i hc
        rw [GoRes.bind_eq_ok] at h3
        obtain ⟨s, hs, h3⟩ := h3
        simp only [GoRes.ok.injEq] at h3
        rw [if_pos hc, ← h3, scalarText_of hs]; rfl
      · rename_i hc
        simp only [GoRes.ok.injEq] at h3
        rw [if_neg hc, ← h3]; rfl
    | chardata =>
      have h0 : a0 = [] := by simpa [attrOf, hk] using h3.symm
      subst h0
      simp only [kidOf, hk, GoRes.bind_eq_ok, GoRes.ok.injEq] at h5
      obtain ⟨s, hs, rfl⟩ := h5
      refine ⟨by simp, ?_, ?_⟩
      · rw [textOf_txt, scalarText_of hs]; rfl
      · rw [(laid_txt D s).2]
    | skip =>
      have h0 : a0 = [] := by simpa [attrOf, hk] using h3.symm
      have h0' : k0 = [] := by simpa [kidOf, hk] using h5.symm
      subst h0 h0'
      exact ⟨by simp, by simp [cleanNodes, textOf], by simp [cleanNodes, infosOf]⟩
  | [], _ :: _, _ => simp at hl
  | _ :: _, [], _ => simp at hl
  | [], [], _ :: _ => cases hv
  | _ :: _, _ :: _, [] => cases hv
end

end Verif.Soap
