import Verif.Lemmas.Scalar
/-!
# Elements are decoded as what they mean
-/
set_option linter.unusedSimpArgs false
namespace Verif.Xml
open Json

/-! ### Decoded nodes and what they say -/

/-- Attributes, with others among them that no field has the name of. -/
inductive AttrsLike : List (XName × Text) → List (XName × Text) → Prop where
  | nil : AttrsLike [] []
  | drop {a as bs} : a.1.loc ∉ attrFields → AttrsLike as bs → AttrsLike (a :: as) bs
  | keep {a as bs} : AttrsLike as bs → AttrsLike (a :: as) (a :: bs)

mutual
/-- The decoder's node says this. -/
inductive Like : RNode → Info → Prop where
  | elem {n as bs ks d is} : AttrsLike as bs → KidsLike ks d is → Like (.elem n as ks) (.elem n bs d is)
/-- Its children say this. -/
inductive KidsLike : List RNode → Text → List Info → Prop where
  | nil : KidsLike [] [] []
  | text {s ks d is} : KidsLike ks d is → KidsLike (.text s :: ks) (s ++ d) is
  | elem {k i ks d is} : Like k i → KidsLike ks d is → KidsLike (k :: ks) d (i :: is)
end

/-- The node is an element with such a name. -/
def nodeNamed (p : XName → Bool) : RNode → Bool
  | .text _ => false
  | .elem n _ _ => p n

theorem Like.cases {r : RNode} {i : Info} (h : Like r i) :
    ∃ n as bs ks d is, r = .elem n as ks ∧ i = .elem n bs d is ∧ AttrsLike as bs ∧ KidsLike ks d is := by
  cases h with
  | elem h1 h2 => exact ⟨_, _, _, _, _, _, rfl, rfl, h1, h2⟩

theorem kidsLike_data {ks : List RNode} {d : Text} {is : List Info} (h : KidsLike ks d is) : dataOf ks = d := by
  induction ks generalizing d is with
  | nil => cases h; rfl
  | cons k ks ih =>
    cases h with
    | text h => simp [dataOf, ih h]
    | elem h1 h2 =>
      obtain ⟨n, as, bs, ks', d', is', rfl, -⟩ := h1.cases
      simp [dataOf, ih h2]

theorem kidsLike_filter {ks : List RNode} {d : Text} {is : List Info} (h : KidsLike ks d is) (p : XName → Bool) :
    List.Forall₂ Like (ks.filter (nodeNamed p)) (is.filter fun i => p i.name) := by
  induction ks generalizing d is with
  | nil => cases h; exact .nil
  | cons k ks ih =>
    cases h with
    | text h => simpa [nodeNamed] using ih h
    | elem h1 h2 =>
      have hr := ih h2
      obtain ⟨n, as, bs, ks', d', is', rfl, rfl, h3, h4⟩ := h1.cases
      by_cases hp : p n = true
      · simp only [List.filter_cons, nodeNamed, Info.name, hp, if_true]
        exact .cons (.elem h3 h4) hr
      · simp only [List.filter_cons, nodeNamed, Info.name, hp]
        exact hr

/-! ### One field at a time -/

/-- Texts into a variable, one after the other. -/
def textsFold (t : Ty) : List Text → Val → GoRes Val
  | [], v => .ok v
  | s :: ss, _ => (fromText t s).bind (textsFold t ss)

/-- The attribute values for a field. -/
def attrTexts (f : FieldInfo) (as : List (XName × Text)) : List Text := (as.filter fun a => a.1.loc = f.xml).map (·.2)

/-- What one element does to a field. -/
def fieldStep (nm : FieldInfo → XName) (f : FieldInfo) (t : Ty) (d : ElemDec) (as : List (XName × Text)) (ks : List RNode) (v : Val) :
    GoRes Val :=
  match f.xmlKind with
  | .attr => textsFold t (attrTexts f as) v
  | .elem => foldNodes d (ks.filter (nodeNamed (matches_ (nm f)))) v
  | .chardata => fromText t (dataOf ks)
  | .skip => .ok v

/-- What one element does to all fields. -/
def phases (nm : FieldInfo → XName) (fs : List FieldInfo) (ts : List Ty) (ds : List ElemDec) (as : List (XName × Text)) (ks : List RNode)
    (vs : List Val) : GoRes (List Val) :=
  (attrsFold fs ts as vs).bind fun vs => (kidsFold nm fs ds ks vs).bind fun vs => setData (dataOf ks) fs ts vs

theorem attrsFold_cons (f : FieldInfo) (fs : List FieldInfo) (t : Ty) (ts : List Ty) (as : List (XName × Text)) :
    ∀ (v : Val) (vs us : List Val), attrsFold (f :: fs) (t :: ts) as (v :: vs) = .ok us ↔
      ∃ w ws, us = w :: ws ∧ (if f.xmlKind = .attr then textsFold t (attrTexts f as) v else .ok v) = .ok w ∧
        attrsFold fs ts as vs = .ok ws := by
  induction as with
  | nil =>
    intro v vs us
    simp only [attrsFold, attrTexts, List.filter_nil, List.map_nil, textsFold, GoRes.ok.injEq, ite_self]
    constructor
    · intro h; exact ⟨v, vs, h.symm, rfl, rfl⟩
    · rintro ⟨w, ws, rfl, rfl, rfl⟩; rfl
  | cons a as ih =>
    intro v vs us
    obtain ⟨n, s⟩ := a
    simp only [attrsFold, setAttr, GoRes.bind_eq_ok]
    constructor
    · rintro ⟨us1, ⟨v', h1, vs', h2, h3⟩, h4⟩
      simp only [GoRes.ok.injEq] at h3
      subst h3
      obtain ⟨w, ws, rfl, h5, h6⟩ := (ih v' vs' us).1 h4
      refine ⟨w, ws, rfl, ?_, vs', h2, h6⟩
      by_cases hk : f.xmlKind = .attr
      · simp only [hk, true_and, if_true] at h1 h5 ⊢
        by_cases hn : f.xml = n.loc
        · rw [if_pos hn] at h1
          simp only [attrTexts, List.filter_cons, decide_eq_true_eq, hn.symm, if_true, List.map_cons, textsFold, h1, GoRes.bind]
          simpa [attrTexts, hn] using h5
        · rw [if_neg hn] at h1
          simp only [GoRes.ok.injEq] at h1
          subst h1
          have hn' : ¬ n.loc = f.xml := fun h => hn h.symm
          simpa [attrTexts, hn'] using h5
      · simp only [hk, false_and, if_false, GoRes.ok.injEq] at h1 h5 ⊢
        exact h1.trans h5
    · rintro ⟨w, ws, rfl, h5, vs', h2, h6⟩
      by_cases hk : f.xmlKind = .attr
      · simp only [hk, true_and, if_true] at h5 ⊢
        by_cases hn : f.xml = n.loc
        · simp only [attrTexts, List.filter_cons, decide_eq_true_eq, hn.symm, if_true, List.map_cons, textsFold] at h5
          obtain ⟨v', h1, h7⟩ := GoRes.bind_eq_ok.1 h5
          refine ⟨v' :: vs', ⟨v', by rw [if_pos hn]; exact h1, vs', h2, rfl⟩, (ih v' vs' _).2 ⟨w, ws, rfl, ?_, h6⟩⟩
          rw [if_pos hk]
          simpa [attrTexts, hn] using h7
        · refine ⟨v :: vs', ⟨v, by rw [if_neg hn], vs', h2, rfl⟩, (ih v vs' _).2 ⟨w, ws, rfl, ?_, h6⟩⟩
          rw [if_pos hk]
          have hn' : ¬ n.loc = f.xml := fun h => hn h.symm
          simpa [attrTexts, hn'] using h5
      · simp only [hk, false_and, if_false, GoRes.ok.injEq] at h5 ⊢
        exact ⟨v :: vs', ⟨v, rfl, vs', h2, rfl⟩, (ih v vs' _).2 ⟨w, ws, rfl, by rw [if_neg hk, h5], h6⟩⟩

theorem matches_loc {a b n : XName} (h1 : matches_ a n = true) (h2 : matches_ b n = true) : a.loc = b.loc := by
  simp only [matches_, Bool.and_eq_true, beq_iff_eq] at h1 h2
  rw [h1.2, h2.2]

theorem kidsFold_cons {nm : FieldInfo → XName} (hnm : ∀ f, (nm f).loc = f.xml) (f : FieldInfo) (fs : List FieldInfo) (d : ElemDec)
    (ds : List ElemDec) (hf : f.xmlKind = .elem → ∀ g ∈ fs, g.xmlKind = .elem → g.xml ≠ f.xml) (ks : List RNode) :
    ∀ (v : Val) (vs us : List Val), kidsFold nm (f :: fs) (d :: ds) ks (v :: vs) = .ok us ↔
      ∃ w ws, us = w :: ws ∧ (if f.xmlKind = .elem then foldNodes d (ks.filter (nodeNamed (matches_ (nm f)))) v else .ok v) = .ok w ∧
        kidsFold nm fs ds ks vs = .ok ws := by
  induction ks with
  | nil =>
    intro v vs us
    simp only [kidsFold, List.filter_nil, foldNodes, ite_self, GoRes.ok.injEq]
    constructor
    · intro h; exact ⟨v, vs, h.symm, rfl, rfl⟩
    · rintro ⟨w, ws, rfl, rfl, rfl⟩; rfl
  | cons k ks ih =>
    intro v vs us
    cases k with
    | text s =>
      simp only [kidsFold, List.filter_cons, nodeNamed, Bool.false_eq_true, if_false]
      exact ih v vs us
    | elem n as cs =>
      by_cases hm : (f.xmlKind == .elem && matches_ (nm f) n) = true
      · have hm' := hm
        simp only [Bool.and_eq_true, beq_iff_eq] at hm'
        have hnone : fs.findIdx? (fun g => g.xmlKind == .elem && matches_ (nm g) n) = none := by
          rw [List.findIdx?_eq_none_iff]
          intro g hg
          by_contra hc
          rw [Bool.not_eq_false, Bool.and_eq_true, beq_iff_eq] at hc
          refine hf hm'.1 g hg hc.1 ?_
          rw [← hnm, ← hnm]
          exact matches_loc hc.2 hm'.2
        simp only [kidsFold, List.findIdx?_cons, hm, if_true, hnone, List.filter_cons, nodeNamed, hm'.2, foldNodes, hm'.1, beq_self_eq_true, Bool.and_true]
        simp only [GoRes.bind_eq_ok, List.getD_cons_zero, List.set_cons_zero]
        constructor
        · rintro ⟨v', h1, h2⟩
          obtain ⟨w, ws, rfl, h3, h4⟩ := (ih v' vs us).1 h2
          rw [if_pos hm'.1] at h3
          exact ⟨w, ws, rfl, ⟨v', h1, h3⟩, h4⟩
        · rintro ⟨w, ws, rfl, ⟨v', h1, h3⟩, h4⟩
          exact ⟨v', h1, (ih v' vs _).2 ⟨w, ws, rfl, by rw [if_pos hm'.1]; exact h3, h4⟩⟩
      · have hfil : (if f.xmlKind = .elem then foldNodes d ((RNode.elem n as cs :: ks).filter (nodeNamed (matches_ (nm f)))) v else .ok v)
            = (if f.xmlKind = .elem then foldNodes d (ks.filter (nodeNamed (matches_ (nm f)))) v else .ok v) := by
          by_cases hk : f.xmlKind = .elem
          · simp only [hk, beq_self_eq_true, Bool.true_and] at hm
            simp [hk, List.filter_cons, nodeNamed, hm]
          · simp [hk]
        rw [hfil]
        simp only [kidsFold, List.findIdx?_cons, hm]
        cases hj : fs.findIdx? (fun g => g.xmlKind == .elem && matches_ (nm g) n) with
        | none =>
          simp only [Bool.false_eq_true, if_false, Option.map_none]
          exact ih v vs us
        | some j =>
          simp only [Bool.false_eq_true, if_false, Option.map_some, List.getD_cons_succ, List.set_cons_succ, GoRes.bind_eq_ok]
          constructor
          · rintro ⟨v', h1, h2⟩
            obtain ⟨w, ws, rfl, h3, h4⟩ := (ih v _ us).1 h2
            exact ⟨w, ws, rfl, h3, v', h1, h4⟩
          · rintro ⟨w, ws, rfl, h3, v', h1, h4⟩
            exact ⟨v', h1, (ih v _ _).2 ⟨w, ws, rfl, h3, h4⟩⟩

theorem setData_cons (s : Text) (f : FieldInfo) (fs : List FieldInfo) (t : Ty) (ts : List Ty)
    (hf : f.xmlKind = .chardata → ∀ g ∈ fs, g.xmlKind ≠ .chardata) (v : Val) (vs us : List Val) :
    setData s (f :: fs) (t :: ts) (v :: vs) = .ok us ↔
      ∃ w ws, us = w :: ws ∧ (if f.xmlKind = .chardata then fromText t s else .ok v) = .ok w ∧ setData s fs ts vs = .ok ws := by
  by_cases hk : f.xmlKind = .chardata
  · simp only [setData, hk, if_true, GoRes.bind_eq_ok, GoRes.ok.injEq]
    rw [setData_none (hf hk)]
    constructor
    · rintro ⟨w, h1, h2⟩; exact ⟨w, vs, h2.symm, h1, rfl⟩
    · rintro ⟨w, ws, rfl, h1, h2⟩
      simp only [GoRes.ok.injEq] at h2
      exact ⟨w, h1, by rw [h2]⟩
  · simp only [setData, hk, if_false, GoRes.bind_eq_ok, GoRes.ok.injEq]
    constructor
    · rintro ⟨ws, h1, h2⟩; exact ⟨v, ws, h2.symm, rfl, h1⟩
    · rintro ⟨w, ws, rfl, rfl, h2⟩; exact ⟨ws, h2, rfl⟩

/-- The struct's fields can be told apart. -/
def goodHead (f : FieldInfo) (t : Ty) (fs : List FieldInfo) : Bool :=
  match f.xmlKind with
  | .elem => fs.all fun g => !(g.xmlKind == .elem && g.xml == f.xml)
  | .attr => simpleTy t && attrFields.contains f.xml
  | .chardata => simpleTy t && fs.all fun g => !(g.xmlKind == .chardata)
  | .skip => true

mutual
/-- All structs in the type are such. -/
def goodTy : Ty → Bool
  | .ptr t => goodTy t
  | .slice t => goodTy t
  | .struct info ts => goodFields info.fields ts
  | _ => true
/-- The same for fields. -/
def goodFields : List FieldInfo → List Ty → Bool
  | [], [] => true
  | f :: fs, t :: ts => goodHead f t fs && goodTy t && goodFields fs ts
  | _, _ => false
end

theorem goodHead_elem {f : FieldInfo} {t : Ty} {fs : List FieldInfo} (h : goodHead f t fs = true) (hk : f.xmlKind = .elem) :
    ∀ g ∈ fs, g.xmlKind = .elem → g.xml ≠ f.xml := by
  intro g hg hgk he
  simp only [goodHead, hk, List.all_eq_true, Bool.not_eq_true', Bool.and_eq_false_iff, beq_eq_false_iff_ne] at h
  rcases h g hg with h | h
  · exact h hgk
  · exact h he

theorem goodHead_data {f : FieldInfo} {t : Ty} {fs : List FieldInfo} (h : goodHead f t fs = true) (hk : f.xmlKind = .chardata) :
    ∀ g ∈ fs, g.xmlKind ≠ .chardata := by
  intro g hg
  simp only [goodHead, hk, Bool.and_eq_true, List.all_eq_true, Bool.not_eq_true', beq_eq_false_iff_ne] at h
  exact h.2 g hg

theorem phases_cons {nm : FieldInfo → XName} (hnm : ∀ f, (nm f).loc = f.xml) {f : FieldInfo} {fs : List FieldInfo} {t : Ty}
    (hg : goodHead f t fs = true) (ts : List Ty) (d : ElemDec) (ds : List ElemDec) (as : List (XName × Text)) (ks : List RNode) (v : Val)
    (vs us : List Val) : phases nm (f :: fs) (t :: ts) (d :: ds) as ks (v :: vs) = .ok us ↔
      ∃ w ws, us = w :: ws ∧ fieldStep nm f t d as ks v = .ok w ∧ phases nm fs ts ds as ks vs = .ok ws := by
  unfold phases fieldStep
  simp only [GoRes.bind_eq_ok, attrsFold_cons]
  constructor
  · rintro ⟨x, ⟨a, as', rfl, h1, h2⟩, y, h3, h4⟩
    obtain ⟨b, bs, rfl, h5, h6⟩ := (kidsFold_cons hnm f fs d ds (goodHead_elem hg) ks _ _ _).1 h3
    obtain ⟨c, cs, rfl, h7, h8⟩ := (setData_cons _ f fs t ts (goodHead_data hg) _ _ _).1 h4
    refine ⟨c, cs, rfl, ?_, as', h2, bs, h6, h8⟩
    cases hk : f.xmlKind with
    | attr => simp only [hk, reduceCtorEq, if_true, if_false, GoRes.ok.injEq] at *; rw [h1, h5, h7]
    | elem => simp only [hk, reduceCtorEq, if_true, if_false, GoRes.ok.injEq] at *; rw [h1, h5, h7]
    | chardata => simp only [hk, reduceCtorEq, if_true, if_false, GoRes.ok.injEq] at *; exact h7
    | skip => simp only [hk, reduceCtorEq, if_true, if_false, GoRes.ok.injEq] at *; rw [h1, h5, h7]
  · rintro ⟨w, ws, rfl, h1, as', h2, bs, h3, h4⟩
    cases hk : f.xmlKind with
    | attr =>
      simp only [hk] at h1
      exact ⟨w :: as', ⟨w, as', rfl, by simp [hk, h1], h2⟩, w :: bs,
        (kidsFold_cons hnm f fs d ds (goodHead_elem hg) ks _ _ _).2 ⟨w, bs, rfl, by simp [hk], h3⟩,
        (setData_cons _ f fs t ts (goodHead_data hg) _ _ _).2 ⟨w, ws, rfl, by simp [hk], h4⟩⟩
    | elem =>
      simp only [hk] at h1
      exact ⟨v :: as', ⟨v, as', rfl, by simp [hk], h2⟩, w :: bs,
        (kidsFold_cons hnm f fs d ds (goodHead_elem hg) ks _ _ _).2 ⟨w, bs, rfl, by simp [hk, h1], h3⟩,
        (setData_cons _ f fs t ts (goodHead_data hg) _ _ _).2 ⟨w, ws, rfl, by simp [hk], h4⟩⟩
    | chardata =>
      simp only [hk] at h1
      exact ⟨v :: as', ⟨v, as', rfl, by simp [hk], h2⟩, v :: bs,
        (kidsFold_cons hnm f fs d ds (goodHead_elem hg) ks _ _ _).2 ⟨v, bs, rfl, by simp [hk], h3⟩,
        (setData_cons _ f fs t ts (goodHead_data hg) _ _ _).2 ⟨w, ws, rfl, by simp [hk, h1], h4⟩⟩
    | skip =>
      simp only [hk, GoRes.ok.injEq] at h1
      subst h1
      exact ⟨v :: as', ⟨v, as', rfl, by simp [hk], h2⟩, v :: bs,
        (kidsFold_cons hnm f fs d ds (goodHead_elem hg) ks _ _ _).2 ⟨v, bs, rfl, by simp [hk], h3⟩,
        (setData_cons _ f fs t ts (goodHead_data hg) _ _ _).2 ⟨v, ws, rfl, by simp [hk], h4⟩⟩

/-! ### Several elements -/

/-- Elements into the fields of a struct. -/
def nodesFold (nm : FieldInfo → XName) (fs : List FieldInfo) (ts : List Ty) (ds : List ElemDec) : List RNode → List Val → GoRes (List Val)
  | [], vs => .ok vs
  | .text _ :: r, vs => nodesFold nm fs ts ds r vs
  | .elem _ as ks :: r, vs => (phases nm fs ts ds as ks vs).bind (nodesFold nm fs ts ds r)

/-- Elements into a field. -/
def fieldFold (nm : FieldInfo → XName) (f : FieldInfo) (t : Ty) (d : ElemDec) : List RNode → Val → GoRes Val
  | [], v => .ok v
  | .text _ :: r, v => fieldFold nm f t d r v
  | .elem _ as ks :: r, v => (fieldStep nm f t d as ks v).bind (fieldFold nm f t d r)

theorem nodesFold_cons {nm : FieldInfo → XName} (hnm : ∀ f, (nm f).loc = f.xml) {f : FieldInfo} {fs : List FieldInfo} {t : Ty}
    (hg : goodHead f t fs = true) (ts : List Ty) (d : ElemDec) (ds : List ElemDec) (rs : List RNode) : ∀ (v : Val)
    (vs us : List Val), nodesFold nm (f :: fs) (t :: ts) (d :: ds) rs (v :: vs) = .ok us ↔
      ∃ w ws, us = w :: ws ∧ fieldFold nm f t d rs v = .ok w ∧ nodesFold nm fs ts ds rs vs = .ok ws := by
  induction rs with
  | nil =>
    intro v vs us
    simp only [nodesFold, fieldFold, GoRes.ok.injEq]
    constructor
    · intro h; exact ⟨v, vs, h.symm, rfl, rfl⟩
    · rintro ⟨w, ws, rfl, rfl, rfl⟩; rfl
  | cons k rs ih =>
    intro v vs us
    cases k with
    | text s => exact ih v vs us
    | elem n as ks =>
      simp only [nodesFold, fieldFold, GoRes.bind_eq_ok, phases_cons hnm hg]
      constructor
      · rintro ⟨x, ⟨a, as', rfl, h1, h2⟩, h3⟩
        obtain ⟨w, ws, rfl, h4, h5⟩ := (ih _ _ _).1 h3
        exact ⟨w, ws, rfl, ⟨a, h1, h4⟩, as', h2, h5⟩
      · rintro ⟨w, ws, rfl, ⟨a, h1, h4⟩, as', h2, h5⟩
        exact ⟨_, ⟨a, as', rfl, h1, h2⟩, (ih _ _ _).2 ⟨w, ws, rfl, h4, h5⟩⟩

theorem foldNodes_append (d : ElemDec) (a b : List RNode) (v : Val) : foldNodes d (a ++ b) v = (foldNodes d a v).bind (foldNodes d b) := by
  induction a generalizing v with
  | nil => rfl
  | cons k a ih =>
    cases k with
    | text s => exact ih v
    | elem n as ks =>
      simp only [List.cons_append, foldNodes, GoRes.bind_assoc]
      congr 1; funext x; exact ih x

theorem textsFold_append (t : Ty) (a b : List Text) (v : Val) : textsFold t (a ++ b) v = (textsFold t a v).bind (textsFold t b) := by
  induction a generalizing v with
  | nil => rfl
  | cons k a ih =>
    simp only [List.cons_append, textsFold, GoRes.bind_assoc]
    congr 1; funext x; exact ih x

/-- The texts: all readable, the last counts. -/
theorem textsFold_iff (t : Ty) (l : List Text) (v0 v : Val) : textsFold t l v0 = .ok v ↔
    (∀ s ∈ l, ∃ w, Scalar t s w) ∧ match l.getLast? with | none => v = v0 | some s => Scalar t s v := by
  induction l generalizing v0 with
  | nil => simp [textsFold, eq_comm]
  | cons s l ih =>
    simp only [textsFold, GoRes.bind_eq_ok]
    constructor
    · rintro ⟨w, h1, h2⟩
      obtain ⟨h3, h4⟩ := (ih w).1 h2
      have hs := (fromText_iff t s w).1 h1
      refine ⟨?_, ?_⟩
      · intro x hx
        rcases List.mem_cons.1 hx with rfl | hx
        · exact ⟨w, hs⟩
        · exact h3 x hx
      · cases l with
        | nil => simp only [List.getLast?_nil] at h4; subst h4; simpa using hs
        | cons y l => rw [List.getLast?_cons_cons]; exact h4
    · rintro ⟨h1, h2⟩
      obtain ⟨w, hw⟩ := h1 s (by simp)
      cases l with
      | nil =>
        simp only [List.getLast?_singleton] at h2
        exact ⟨v, (fromText_iff t s v).2 h2, rfl⟩
      | cons y l =>
        rw [List.getLast?_cons_cons] at h2
        exact ⟨w, (fromText_iff t s w).2 hw, (ih w).2 ⟨fun x hx => h1 x (by simp [hx]), h2⟩⟩

theorem attrTexts_like {f : FieldInfo} (hf : f.xml ∈ attrFields) {as bs : List (XName × Text)} (h : AttrsLike as bs) :
    attrTexts f as = attrTexts f bs := by
  induction h with
  | nil => rfl
  | @drop a as bs hd _ ih =>
    have : ¬ a.1.loc = f.xml := fun he => hd (he ▸ hf)
    simp only [attrTexts, List.filter_cons, this, decide_false, Bool.false_eq_true, if_false] at ih ⊢
    exact ih
  | @keep a as bs _ ih =>
    simp only [attrTexts, List.filter_cons] at ih ⊢
    split
    · simp only [List.map_cons, ih]
    · exact ih

theorem matches_iff (w n : XName) : matches_ w n = true ↔ Named w n := by
  simp only [matches_, Named, Bool.and_eq_true, Bool.or_eq_true, beq_iff_eq]
  constructor
  · rintro ⟨h1, h2⟩; exact ⟨h2.symm, h1.imp id Eq.symm⟩
  · rintro ⟨h1, h2⟩; exact ⟨h2.imp id Eq.symm, h1.symm⟩

theorem fieldFold_attr {nm : FieldInfo → XName} {f : FieldInfo} {t : Ty} {d : ElemDec} (hk : f.xmlKind = .attr) (hf : f.xml ∈ attrFields)
    {rs : List RNode} {is : List Info} (h : List.Forall₂ Like rs is) (v : Val) :
    fieldFold nm f t d rs v = textsFold t (attrsFor f is) v := by
  induction h generalizing v with
  | nil => rfl
  | @cons r i rs is hri _ ih =>
    obtain ⟨n, as, bs, ks, d', is', rfl, rfl, h1, h2⟩ := hri.cases
    simp only [fieldFold, fieldStep, hk, attrsFor, List.flatMap_cons, textsFold_append, Info.attrs]
    rw [attrTexts_like hf h1]
    unfold attrTexts
    congr 1; funext x; exact ih x

theorem fieldFold_data {nm : FieldInfo → XName} {f : FieldInfo} {t : Ty} {d : ElemDec} (hk : f.xmlKind = .chardata)
    {rs : List RNode} {is : List Info} (h : List.Forall₂ Like rs is) (v : Val) :
    fieldFold nm f t d rs v = textsFold t (is.map Info.data) v := by
  induction h generalizing v with
  | nil => rfl
  | @cons r i rs is hri _ ih =>
    obtain ⟨n, as, bs, ks, d', is', rfl, rfl, h1, h2⟩ := hri.cases
    simp only [fieldFold, fieldStep, hk, List.map_cons, textsFold, Info.data, kidsLike_data h2]
    congr 1; funext x; exact ih x

theorem fieldFold_skip {nm : FieldInfo → XName} {f : FieldInfo} {t : Ty} {d : ElemDec} (hk : f.xmlKind = .skip)
    (rs : List RNode) (v : Val) : fieldFold nm f t d rs v = .ok v := by
  induction rs with
  | nil => rfl
  | cons r rs ih =>
    cases r with
    | text s => exact ih
    | elem n as ks => simp only [fieldFold, fieldStep, hk, GoRes.bind]; exact ih

theorem forall₂_append {α β : Type} {R : α → β → Prop} {a a' : List α} {b b' : List β} (h1 : List.Forall₂ R a b) (h2 : List.Forall₂ R a' b') :
    List.Forall₂ R (a ++ a') (b ++ b') := by
  induction h1 with
  | nil => exact h2
  | cons h _ ih => exact .cons h ih

theorem fieldFold_elem {info : StructInfo} {f : FieldInfo} {t : Ty} {d : ElemDec} (hk : f.xmlKind = .elem)
    {rs : List RNode} {is : List Info} (h : List.Forall₂ Like rs is) :
    ∃ ns, List.Forall₂ Like ns (elemsFor info f is) ∧ ∀ v, fieldFold (fieldName info) f t d rs v = foldNodes d ns v := by
  induction h with
  | nil => exact ⟨[], .nil, fun v => rfl⟩
  | @cons r i rs is hri _ ih =>
    obtain ⟨ns, h1, h2⟩ := ih
    obtain ⟨n, as, bs, ks, d', is', rfl, rfl, h3, h4⟩ := hri.cases
    refine ⟨ks.filter (nodeNamed (matches_ (fieldName info f))) ++ ns, ?_, ?_⟩
    · simp only [elemsFor, List.flatMap_cons, Info.kids]
      refine forall₂_append ?_ h1
      have := kidsLike_filter h4 (matches_ (fieldName info f))
      refine cast ?_ this
      congr 2
      funext i
      rw [Bool.eq_iff_iff, matches_iff, decide_eq_true_eq]
    · intro v
      simp only [fieldFold, fieldStep, hk, foldNodes_append]
      congr 1; funext x; exact h2 x

theorem fieldName_loc (info : StructInfo) (f : FieldInfo) : (fieldName info f).loc = f.xml := rfl

theorem struct_fold (info : StructInfo) (ts : List Ty) (rs : List RNode) : ∀ (vs : List Val) (v : Val),
    foldNodes (fromXml (.struct info ts)) rs (.struct vs) = .ok v ↔
      (∀ n as ks, RNode.elem n as ks ∈ rs → checkName info n = .ok ()) ∧
      ∃ ws, v = .struct ws ∧ nodesFold (fieldName info) info.fields ts (fromXmls ts) rs vs = .ok ws := by
  induction rs with
  | nil => intro vs v; simp [foldNodes, nodesFold, eq_comm]
  | cons r rs ih =>
    intro vs v
    cases r with
    | text s =>
      simp only [foldNodes, nodesFold, List.mem_cons, reduceCtorEq, false_or]
      exact ih vs v
    | elem n as ks =>
      have hstep : ∀ x, fromXml (.struct info ts) n as ks (.struct vs) = .ok x ↔
          checkName info n = .ok () ∧ ∃ us, phases (fieldName info) info.fields ts (fromXmls ts) as ks vs = .ok us ∧ x = .struct us := by
        intro x
        rw [fromXml]
        simp only [Codec.fieldsOf, GoRes.bind_eq_ok, phases, setAttrs_eq, setKids_eq, GoRes.ok.injEq]
        constructor
        · rintro ⟨u, h1, a, h2, b, h3, c, h4, h5⟩
          exact ⟨h1, c, ⟨a, h2, b, h3, h4⟩, h5.symm⟩
        · rintro ⟨h1, c, ⟨a, h2, b, h3, h4⟩, h5⟩
          exact ⟨(), h1, a, h2, b, h3, c, h4, h5.symm⟩
      simp only [foldNodes, nodesFold, GoRes.bind_eq_ok, hstep]
      constructor
      · rintro ⟨x, ⟨h1, us, h2, rfl⟩, h3⟩
        obtain ⟨h4, ws, rfl, h5⟩ := (ih us v).1 h3
        refine ⟨?_, ws, rfl, us, h2, h5⟩
        intro n' as' ks' hm
        rcases List.mem_cons.1 hm with he | hm
        · simp only [RNode.elem.injEq] at he; rw [he.1]; exact h1
        · exact h4 _ _ _ hm

      · rintro ⟨h1, ws, rfl, us, h2, h5⟩
        exact ⟨_, ⟨h1 n as ks (by simp), us, h2, rfl⟩, (ih us _).2 ⟨fun n' as' ks' hm => h1 n' as' ks' (List.mem_cons_of_mem _ hm), ws, rfl, h5⟩⟩

theorem ptr_fold_some (t : Ty) (rs : List RNode) : ∀ (v0 v : Val), foldNodes (fromXml (.ptr t)) rs (.ptr v0) = .ok v ↔
    ∃ w, v = .ptr w ∧ foldNodes (fromXml t) rs v0 = .ok w := by
  induction rs with
  | nil => intro v0 v; simp [foldNodes, eq_comm]
  | cons r rs ih =>
    intro v0 v
    cases r with
    | text s => exact ih v0 v
    | elem n as ks =>
      simp only [foldNodes, fromXml, GoRes.bind_eq_ok, GoRes.ok.injEq]
      constructor
      · rintro ⟨x, ⟨y, h1, rfl⟩, h2⟩
        obtain ⟨w, rfl, h3⟩ := (ih y v).1 h2
        exact ⟨w, rfl, y, h1, h3⟩
      · rintro ⟨w, rfl, y, h1, h3⟩
        exact ⟨_, ⟨y, h1, rfl⟩, (ih y _).2 ⟨w, rfl, h3⟩⟩

theorem slice_fold_some (t : Ty) (P : RNode → Val → Prop)
    (hP : ∀ n as ks w, fromXml t n as ks (zeroVal t) = .ok w ↔ P (.elem n as ks) w) {rs : List RNode} (hr : ∀ r ∈ rs, ∃ n as ks, r = RNode.elem n as ks) :
    ∀ (us : List Val) (v : Val), foldNodes (fromXml (.slice t)) rs (.slice us) = .ok v ↔
      ∃ vs, v = .slice (us ++ vs) ∧ List.Forall₂ P rs vs := by
  induction rs with
  | nil =>
    intro us v
    simp only [foldNodes, GoRes.ok.injEq, List.forall₂_nil_left_iff]
    constructor
    · rintro rfl; exact ⟨[], by simp, rfl⟩
    · rintro ⟨vs, rfl, rfl⟩; simp
  | cons r rs ih =>
    intro us v
    obtain ⟨n, as, ks, rfl⟩ := hr r (by simp)
    have ih' := ih fun r hm => hr r (by simp [hm])
    simp only [foldNodes, fromXml, GoRes.bind_eq_ok, GoRes.ok.injEq]
    constructor
    · rintro ⟨x, ⟨y, h1, rfl⟩, h2⟩
      obtain ⟨vs, rfl, h3⟩ := (ih' _ v).1 h2
      exact ⟨y :: vs, by simp, .cons ((hP _ _ _ _).1 h1) h3⟩
    · rintro ⟨vs, rfl, h3⟩
      cases h3 with
      | @cons _ y _ vs h4 h5 =>
        exact ⟨_, ⟨y, (hP _ _ _ _).2 h4, rfl⟩, (ih' _ _).2 ⟨vs, by simp, h5⟩⟩

theorem simple_fold {t : Ty} (ht : simpleTy t = true) {rs : List RNode} {is : List Info} (h : List.Forall₂ Like rs is) (v : Val) :
    foldNodes (fromXml t) rs v = textsFold t (is.map Info.data) v := by
  induction h generalizing v with
  | nil => rfl
  | @cons r i rs is hri _ ih =>
    obtain ⟨n, as, bs, ks, d', is', rfl, rfl, h1, h2⟩ := hri.cases
    simp only [foldNodes, fromXml_simple ht, List.map_cons, textsFold, Info.data, kidsLike_data h2]
    congr 1; funext x; exact ih x

theorem like_elems {rs : List RNode} {is : List Info} (h : List.Forall₂ Like rs is) : ∀ r ∈ rs, ∃ n as ks, r = RNode.elem n as ks := by
  induction h with
  | nil => simp
  | cons h1 _ ih =>
    intro r hr
    rcases List.mem_cons.1 hr with rfl | hr
    · obtain ⟨n, as, bs, ks, d, is, rfl, -⟩ := h1.cases; exact ⟨n, as, ks, rfl⟩
    · exact ih r hr

theorem forall₂_single {α β γ : Type} {R : α → β → Prop} {P : α → γ → Prop} {Q : β → γ → Prop} {a : List α} {b : List β} (h : List.Forall₂ R a b)
    (hPQ : ∀ x y z, R x y → (P x z ↔ Q y z)) (c : List γ) : List.Forall₂ P a c ↔ List.Forall₂ Q b c := by
  induction h generalizing c with
  | nil => constructor <;> (intro h; cases h; exact .nil)
  | cons h1 _ ih =>
    constructor
    · intro h
      cases h with
      | cons h2 h3 => exact .cons ((hPQ _ _ _ h1).1 h2) ((ih _).1 h3)
    · intro h
      cases h with
      | cons h2 h3 => exact .cons ((hPQ _ _ _ h1).2 h2) ((ih _).2 h3)

theorem names_like {info : StructInfo} {rs : List RNode} {is : List Info} (h : List.Forall₂ Like rs is) :
    (∀ n as ks, RNode.elem n as ks ∈ rs → checkName info n = .ok ()) ↔
      ∀ n, info.xmlName = some n → ∀ i ∈ is, Named ⟨n.1, n.2⟩ i.name := by
  have hc : ∀ n, checkName info n = .ok () ↔ ∀ m, info.xmlName = some m → Named ⟨m.1, m.2⟩ n := by
    intro n
    unfold checkName
    cases info.xmlName with
    | none => simp
    | some x =>
      simp only [Option.some.injEq, forall_eq']
      rw [← matches_iff]
      split
      · rename_i hm; simp [hm]
      · rename_i hm; simp [hm]
  simp only [hc]
  induction h with
  | nil => simp
  | @cons r i rs is h1 _ ih =>
    obtain ⟨n, as, bs, ks, d, is', rfl, rfl, -⟩ := h1.cases
    constructor
    · intro h m hm j hj
      rcases List.mem_cons.1 hj with rfl | hj
      · exact h n as ks (by simp) m hm
      · exact ih.1 (fun n' as' ks' hx => h n' as' ks' (by simp [hx])) m hm j hj
    · intro h n' as' ks' hx m hm
      rcases List.mem_cons.1 hx with he | hx
      · simp only [RNode.elem.injEq] at he
        have := h m hm (.elem n bs d is') (by simp)
        rw [he.1]; exact this
      · exact ih.2 (fun m hm j hj => h m hm j (by simp [hj])) n' as' ks' hx m hm

mutual
/-- Elements are decoded as what they mean, and only these. -/
theorem means_iff : ∀ (t : Ty), goodTy t = true → ∀ (rs : List RNode) (is : List Info) (v : Val), List.Forall₂ Like rs is →
    (foldNodes (fromXml t) rs (zeroVal t) = .ok v ↔ Means t is v)
  | .ptr t, hg, rs, is, v, h => by
    simp only [goodTy] at hg
    rw [Means]
    cases h with
    | nil => simp [foldNodes, zeroVal, eq_comm]
    | @cons r i rs is h1 h2 =>
      have key := means_iff t hg (r :: rs) (i :: is)
      have hl : List.Forall₂ Like (r :: rs) (i :: is) := .cons h1 h2
      obtain ⟨n, as, bs, ks, d, is', rfl, rfl, h3, h4⟩ := h1.cases
      simp only [reduceCtorEq, false_and, ne_eq, not_false_eq_true, true_and, false_or, foldNodes, fromXml, zeroVal, GoRes.bind_eq_ok,
        GoRes.ok.injEq]
      constructor
      · rintro ⟨x, ⟨y, h5, rfl⟩, h6⟩
        obtain ⟨w, rfl, h7⟩ := (ptr_fold_some t rs y v).1 h6
        refine ⟨w, rfl, (key w hl).1 ?_⟩
        simp only [foldNodes, h5, GoRes.bind]
        exact h7
      · rintro ⟨w, rfl, h5⟩
        have h6 := (key w hl).2 h5
        simp only [foldNodes, GoRes.bind_eq_ok] at h6
        obtain ⟨y, h7, h8⟩ := h6
        exact ⟨_, ⟨y, h7, rfl⟩, (ptr_fold_some t rs y _).2 ⟨w, rfl, h8⟩⟩
  | .slice t, hg, rs, is, v, h => by
    simp only [goodTy] at hg
    rw [Means]
    have hsing : ∀ r i w, Like r i → (foldNodes (fromXml t) [r] (zeroVal t) = .ok w ↔ Means t [i] w) :=
      fun r i w hri => means_iff t hg [r] [i] w (.cons hri .nil)
    have hP : ∀ n as ks w, fromXml t n as ks (zeroVal t) = .ok w ↔ foldNodes (fromXml t) [.elem n as ks] (zeroVal t) = .ok w := by
      intro n as ks w
      simp only [foldNodes, GoRes.bind_eq_ok]
      constructor
      · intro h; exact ⟨w, h, rfl⟩
      · rintro ⟨x, h, h'⟩
        simp only [GoRes.ok.injEq] at h'
        rw [← h']; exact h
    have hall := forall₂_single h hsing
    cases h with
    | nil => simp [foldNodes, zeroVal, eq_comm]
    | @cons r i rs is h1 h2 =>
      have hel := like_elems (List.Forall₂.cons h1 h2)
      have hf := slice_fold_some t (fun r w => foldNodes (fromXml t) [r] (zeroVal t) = .ok w) hP hel [] v
      obtain ⟨n, as, bs, ks, d, is', rfl, rfl, h3, h4⟩ := h1.cases
      have hnil : foldNodes (fromXml (.slice t)) (.elem n as ks :: rs) .nil = foldNodes (fromXml (.slice t)) (.elem n as ks :: rs) (.slice []) := by
        simp only [foldNodes, fromXml]
      simp only [zeroVal, reduceCtorEq, false_and, ne_eq, not_false_eq_true, true_and, false_or]
      rw [hnil, hf]
      simp only [List.nil_append, hall]
  | .struct info ts, hg, rs, is, v, h => by
    simp only [goodTy] at hg
    rw [Means, zeroVal, struct_fold, names_like h]
    have key := fields_iff info info.fields ts hg rs is
    simp only [key _ h]
  | .str, _, rs, is, v, h => by rw [simple_fold rfl h, textsFold_iff]; rfl
  | .int b, _, rs, is, v, h => by rw [simple_fold rfl h, textsFold_iff]; rfl
  | .float, _, rs, is, v, h => by rw [simple_fold rfl h, textsFold_iff]; rfl
  | .bool, _, rs, is, v, h => by rw [simple_fold rfl h, textsFold_iff]; rfl
  | .time, _, rs, is, v, h => by rw [simple_fold rfl h, textsFold_iff]; rfl
/-- The same for fields. -/
theorem fields_iff (info : StructInfo) : ∀ (fs : List FieldInfo) (ts : List Ty), goodFields fs ts = true → ∀ (rs : List RNode) (is : List Info)
    (vs : List Val), List.Forall₂ Like rs is →
    (nodesFold (fieldName info) fs ts (fromXmls ts) rs (zeroVals ts) = .ok vs ↔ MeansFields info fs ts is vs)
  | [], [], _, rs, is, vs, h => by
    have hn : ∀ rs : List RNode, nodesFold (fieldName info) [] [] (fromXmls []) rs [] = .ok [] := by
      intro rs
      induction rs with
      | nil => rfl
      | cons r rs ih =>
        cases r with
        | text s => exact ih
        | elem n as ks =>
          have : phases (fieldName info) [] [] (fromXmls []) as ks [] = .ok [] := by
            unfold phases
            have h1 : ∀ as : List (XName × Text), attrsFold [] [] as [] = .ok [] := fun as => attrsFold_other (by simp) _ _
            have h2 : ∀ ks : List RNode, kidsFold (fieldName info) [] (fromXmls []) ks [] = .ok [] := by
              intro ks
              induction ks with
              | nil => rfl
              | cons k ks ih => cases k <;> simp [kidsFold, ih]
            simp [h1, h2, GoRes.bind, setData]
          simp only [nodesFold, this, GoRes.bind]
          exact ih
    rw [zeroVals, hn]
    cases vs <;> simp [MeansFields]
  | f :: fs, t :: ts, hg, rs, is, vs, h => by
    simp only [goodFields, Bool.and_eq_true] at hg
    obtain ⟨⟨hg1, hg2⟩, hg3⟩ := hg
    have ihf := fields_iff info fs ts hg3 rs is
    rw [zeroVals, fromXmls, nodesFold_cons (fieldName_loc info) hg1]
    have hfield : ∀ w, fieldFold (fieldName info) f t (fromXml t) rs (zeroVal t) = .ok w ↔
        (match f.xmlKind with
          | .attr => ScalarLast t (attrsFor f is) w
          | .elem => Means t (elemsFor info f is) w
          | .chardata => ScalarLast t (is.map Info.data) w
          | .skip => w = zeroVal t) := by
      intro w
      cases hk : f.xmlKind with
      | attr =>
        simp only [goodHead, hk, Bool.and_eq_true] at hg1
        rw [fieldFold_attr hk (by simpa using hg1.2) h, textsFold_iff]
        rfl
      | elem =>
        obtain ⟨ns, h1, h2⟩ := fieldFold_elem (info := info) (t := t) (d := fromXml t) hk h
        rw [h2]
        exact means_iff t hg2 ns _ w h1
      | chardata => rw [fieldFold_data hk h, textsFold_iff]; rfl
      | skip => rw [fieldFold_skip hk]; simp [eq_comm]
    cases vs with
    | nil => simp [MeansFields]
    | cons v vs =>
      simp only [MeansFields, List.cons.injEq]
      constructor
      · rintro ⟨w, ws, ⟨rfl, rfl⟩, h1, h2⟩
        exact ⟨(hfield _).1 h1, (ihf _ h).1 h2⟩
      · rintro ⟨h1, h2⟩
        exact ⟨v, vs, ⟨rfl, rfl⟩, (hfield _).2 h1, (ihf _ h).2 h2⟩
  | [], _ :: _, hg, _, _, _, _ => by simp [goodFields] at hg
  | _ :: _, [], hg, _, _, _, _ => by simp [goodFields] at hg
end

end Verif.Xml
