import Verif.Lemmas.Means
import Verif.Lemmas.XmlDoc2
/-!
# The decoder's tree says what the document says
-/
set_option linter.unusedSimpArgs false
namespace Verif.Xml

theorem ncName_noColon {n : Text} (h : NCName n) : ':' ∉ n ∧ n ≠ [] := by
  obtain ⟨⟨c, r, rfl, -⟩, -, h3⟩ := ncName_ok h
  exact ⟨List.count_eq_zero.1 h3, by simp⟩

theorem splitName_noColon {n : Text} (h : ':' ∉ n) : splitName n = ⟨[], n⟩ := by
  unfold splitName
  have : n.dropWhile (· ≠ ':') = [] := by
    have := dropWhile_all (p := fun c => decide (c ≠ ':')) (a := n) (fun c hc => by
      have : c ≠ ':' := fun he => h (he ▸ hc)
      simpa using this) []
    rw [List.append_nil] at this
    rw [this]; rfl
  simp only [this]

theorem splitName_colon {p l : Text} (hp : ':' ∉ p) (hp' : p ≠ []) (hl : l ≠ []) : splitName (p ++ ':' :: l) = ⟨p, l⟩ := by
  have key := takeWhile_app (p := fun c => decide (c ≠ ':')) (n := p) (by
    rw [List.all_eq_true]; intro c hc
    have : c ≠ ':' := fun he => hp (he ▸ hc)
    simpa using this) (c := ':') (by decide) l
  unfold splitName
  simp only [key.1, key.2]
  simp [hp', hl]

theorem declName_inj {p q : Text} (h : declName p = declName q) : p = q := by
  unfold declName at h
  split at h <;> split at h
  · simp_all
  · have := congrArg (fun l => l[5]?) h
    have h1 : ("xmlns:".toList ++ q)[5]? = some ':' := rfl
    simp only [h1] at this
    exact absurd this (by decide)
  · have := congrArg (fun l => l[5]?) h
    have h1 : ("xmlns:".toList ++ p)[5]? = some ':' := rfl
    simp only [h1] at this
    exact absurd this (by decide)
  · exact List.append_cancel_left h

theorem declName_colon {p : Text} (h : p ≠ []) : declName p = "xmlns".toList ++ ':' :: p := by
  unfold declName; rw [if_neg h]; rfl

theorem splitName_decl {p : Text} (h : p = [] ∨ NCName p) :
    splitName (declName p) = if p = [] then ⟨[], "xmlns".toList⟩ else ⟨"xmlns".toList, p⟩ := by
  by_cases hp : p = []
  · subst hp; decide
  · rw [if_neg hp, declName_colon hp]
    exact splitName_colon (by decide) (by decide) hp

theorem xmlPrefix (l : Text) : "xml:".toList ++ l = "xml".toList ++ ':' :: l := rfl

/-- A name that is not that of a declaration. -/
theorem attrName_split {σ : Scope} {n : Text} {m : XName} (h : AttrName σ n m) :
    (∃ l, n = l ∧ NCName l ∧ l ≠ "xmlns".toList ∧ splitName n = ⟨[], l⟩) ∨
    (∃ p l, n = p ++ ':' :: l ∧ NCName p ∧ NCName l ∧ p ≠ "xmlns".toList ∧ splitName n = ⟨p, l⟩) := by
  cases h with
  | default h1 h2 => exact Or.inl ⟨n, rfl, h1, h2, splitName_noColon (ncName_noColon h1).1⟩
  | @prefixed p l u h1 h2 h3 h4 h5 =>
    exact Or.inr ⟨p, l, rfl, h1, h2, h4, splitName_colon (ncName_noColon h1).1 (ncName_noColon h1).2 (ncName_noColon h2).2⟩
  | @xml l h1 =>
    rw [xmlPrefix]
    refine Or.inr ⟨_, l, rfl, ?_, h1, by decide, splitName_colon (by decide) (by decide) (ncName_noColon h1).2⟩
    exact ⟨'x', ['m', 'l'], rfl, by left; decide, fun d hd => by fin_cases hd <;> (left; left; decide)⟩

theorem attrName_notDecl {σ : Scope} {n : Text} {m : XName} (h : AttrName σ n m) (p : Text) : n ≠ declName p := by
  intro he
  rcases attrName_split h with ⟨l, rfl, h1, h2, h3⟩ | ⟨q, l, rfl, h1, h2, h3, h4⟩
  · by_cases hp : p = []
    · subst hp; exact h2 he
    · rw [declName_colon hp] at he
      have := (ncName_noColon h1).1
      rw [he] at this
      simp at this
  · by_cases hp : p = []
    · subst hp
      have : ':' ∈ q ++ ':' :: l := by simp
      rw [he] at this
      revert this; decide
    · rw [declName_colon hp] at he
      rw [he, splitName_colon (by decide) (by decide) hp] at h4
      simp only [XName.mk.injEq] at h4
      exact h3 h4.1.symm

theorem within_decl (σ : Scope) (q v : Text) (as : List (Text × Text)) :
    σ.within ((declName q, v) :: as) = Scope.within (fun p => if p = q then some v else σ p) as := by
  funext p
  unfold Scope.within
  by_cases h : p = q
  · subst h
    simp only [List.filter_cons, decide_true, if_true, List.getLast?_cons, Option.map_some]
    cases (as.filter fun a => decide (a.1 = declName p)).getLast? <;> simp
  · have h' : ¬ declName q = declName p := fun he => h (declName_inj he).symm
    simp [List.filter_cons, h, h']

theorem within_attr {σ τ : Scope} {n : Text} {m : XName} (h : AttrName τ n m) (v : Text) (as : List (Text × Text)) :
    σ.within ((n, v) :: as) = σ.within as := by
  funext p
  unfold Scope.within
  simp [List.filter_cons, attrName_notDecl h p]

theorem declare_within {τ : Scope} {as : List (Text × Text)} {bs : List (XName × Text)} (h : AttrsSay τ as bs) :
    ∀ (ns : List (Text × Text)) (σ : Scope), (∀ p, ns.lookup p = σ p) → ∀ p, (declare ns as).lookup p = σ.within as p := by
  induction h with
  | nil => intro ns σ hn p; simp [declare, Scope.within, hn]
  | @decl q v as bs hq _ ih =>
    intro ns σ hn p
    rw [within_decl]
    have hup : ∀ p, ((q, v) :: ns).lookup p = if p = q then some v else σ p := by
      intro p
      by_cases hpq : p = q
      · subst hpq; simp
      · have : (p == q) = false := by simpa using hpq
        rw [List.lookup_cons, this, if_neg hpq]; exact hn p
    rw [declare, splitName_decl hq]
    by_cases h0 : q = []
    · subst h0
      simp only [if_true]
      rw [if_neg (by decide), if_pos ⟨trivial, trivial⟩]
      exact ih _ _ hup p
    · simp only [h0, if_false, if_true]
      exact ih _ _ hup p
  | @attr n m v as bs hn' _ ih =>
    intro ns σ hn p
    rw [within_attr hn', declare]
    rcases attrName_split hn' with ⟨l, rfl, h1, h2, h3⟩ | ⟨q, l, rfl, h1, h2, h3, h4⟩
    · rw [h3]
      simp only
      rw [if_neg (by decide), if_neg (fun h => h2 h.2)]
      exact ih ns σ hn p
    · rw [h4]
      simp only
      rw [if_neg h3, if_neg (fun h => (ncName_noColon h1).2 h.1)]
      exact ih ns σ hn p

theorem translate_elem {σ : Scope} {ns : List (Text × Text)} (hn : ∀ p, ns.lookup p = σ p) {n : Text} {m : XName} (h : ElemName σ n m) :
    translate ns true (splitName n) = m := by
  cases h with
  | default h1 h2 =>
    rw [splitName_noColon (ncName_noColon h1).1]
    unfold translate
    simp only
    rw [if_neg (by decide), if_neg (by simp), if_neg (by decide), if_neg (fun h => h2 h.2), hn]
    cases σ [] <;> rfl
  | @prefixed p l u h1 h2 h3 h4 h5 =>
    rw [splitName_colon (ncName_noColon h1).1 (ncName_noColon h1).2 (ncName_noColon h2).2]
    unfold translate
    simp only
    rw [if_neg h4, if_neg (by simp), if_neg h3, if_neg (fun h => (ncName_noColon h1).2 h.1), hn, h5]
  | @xml l h1 =>
    rw [xmlPrefix, splitName_colon (by decide) (by decide) (ncName_noColon h1).2]
    unfold translate
    simp only
    rw [if_neg (by decide), if_neg (by simp), if_pos trivial]

theorem translate_attr {σ : Scope} {ns : List (Text × Text)} (hn : ∀ p, ns.lookup p = σ p) {n : Text} {m : XName} (h : AttrName σ n m) :
    translate ns false (splitName n) = m := by
  cases h with
  | default h1 h2 =>
    rw [splitName_noColon (ncName_noColon h1).1]
    unfold translate
    simp only
    rw [if_neg (by decide), if_pos ⟨trivial, trivial⟩]
  | @prefixed p l u h1 h2 h3 h4 h5 =>
    rw [splitName_colon (ncName_noColon h1).1 (ncName_noColon h1).2 (ncName_noColon h2).2]
    unfold translate
    simp only
    rw [if_neg h4, if_neg (fun h => (ncName_noColon h1).2 h.1), if_neg h3, if_neg (fun h => (ncName_noColon h1).2 h.1), hn, h5]
  | @xml l h1 =>
    rw [xmlPrefix, splitName_colon (by decide) (by decide) (ncName_noColon h1).2]
    unfold translate
    simp only
    rw [if_neg (by decide), if_neg (by simp), if_pos trivial]

theorem translate_decl (ns : List (Text × Text)) {p : Text} (hp : p = [] ∨ NCName p) :
    (translate ns false (splitName (declName p))).loc = if p = [] then "xmlns".toList else p := by
  rw [splitName_decl hp]
  by_cases h : p = []
  · simp only [h, if_true]
    unfold translate
    rw [if_neg (by decide), if_pos ⟨rfl, rfl⟩]
  · simp only [h, if_false]
    unfold translate
    rw [if_pos rfl]

theorem attrs_like {σ : Scope} {ns : List (Text × Text)} (hn : ∀ p, ns.lookup p = σ p) {as : List (Text × Text)} {bs : List (XName × Text)}
    (h : AttrsSay σ as bs) (hc : ∀ a ∈ as, "xmlns:".toList.isPrefixOf a.1 = true → a.1.drop 6 ∉ attrFields) :
    AttrsLike (as.map fun a => (translate ns false (splitName a.1), a.2)) bs := by
  induction h with
  | nil => exact .nil
  | @decl p v as bs hp _ ih =>
    refine .drop ?_ (ih fun a ha => hc a (by simp [ha]))
    simp only
    rw [translate_decl ns hp]
    by_cases h0 : p = []
    · rw [if_pos h0]; decide
    · rw [if_neg h0]
      have := hc (declName p, v) (by simp)
      have hd : declName p = "xmlns:".toList ++ p := by unfold declName; rw [if_neg h0]
      rw [hd] at this
      exact this (by simp [List.isPrefixOf_iff_prefix])
  | @attr n m v as bs hm _ ih =>
    have := ih fun a ha => hc a (by simp [ha])
    simp only [List.map_cons, translate_attr hn hm]
    exact .keep this

mutual
theorem says_like {σ : Scope} {x : XNode} {i : Info} (h : Says σ x i) (ns : List (Text × Text)) (hn : ∀ p, ns.lookup p = σ p)
    (hc : ∀ p ∈ prefixes x, p ∉ attrFields) : Like (resolve ns x) i :=
  match h with
  | @Says.elem _ n as ks m bs d is h1 h2 h3 => by
    have hw := declare_within h2 ns σ hn
    rw [resolve, translate_elem hw h1]
    refine .elem (attrs_like hw h2 ?_) (kids_like h3 _ hw ?_)
    · intro a ha hp
      refine hc _ ?_
      simp only [prefixes, List.mem_append, List.mem_map, List.mem_filter]
      exact Or.inl ⟨a, ⟨ha, hp⟩, rfl⟩
    · intro p hp
      exact hc p (by simp [prefixes, hp])
theorem kids_like {σ : Scope} {ks : List XNode} {d : Text} {is : List Info} (h : KidsSay σ ks d is) (ns : List (Text × Text))
    (hn : ∀ p, ns.lookup p = σ p) (hc : ∀ p ∈ prefixesAll ks, p ∉ attrFields) : KidsLike (resolves ns ks) d is :=
  match h with
  | .nil => .nil
  | @KidsSay.text _ s ks d is h1 => by
    rw [resolves, resolve]
    exact .text (kids_like h1 ns hn fun p hp => hc p (by simp [prefixesAll, prefixes, hp]))
  | @KidsSay.elem _ k i ks d is h1 h2 => by
    rw [resolves]
    exact .elem (says_like h1 ns hn fun p hp => hc p (by simp [prefixesAll, hp])) (kids_like h2 ns hn fun p hp => hc p (by simp [prefixesAll, hp]))
end

end Verif.Xml
