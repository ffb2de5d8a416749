import Verif.Spec.Wsdl
import Verif.Lemmas.WsdlTime
import Verif.Lemmas.SoapRender
/-! # Elements against the schemas of the WSDL files -/
set_option linter.unusedSimpArgs false
namespace Verif.Xml
open Json

/-- The names of a sequence. -/
def XType.names : XType → List Text
  | .elem n _ _ _ r => n :: r.names
  | _ => []

/-- It is a sequence of elements with different names. -/
def XType.seq : XType → Bool
  | .elem n _ _ _ r => !r.names.contains n && r.seq
  | .empty => true
  | _ => false

/-- Child elements have names of the sequence. -/
theorem ofType_names {D : Text} : ∀ {T : XType}, T.seq = true → ∀ {as d ks}, OfType D T as d ks → ∀ k ∈ ks, ∃ n ∈ T.names, k.name = ⟨D, n⟩
  | .elem n r m c T, hT, as, d, ks, h, k, hk => by
    simp only [XType.seq, Bool.and_eq_true] at hT
    obtain ⟨own, more, rfl, -, -, h1, h2⟩ := h
    rcases List.mem_append.1 hk with hk | hk
    · exact ⟨n, by simp [XType.names], (h1 k hk).1⟩
    · obtain ⟨n', h3, h4⟩ := ofType_names hT.2 h2 k hk
      exact ⟨n', by simp [XType.names, h3], h4⟩
  | .empty, _, _, _, _, ⟨_, h, _⟩, k, hk => by rw [h] at hk; cases hk
  | .simple _, hT, _, _, _, _, _, _ => by cases hT
  | .attributed _, hT, _, _, _, _, _, _ => by cases hT

/-- A list in front of which come those that have a property. -/
theorem split_unique {α} {P : α → Prop} {a b c d : List α} (ha : ∀ x ∈ a, P x) (hb : ∀ x ∈ b, ¬ P x) (hc : ∀ x ∈ c, P x) (hd : ∀ x ∈ d, ¬ P x)
    (h : a ++ b = c ++ d) : a = c ∧ b = d := by
  induction a generalizing c with
  | nil =>
    cases c with
    | nil => exact ⟨rfl, by simpa using h⟩
    | cons x c =>
      simp only [List.nil_append] at h
      exact absurd (hc x (by simp)) (hb x (by rw [h]; simp))
  | cons x a ih =>
    cases c with
    | nil =>
      simp only [List.nil_append] at h
      exact absurd (ha x (by simp)) (hd x (by rw [← h]; simp))
    | cons y c =>
      simp only [List.cons_append, List.cons.injEq] at h
      obtain ⟨rfl, h⟩ := h
      obtain ⟨rfl, h2⟩ := ih (fun x hx => ha x (by simp [hx])) (fun x hx => hc x (by simp [hx])) h
      exact ⟨rfl, h2⟩

/-- The children that are named next come first. -/
theorem ofType_block {D n : Text} {r m : Bool} {c T : XType} (hT : (XType.elem n r m c T).seq = true) {as d} {own more : List Info}
    (h1 : ∀ k ∈ own, k.name = ⟨D, n⟩) (h2 : ∀ k ∈ more, k.name ≠ ⟨D, n⟩) :
    OfType D (.elem n r m c T) as d (own ++ more) ↔
      ((r = true → own ≠ []) ∧ (m = false → own.length ≤ 1) ∧ ∀ k ∈ own, OfType D c k.attrs k.data k.kids) ∧ OfType D T as d more := by
  simp only [XType.seq, Bool.and_eq_true, Bool.not_eq_true', List.contains_eq_mem, decide_eq_false_iff_not] at hT
  constructor
  · rintro ⟨own', more', h, h3, h4, h5, h6⟩
    have hn : ∀ k ∈ more', k.name ≠ ⟨D, n⟩ := by
      intro k hk e
      obtain ⟨n', h7, h8⟩ := ofType_names hT.2 h6 k hk
      rw [e] at h8
      simp only [XName.mk.injEq, true_and] at h8
      subst h8
      exact hT.1 h7
    obtain ⟨rfl, rfl⟩ := split_unique (P := fun k : Info => k.name = ⟨D, n⟩) h1 h2 (fun k hk => (h5 k hk).1) hn h
    exact ⟨⟨h3, h4, fun k hk => (h5 k hk).2⟩, h6⟩
  · rintro ⟨⟨h3, h4, h5⟩, h6⟩
    exact ⟨own, more, rfl, h3, h4, fun k hk => ⟨h1 k hk, h5 k hk⟩, h6⟩

/-- What has to hold of blocks of elements, one block for each field. -/
inductive Need where
  | never
  | none (i : Nat)
  | either (i j : Nat)
  | some (i : Nat)
  | one (i : Nat)
  | each (i : Nat) (T : XType)
  deriving DecidableEq

def Need.Holds (D : Text) (f : Nat → List Info) : Need → Prop
  | .never => False
  | .none i => f i = []
  | .either i j => f i = [] ∨ f j = []
  | .some i => f i ≠ []
  | .one i => (f i).length ≤ 1
  | .each i T => ∀ k ∈ f i, OfType D T k.attrs k.data k.kids

/-- The blocks that are still there, with their indices: a block is matched by the next name; blocks in front of it must be empty if it
is not. -/
def needs : List (Nat × Text) → XType → List Need
  | bs, .elem n r m c T =>
    match bs.find? (·.2 == n) with
    | .none => (if r then [.never] else []) ++ needs bs T
    | .some b =>
      (if r then [.some b.1] else []) ++ (if m then [] else [.one b.1]) ++ [.each b.1 c] ++
        ((bs.takeWhile (·.2 != n)).map fun x => .either x.1 b.1) ++ needs (bs.filter (·.2 != n)) T
  | bs, _ => bs.map fun b => .none b.1

theorem flat_nil {f : Nat → List Info} {bs : List (Nat × Text)} : (bs.flatMap fun b => f b.1) = [] ↔ ∀ b ∈ bs, f b.1 = [] := by
  simp [List.flatMap_eq_nil_iff]

theorem needs_iff {D : Text} {f : Nat → List Info} {as : List (XName × Text)} {d : Text} : ∀ {T : XType}, T.seq = true → ∀ {bs : List (Nat × Text)},
    (∀ b ∈ bs, ∀ k ∈ f b.1, k.name = ⟨D, b.2⟩) → (bs.map (·.2)).Nodup →
    (OfType D T as d (bs.flatMap fun b => f b.1) ↔ as = [] ∧ Space d ∧ ∀ nd ∈ needs bs T, nd.Holds D f)
  | .empty, _, bs, hn, hd => by
    simp only [OfType, needs, List.mem_map, forall_exists_index, and_imp, forall_apply_eq_imp_iff₂, Need.Holds, flat_nil]
    constructor
    · rintro ⟨h1, h2, h3⟩; exact ⟨h1, h3, h2⟩
    · rintro ⟨h1, h2, h3⟩; exact ⟨h1, h3, h2⟩
  | .simple _, hT, _, _, _ => by cases hT
  | .attributed _, hT, _, _, _ => by cases hT
  | .elem n r m c T, hT, bs, hn, hd => by
    have hT' : T.seq = true := by
      simp only [XType.seq, Bool.and_eq_true] at hT; exact hT.2
    have hnT : n ∉ T.names := by
      simp only [XType.seq, Bool.and_eq_true, Bool.not_eq_true', List.contains_eq_mem, decide_eq_false_iff_not] at hT
      exact hT.1
    -- nothing named `n`
    have hno : ∀ bs' : List (Nat × Text), (∀ b ∈ bs', b ∈ bs) → (∀ b ∈ bs', b.2 ≠ n) → (bs'.map (·.2)).Nodup →
        (OfType D (.elem n r m c T) as d (bs'.flatMap fun b => f b.1) ↔
          as = [] ∧ Space d ∧ r = false ∧ ∀ nd ∈ needs bs' T, nd.Holds D f) := by
      intro bs' h1 h2 h3
      have := ofType_block (D := D) (as := as) (d := d) hT (own := []) (more := bs'.flatMap fun b => f b.1) (by simp) (by
        intro k hk e
        rw [List.mem_flatMap] at hk
        obtain ⟨b, hb, hk⟩ := hk
        rw [hn b (h1 b hb) k hk] at e
        simp only [XName.mk.injEq, true_and] at e
        exact h2 b hb e)
      rw [List.nil_append] at this
      rw [this, needs_iff hT' (fun b hb => hn b (h1 b hb)) h3]
      simp only [ne_eq, not_true_eq_false, imp_false, Bool.not_eq_true, List.length_nil, Nat.zero_le, implies_true,
        List.not_mem_nil, false_imp_iff, and_true]
      tauto
    rw [needs.eq_def]
    simp only
    cases hf : bs.find? (·.2 == n) with
    | none =>
      simp only [List.find?_eq_none, beq_iff_eq] at hf
      rw [hno bs (fun b h => h) hf hd]
      simp only [List.mem_append]
      cases r
      · simp
      · simp only [Bool.true_eq_false, false_and, and_false, if_true, List.mem_singleton, false_iff, not_and]
        intro _ _ h
        exact h .never (Or.inl rfl)
    | some b =>
      obtain ⟨hb, pre, post, e, hpre⟩ := List.find?_eq_some_iff_append.1 hf
      simp only [beq_iff_eq] at hb
      have hpre' : ∀ x ∈ pre, x.2 ≠ n := by simpa using hpre
      have hpost : ∀ x ∈ post, x.2 ≠ n := by
        intro x hx e'
        rw [e] at hd
        simp only [List.map_append, List.map_cons, List.nodup_append, List.nodup_cons, List.mem_map] at hd
        exact hd.2.1.1 ⟨x, hx, by rw [e', hb]⟩
      have htake : bs.takeWhile (·.2 != n) = pre := by
        rw [e, List.takeWhile_append_of_pos (by simpa using hpre)]
        simp [hb]
      have hfil : bs.filter (·.2 != n) = pre ++ post := by
        rw [e, List.filter_append, List.filter_cons_of_neg (by simp [hb]), List.filter_eq_self.2 (by simpa using hpre'),
          List.filter_eq_self.2 (by simpa using hpost)]
      have hnd : ((pre ++ post).map (·.2)).Nodup := by
        rw [e] at hd
        refine hd.sublist ?_
        simp only [List.map_append, List.map_cons]
        exact (List.Sublist.refl _).append (List.sublist_cons_self _ _)
      rw [htake, hfil]
      have hkids : (bs.flatMap fun b => f b.1) = (pre.flatMap fun b => f b.1) ++ (f b.1 ++ post.flatMap fun b => f b.1) := by
        rw [e]; simp
      have hmem : ∀ x ∈ pre ++ post, x ∈ bs := by
        intro x hx
        rw [e]
        rcases List.mem_append.1 hx with h | h <;> simp [h]
      have hnn : ∀ x ∈ pre ++ post, x.2 ≠ n := by
        intro x hx
        rcases List.mem_append.1 hx with h | h
        · exact hpre' x h
        · exact hpost x h
      have hRest := needs_iff (as := as) (d := d) hT' (bs := pre ++ post) (fun x hx => hn x (hmem x hx)) hnd
      by_cases hfb : f b.1 = []
      · have : (bs.flatMap fun b => f b.1) = ((pre ++ post).flatMap fun b => f b.1) := by rw [hkids, hfb]; simp
        rw [this, hno _ hmem hnn hnd]
        simp only [List.mem_append, or_imp, forall_and, List.mem_singleton, forall_eq, List.mem_map, forall_exists_index, and_imp,
          forall_apply_eq_imp_iff₂, Need.Holds, hfb, or_true, implies_true, List.not_mem_nil, false_imp_iff, true_and]
        cases r <;> cases m <;> simp [Need.Holds, hfb]
      · constructor
        · intro h
          -- nothing comes before
          have hP : (pre.flatMap fun b => f b.1) = [] := by
            by_contra hne
            obtain ⟨k, P, hP⟩ := List.exists_cons_of_ne_nil hne
            rw [hkids, hP] at h
            obtain ⟨own, more, h1, -, -, h4, h5⟩ := h
            have hown : own = [] := by
              cases own with
              | nil => rfl
              | cons k' own =>
                simp only [List.cons_append, List.cons.injEq] at h1
                have h6 := (h4 k' (by simp)).1
                rw [← h1.1] at h6
                have : k ∈ pre.flatMap fun b => f b.1 := by rw [hP]; simp
                obtain ⟨x, hx, hk⟩ := List.mem_flatMap.1 this
                rw [hn x (by rw [e]; simp [hx]) k hk] at h6
                simp only [XName.mk.injEq, true_and] at h6
                exact absurd h6 (hpre' x hx)
            subst hown
            obtain ⟨k', hk'⟩ := List.exists_mem_of_ne_nil _ hfb
            obtain ⟨n', h6, h7⟩ := ofType_names hT' h5 k' (by
              rw [← List.nil_append more, ← h1]; simp [hk'])
            rw [hn b (by rw [e]; simp) k' hk', hb] at h7
            simp only [XName.mk.injEq, true_and] at h7
            subst h7
            exact hnT h6
          rw [hkids, hP, List.nil_append] at h
          rw [ofType_block hT (by intro k hk; rw [hn b (by rw [e]; simp) k hk, hb]) (by
            intro k hk e'
            obtain ⟨x, hx, hk⟩ := List.mem_flatMap.1 hk
            rw [hn x (by rw [e]; simp [hx]) k hk] at e'
            simp only [XName.mk.injEq, true_and] at e'
            exact hpost x hx e')] at h
          obtain ⟨⟨h1, h2, h3⟩, h4⟩ := h
          rw [List.flatMap_append, hP, List.nil_append] at hRest
          rw [hRest] at h4
          refine ⟨h4.1, h4.2.1, ?_⟩
          simp only [List.mem_append, or_imp, forall_and, List.mem_singleton, forall_eq, List.mem_map, forall_exists_index, and_imp,
            forall_apply_eq_imp_iff₂, Need.Holds]
          refine ⟨⟨⟨⟨?_, ?_⟩, h3⟩, ?_⟩, h4.2.2⟩
          · intro nd hnd'
            cases r <;> simp at hnd'
            subst hnd'; exact hfb
          · intro nd hnd'
            cases m <;> simp at hnd'
            subst hnd'; exact h2 rfl
          · intro x hx
            exact Or.inl (flat_nil.1 hP x hx)
        · rintro ⟨ha, hs, h⟩
          simp only [List.mem_append, or_imp, forall_and, List.mem_singleton, forall_eq, List.mem_map, forall_exists_index, and_imp,
            forall_apply_eq_imp_iff₂, Need.Holds] at h
          obtain ⟨⟨⟨⟨h1, h2⟩, h3⟩, h4⟩, h5⟩ := h
          have hP : (pre.flatMap fun b => f b.1) = [] := by
            rw [flat_nil]
            intro x hx
            exact (h4 x hx).resolve_right hfb
          rw [List.flatMap_append, hP, List.nil_append] at hRest
          rw [hkids, hP, List.nil_append]
          rw [ofType_block hT (by intro k hk; rw [hn b (by rw [e]; simp) k hk, hb]) (by
            intro k hk e'
            obtain ⟨x, hx, hk⟩ := List.mem_flatMap.1 hk
            rw [hn x (by rw [e]; simp [hx]) k hk] at e'
            simp only [XName.mk.injEq, true_and] at e'
            exact hpost x hx e')]
          refine ⟨⟨fun _ => hfb, ?_, h3⟩, hRest.2 ⟨ha, hs, h5⟩⟩
          intro hm
          have := h2 (.one b.1) (by simp [hm])
          exact this

end Verif.Xml
