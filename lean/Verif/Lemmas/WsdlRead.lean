import Verif.Spec.WsdlRead
import Verif.Lemmas.Wsdl
import Verif.Lemmas.Scalar
import Verif.Lemmas.Num2
/-! # Reading elements that are valid against the schemas of the WSDL files -/
set_option linter.unusedSimpArgs false
namespace Verif.Xml
open Json

/-- The type of the child elements with a name. -/
def XType.content (n : Text) : XType → Option XType
  | .elem m _ _ c r => if m = n then some c else r.content n
  | _ => none

theorem ofType_content {D : Text} : ∀ {T : XType}, T.seq = true → ∀ {as d ks}, OfType D T as d ks → ∀ k ∈ ks, ∃ c, T.content k.name.loc = some c ∧
    k.name.space = D ∧ OfType D c k.attrs k.data k.kids
  | .elem n r m c T, hT, as, d, ks, h, k, hk => by
    simp only [XType.seq, Bool.and_eq_true, Bool.not_eq_true', List.contains_eq_mem, decide_eq_false_iff_not] at hT
    obtain ⟨own, more, rfl, -, -, h1, h2⟩ := h
    rcases List.mem_append.1 hk with hk | hk
    · obtain ⟨h3, h4⟩ := h1 k hk
      exact ⟨c, by simp [XType.content, h3], by rw [h3], h4⟩
    · obtain ⟨c', h3, h4⟩ := ofType_content hT.2 h2 k hk
      obtain ⟨n', h5, h6⟩ := ofType_names hT.2 h2 k hk
      refine ⟨c', ?_, h4⟩
      rw [XType.content, if_neg, h3]
      rintro rfl
      rw [h6] at hT
      exact hT.1 h5
  | .empty, _, _, _, _, ⟨_, h, _⟩, k, hk => by rw [h] at hk; cases hk
  | .simple _, hT, _, _, _, _, _, _ => by cases hT
  | .attributed _, hT, _, _, _, _, _, _ => by cases hT

/-! ### Scalars -/

theorem space_white {a : Text} (h : Space a) : ∀ c ∈ a, WhiteSpace c := by
  intro c hc
  have := h c hc
  rcases this with rfl | rfl | rfl | rfl <;> exact Or.inl (by decide)

theorem around_padded {a u b t : Text} (h : Around a u b t) : Padded t u := ⟨a, b, space_white h.1, space_white h.2.1, h.2.2⟩

theorem int_scalar {s : Text} {b : Nat} (hb : 32 ≤ b) (h : XSimple.int.Lexical s) : ∃ v, Scalar (.int b) s v := by
  obtain ⟨a, u, c, n, h1, h2, h3, h4⟩ := h
  refine ⟨_, Or.inr ⟨u, n, around_padded h1, h2, ?_, ?_, rfl⟩⟩
  · have : (2 : Int) ^ 31 ≤ 2 ^ (b - 1) := by
      exact_mod_cast Nat.pow_le_pow_right (by decide) (by omega)
    omega
  · have : (2 : Int) ^ 31 ≤ 2 ^ (b - 1) := by
      exact_mod_cast Nat.pow_le_pow_right (by decide) (by omega)
    omega

theorem bool_scalar {s : Text} (h : XSimple.boolean.Lexical s) : ∃ v, Scalar .bool s v := by
  obtain ⟨a, u, c, h1, h2⟩ := h
  have : ∃ b, BoolText u b := by
    simp only [List.mem_cons, List.not_mem_nil, or_false] at h2
    rcases h2 with rfl | rfl | rfl | rfl
    · exact ⟨true, by unfold BoolText; decide⟩
    · exact ⟨false, by unfold BoolText; decide⟩
    · exact ⟨true, by unfold BoolText; decide⟩
    · exact ⟨false, by unfold BoolText; decide⟩
  obtain ⟨b, hb⟩ := this
  exact ⟨_, Or.inr ⟨u, b, around_padded h1, hb, rfl⟩⟩

theorem float_scalar {s : Text} (h : XSimple.int.Lexical s) : ∃ v, Scalar .float s v := by
  obtain ⟨a, u, c, n, h1, ⟨neg, ds, h2, h3, h4⟩, h5, h6⟩ := h
  have hu : '_' ∉ ds.map digitChar := by
    intro hm
    obtain ⟨y, -, hy⟩ := List.mem_map.1 hm
    have : ∀ y : Fin 10, digitChar y ≠ '_' := by decide
    exact this y hy
  refine ⟨.float (.fin (roundF64 n)), Or.inr ⟨u, _, around_padded h1, Or.inl ⟨neg, ds.map digitChar, (digitsVal 0 ds : ℚ), _, h3, ?_, ?_, rfl⟩, rfl⟩⟩
  · refine .inl ⟨_, ⟨(strip_id hu).symm, ?_⟩, ds, [], [], [], 0, Or.inl h2, Or.inl ⟨rfl, rfl⟩, Or.inl ⟨rfl, rfl⟩, by simp, by simp [fracVal]⟩
    intro a b e
    exact absurd (by rw [e]; simp) hu
  · have e : (if neg = true then -(digitsVal 0 ds : ℚ) else (digitsVal 0 ds : ℚ)) = (n : ℚ) := by
      rw [h4]; cases neg <;> simp
    rw [e]
    exact fl64_intCast n (by rw [abs_le]; omega)

theorem scalarLast_ex {t : Ty} {l : List Text} : (∃ v, ScalarLast t l v) ↔ ∀ s ∈ l, ∃ w, Scalar t s w := by
  constructor
  · rintro ⟨v, h, -⟩; exact h
  · intro h
    cases hl : l.getLast? with
    | none => exact ⟨_, h, by rw [hl]⟩
    | some s =>
      obtain ⟨w, hw⟩ := h s (List.mem_of_getLast? hl)
      exact ⟨w, h, by rw [hl]; exact hw⟩

end Verif.Xml

namespace Verif.Soap
open Xml

theorem time_scalar {s : Text} : (∃ v, Scalar .time s v) ↔ Readable s := by
  constructor
  · rintro ⟨_, st, t, h1, h2, h3, -⟩; exact ⟨st, t, h1, h2, h3⟩
  · rintro ⟨st, t, h1, h2, h3⟩; exact ⟨_, st, t, h1, h2, h3, rfl⟩

/-! ### The times of several elements are those of each -/

theorem elemsFor_mem {info : StructInfo} {f : FieldInfo} {is : List Info} {k : Info} :
    k ∈ elemsFor info f is ↔ ∃ i ∈ is, k ∈ elemsFor info f [i] := by
  simp [elemsFor]

mutual
theorem timesRead_mem : ∀ (t : Ty) (is : List Info) (s : Text), s ∈ timesRead t is ↔ ∃ i ∈ is, s ∈ timesRead t [i]
  | .time, is, s => by simp [timesRead, eq_comm]
  | .str, is, s => by simp [timesRead]
  | .int _, is, s => by simp [timesRead]
  | .float, is, s => by simp [timesRead]
  | .bool, is, s => by simp [timesRead]
  | .ptr t, is, s => by simpa [timesRead] using timesRead_mem t is s
  | .slice t, is, s => by simpa [timesRead] using timesRead_mem t is s
  | .struct info ts, is, s => by simpa [timesRead] using timesReads_mem info info.fields ts is s
theorem timesReads_mem (info : StructInfo) : ∀ (fs : List FieldInfo) (ts : List Ty) (is : List Info) (s : Text),
    s ∈ timesReads info fs ts is ↔ ∃ i ∈ is, s ∈ timesReads info fs ts [i]
  | [], _, is, s => by simp [timesReads]
  | _ :: _, [], is, s => by simp [timesReads]
  | f :: fs, t :: ts, is, s => by
    simp only [timesReads, List.mem_append, and_or_left, exists_or]
    rw [timesReads_mem info fs ts is s]
    refine or_congr ?_ Iff.rfl
    split
    · rw [timesRead_mem t (elemsFor info f is) s]
      constructor
      · rintro ⟨k, hk, h⟩
        obtain ⟨i, hi, hk⟩ := elemsFor_mem.1 hk
        exact ⟨i, hi, (timesRead_mem t _ s).2 ⟨k, hk, h⟩⟩
      · rintro ⟨i, hi, h⟩
        obtain ⟨k, hk, h⟩ := (timesRead_mem t _ s).1 h
        exact ⟨k, elemsFor_mem.2 ⟨i, hi, hk⟩, h⟩
    · simp
end

/-! ### Which messages can be read -/

/-- Not a struct. -/
def plainTy : Ty → Bool
  | .struct _ _ => false
  | _ => true

/-- A sequence, or a string with attributes. -/
def seqAttr : XType → Bool
  | .attributed _ => true
  | X => X.seq

mutual
/-- Every text of a schema type can be read as a value of the Go type, or it is a time. -/
def compat : Ty → XType → Bool
  | .ptr t, X => compat t X
  | .slice t, X => compat t X
  | .str, .simple _ => true
  | .int b, .simple .int => decide (32 ≤ b)
  | .float, .simple .int => true
  | .bool, .simple .boolean => true
  | .time, .simple .dateTime => true
  | .struct info ts, X => info.xmlName.isNone && seqAttr X && compats info.fields ts X
  | _, _ => false
/-- The same for fields. -/
def compats : List FieldInfo → List Ty → XType → Bool
  | f :: fs, t :: ts, X =>
    (match f.xmlKind with
      | .elem => match X.content f.xml with
        | some c => compat t c
        | none => plainTy t
      | .skip => true
      | _ => match t with | .str => true | _ => false) && compats fs ts X
  | [], [], _ => true
  | _, _, _ => false
end

theorem forall₂_ex {α β : Type} {R : α → β → Prop} : ∀ {l : List α}, (∃ vs, List.Forall₂ R l vs) ↔ ∀ a ∈ l, ∃ v, R a v
  | [] => by simp
  | a :: l => by
    constructor
    · rintro ⟨_, h⟩
      cases h with
      | cons h1 h2 =>
        intro x hx
        rcases List.mem_cons.1 hx with rfl | hx
        · exact ⟨_, h1⟩
        · exact forall₂_ex.1 ⟨_, h2⟩ x hx
    · intro h
      obtain ⟨v, hv⟩ := h a (by simp)
      obtain ⟨vs, hvs⟩ := forall₂_ex.2 fun x hx => h x (List.mem_cons_of_mem _ hx)
      exact ⟨_, .cons hv hvs⟩

theorem means_nil : ∀ {t : Ty}, plainTy t = true → ∃ v, Means t [] v
  | .ptr t, _ => ⟨.nil, Or.inl ⟨rfl, rfl⟩⟩
  | .slice t, _ => ⟨.nil, Or.inl ⟨rfl, rfl⟩⟩
  | .str, _ => ⟨_, by simp [Means, ScalarLast]; rfl⟩
  | .int b, _ => ⟨_, by simp [Means, ScalarLast]; rfl⟩
  | .float, _ => ⟨_, by simp [Means, ScalarLast]; rfl⟩
  | .bool, _ => ⟨_, by simp [Means, ScalarLast]; rfl⟩
  | .time, _ => ⟨_, by simp [Means, ScalarLast]; rfl⟩
  | .struct info ts, h => by cases h

/-- The elements for a field have the type of their name. -/
theorem elemsFor_type {D : Text} {X : XType} (hX : seqAttr X = true) {is : List Info} (hi : ∀ i ∈ is, OfType D X i.attrs i.data i.kids)
    {info : StructInfo} {f : FieldInfo} {k : Info} (hk : k ∈ elemsFor info f is) :
    ∃ c, X.content f.xml = some c ∧ OfType D c k.attrs k.data k.kids := by
  simp only [elemsFor, List.mem_flatMap, List.mem_filter, decide_eq_true_eq] at hk
  obtain ⟨i, h1, h2, h3⟩ := hk
  have h4 := hi i h1
  have hs : X.seq = true := by
    cases X with
    | attributed l =>
      rw [h4.1] at h2; cases h2
    | _ => exact hX
  obtain ⟨c, h5, -, h6⟩ := ofType_content hs h4 k h2
  rw [h3.1] at h5
  exact ⟨c, h5, h6⟩

theorem simple_data {D : Text} {x : XSimple} {is : List Info} (hi : ∀ i ∈ is, OfType D (.simple x) i.attrs i.data i.kids) :
    ∀ s ∈ is.map Info.data, x.Lexical s := by
  intro s hs
  obtain ⟨i, h, rfl⟩ := List.mem_map.1 hs
  exact (hi i h).2.2

mutual
theorem means_ex {D : Text} : ∀ (t : Ty) (X : XType), compat t X = true → ∀ (is : List Info), (∀ i ∈ is, OfType D X i.attrs i.data i.kids) →
    ((∃ v, Means t is v) ↔ ∀ s ∈ timesRead t is, Readable s)
  | .ptr t, X, hc, is, hi => by
    rw [compat] at hc
    have := means_ex t X hc is hi
    simp only [timesRead, Means]
    rw [← this]
    by_cases h : is = []
    · subst h
      constructor
      · intro _
        rw [this]
        intro s hs
        rw [timesRead_mem] at hs
        obtain ⟨i, h, -⟩ := hs
        cases h
      · intro _; exact ⟨_, Or.inl ⟨rfl, rfl⟩⟩
    · constructor
      · rintro ⟨v, ⟨h', -⟩ | ⟨-, w, -, h'⟩⟩
        · exact absurd h' h
        · exact ⟨w, h'⟩
      · rintro ⟨w, h'⟩
        exact ⟨_, Or.inr ⟨h, w, rfl, h'⟩⟩
  | .slice t, X, hc, is, hi => by
    rw [compat] at hc
    simp only [timesRead, Means]
    have h1 : (∀ s ∈ timesRead t is, Readable s) ↔ ∀ i ∈ is, ∃ w, Means t [i] w := by
      constructor
      · intro h i hm
        refine (means_ex t X hc [i] (by simpa using hi i hm)).2 fun s hs => h s ((timesRead_mem t is s).2 ⟨i, hm, hs⟩)
      · intro h s hs
        obtain ⟨i, hm, hs⟩ := (timesRead_mem t is s).1 hs
        exact (means_ex t X hc [i] (by simpa using hi i hm)).1 (h i hm) s hs
    rw [h1, ← forall₂_ex]
    constructor
    · rintro ⟨v, ⟨rfl, -⟩ | ⟨-, vs, -, h'⟩⟩
      · exact ⟨[], .nil⟩
      · exact ⟨vs, h'⟩
    · rintro ⟨vs, h⟩
      by_cases he : is = []
      · exact ⟨_, Or.inl ⟨he, rfl⟩⟩
      · exact ⟨_, Or.inr ⟨he, vs, rfl, h⟩⟩
  | .str, X, hc, is, hi => by
    simp only [Means, scalarLast_ex, timesRead, List.not_mem_nil, false_imp_iff, implies_true, iff_true]
    intro s _
    exact ⟨_, rfl⟩
  | .int b, X, hc, is, hi => by
    match X, hc with
    | .simple .int, hc =>
      simp only [compat, decide_eq_true_eq] at hc
      simp only [Means, scalarLast_ex, timesRead, List.not_mem_nil, false_imp_iff, implies_true, iff_true]
      exact fun s hs => int_scalar hc (simple_data hi s hs)
  | .float, X, hc, is, hi => by
    match X, hc with
    | .simple .int, hc =>
      simp only [Means, scalarLast_ex, timesRead, List.not_mem_nil, false_imp_iff, implies_true, iff_true]
      exact fun s hs => float_scalar (simple_data hi s hs)
  | .bool, X, hc, is, hi => by
    match X, hc with
    | .simple .boolean, hc =>
      simp only [Means, scalarLast_ex, timesRead, List.not_mem_nil, false_imp_iff, implies_true, iff_true]
      exact fun s hs => bool_scalar (simple_data hi s hs)
  | .time, X, hc, is, hi => by
    simp only [Means, scalarLast_ex, timesRead, time_scalar]
  | .struct info ts, X, hc, is, hi => by
    simp only [compat, Bool.and_eq_true, Option.isNone_iff_eq_none] at hc
    have := means_exs info info.fields ts X hc.1.2 hc.2 is hi
    simp only [Means, timesRead, ← this, hc.1.1, reduceCtorEq, false_imp_iff, implies_true, true_and]
    constructor
    · rintro ⟨_, vs, rfl, h⟩; exact ⟨vs, h⟩
    · rintro ⟨vs, h⟩; exact ⟨_, vs, rfl, h⟩
theorem means_exs {D : Text} (info : StructInfo) : ∀ (fs : List FieldInfo) (ts : List Ty) (X : XType), seqAttr X = true → compats fs ts X = true →
    ∀ (is : List Info), (∀ i ∈ is, OfType D X i.attrs i.data i.kids) →
    ((∃ vs, MeansFields info fs ts is vs) ↔ ∀ s ∈ timesReads info fs ts is, Readable s)
  | [], [], X, hX, hc, is, hi => by
    simp only [timesReads, List.not_mem_nil, false_imp_iff, implies_true, iff_true]
    exact ⟨[], by simp [MeansFields]⟩
  | _ :: _, [], X, hX, hc, is, hi => by simp [compats] at hc
  | [], _ :: _, X, hX, hc, is, hi => by simp [compats] at hc
  | f :: fs, t :: ts, X, hX, hc, is, hi => by
    simp only [compats, Bool.and_eq_true] at hc
    have ih := means_exs info fs ts X hX hc.2 is hi
    have e : (∃ vs, MeansFields info (f :: fs) (t :: ts) is vs) ↔ (∃ v, (match f.xmlKind with
        | .attr => ScalarLast t (attrsFor f is) v
        | .elem => Means t (elemsFor info f is) v
        | .chardata => ScalarLast t (is.map Info.data) v
        | .skip => v = zeroVal t)) ∧ ∃ vs, MeansFields info fs ts is vs := by
      constructor
      · rintro ⟨_ | ⟨v, vs⟩, h⟩
        · simp [MeansFields] at h
        · simp only [MeansFields] at h
          exact ⟨⟨v, h.1⟩, vs, h.2⟩
      · rintro ⟨⟨v, h1⟩, vs, h2⟩
        exact ⟨v :: vs, by simp only [MeansFields]; exact ⟨h1, h2⟩⟩
    rw [e, ih]
    simp only [timesReads, List.mem_append, or_imp, forall_and]
    refine and_congr ?_ Iff.rfl
    have hc1 := hc.1
    cases hk : f.xmlKind with
    | attr =>
      simp only [hk] at hc1 ⊢
      cases t <;> simp at hc1
      simp only [scalarLast_ex, List.not_mem_nil, false_imp_iff, implies_true, iff_true]
      exact fun s _ => ⟨_, rfl⟩
    | chardata =>
      simp only [hk] at hc1 ⊢
      cases t <;> simp at hc1
      simp only [scalarLast_ex, List.not_mem_nil, false_imp_iff, implies_true, iff_true]
      exact fun s _ => ⟨_, rfl⟩
    | skip => simp
    | elem =>
      simp only [hk] at hc1 ⊢
      cases hX' : X.content f.xml with
      | some c =>
        simp only [hX'] at hc1
        refine means_ex (D := D) t c hc1 _ fun k hk => ?_
        obtain ⟨c', h1, h2⟩ := elemsFor_type hX hi hk
        rw [hX'] at h1
        cases h1
        exact h2
      | none =>
        have hn : elemsFor info f is = [] := by
          rw [List.eq_nil_iff_forall_not_mem]
          intro k hk
          obtain ⟨c', h1, h2⟩ := elemsFor_type hX hi hk
          rw [hX'] at h1
          cases h1
        rw [hn]
        have h0 : (∀ s ∈ timesRead t [], Readable s) := by
          intro s hs
          obtain ⟨i, hi, -⟩ := (timesRead_mem t [] s).1 hs
          cases hi
        simp only [hX'] at hc1
        exact iff_of_true (means_nil hc1) h0
end

/-- The same for a message and its global element. -/
def compatTop : Ty → XName × XType → Bool
  | .struct info ts, d => decide (info.xmlName = some (d.1.space, d.1.loc)) && seqAttr d.2 && compats info.fields ts d.2
  | _, _ => false

theorem top_ex {t : Ty} {d : XName × XType} (hc : compatTop t d = true) {i : Info} (hi : XValid d i) :
    (∃ v, Means t [i] v) ↔ ∀ s ∈ timesRead t [i], Readable s := by
  cases t with
  | struct info ts =>
    simp only [compatTop, Bool.and_eq_true, decide_eq_true_eq] at hc
    have := means_exs (D := d.1.space) info info.fields ts d.2 hc.1.2 hc.2 [i] (by simpa using hi.2)
    simp only [Means, timesRead, ← this]
    constructor
    · rintro ⟨_, -, vs, rfl, h⟩; exact ⟨vs, h⟩
    · rintro ⟨vs, h⟩
      refine ⟨_, ?_, vs, rfl, h⟩
      intro n hn j hj
      rw [hc.1.1] at hn
      cases hn
      simp only [List.mem_singleton] at hj
      subst hj
      rw [hi.1]
      exact ⟨rfl, Or.inr rfl⟩
  | _ => cases hc

set_option maxRecDepth 20000 in
theorem compat_msg : ∀ (m : MsgType), bound m = true → (match m.wsdl with | some d => compatTop m.ty d | none => true) = true := by
  intro m
  rcases m with r | r <;> cases r <;> decide

end Verif.Soap
