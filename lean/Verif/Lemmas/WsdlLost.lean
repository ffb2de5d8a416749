import Verif.Lemmas.WsdlRead
/-! # What is lost of elements that are valid against the schemas of the WSDL files -/
set_option linter.unusedSimpArgs false
namespace Verif.Soap
open Xml

/-- Without pointers and lists. -/
def core : Ty → Ty
  | .ptr t => core t
  | .slice t => core t
  | t => t

instance (info : StructInfo) (f : FieldInfo) (n : XName) : Decidable (Takes info f n) := inferInstanceAs (Decidable (_ ∧ _))

/-- The field that takes an element. -/
def fieldAt (n : XName) (t : Ty) : Option Ty :=
  match core t with
  | .struct info ts => ((info.fields.zip ts).find? fun x => decide (Takes info x.1 n)).map (·.2)
  | _ => none

/-- The elements of a schema, with paths, that no field takes. -/
def unread (D : Text) : Ty → XType → List (List Text)
  | t, .elem n _ _ c rest =>
    (match fieldAt ⟨D, n⟩ t with
      | none => [[n]]
      | some t' => (unread D t' c).map (n :: ·)) ++ unread D t rest
  | _, _ => []

/-- A struct whose fields are for elements of different names. -/
def okStruct (t : Ty) : Bool :=
  match core t with
  | .struct info ts => decide ((info.fields.zip ts).Pairwise fun x y => ¬ (x.1.xmlKind = .elem ∧ y.1.xmlKind = .elem ∧ x.1.xml = y.1.xml))
  | _ => false

def isSlice : Ty → Bool
  | .slice _ => true
  | _ => false

/-- Everything but the listed elements is taken. -/
def cover (D : Text) : Ty → XType → Bool
  | t, .elem n r many c rest =>
    XType.seq (.elem n r many c rest) && okStruct t && (match fieldAt ⟨D, n⟩ t with
      | none => true
      | some t' => (!many || isSlice t') && cover D t' c) && cover D t rest
  | t, .empty => okStruct t
  | t, .simple _ => plainTy (core t)
  | t, .attributed l =>
    match core t with
    | .struct info _ => l.all (fun a => info.fields.any fun f => decide (f.xmlKind = .attr) && decide (f.xml = a.1)) &&
        info.fields.any fun f => decide (f.xmlKind = .chardata)
    | _ => false

theorem core_core : ∀ t, core (core t) = core t
  | .ptr t => core_core t
  | .slice t => core_core t
  | .str | .int _ | .float | .bool | .time | .struct _ _ => rfl

theorem fieldAt_core (n : XName) (t : Ty) : fieldAt n (core t) = fieldAt n t := by unfold fieldAt; rw [core_core]

theorem unread_core (D : Text) (t : Ty) : ∀ X, unread D (core t) X = unread D t X
  | .elem n r m c rest => by simp only [unread, fieldAt_core, unread_core D t rest]
  | .empty => rfl
  | .simple _ => rfl
  | .attributed _ => rfl

theorem cover_core (D : Text) (t : Ty) : ∀ X, cover D (core t) X = cover D t X
  | .elem n r m c rest => by simp only [cover, okStruct, fieldAt_core, core_core, cover_core D t rest]
  | .empty => by simp only [cover, okStruct, core_core]
  | .simple _ => by simp only [cover, core_core]
  | .attributed _ => by simp only [cover, core_core]

/-- How often an element may come, and its type. -/
def part (n : Text) : XType → Option (Bool × XType)
  | .elem m _ many c r => if m = n then some (many, c) else part n r
  | _ => none

theorem part_mem {D : Text} {T : XType} (hT : T.seq = true) {as d ks} (h : OfType D T as d ks) {k : Info} (hk : k ∈ ks) :
    ∃ m c, part k.name.loc T = some (m, c) ∧ k.name.space = D ∧ OfType D c k.attrs k.data k.kids ∧
      (m = false → ∀ a b, ks = a ++ k :: b → ∀ k' ∈ b, k'.name ≠ k.name) := by
  induction T generalizing ks with
  | elem n r m c T _ ih =>
    have hT' := hT
    simp only [XType.seq, Bool.and_eq_true, Bool.not_eq_true', List.contains_eq_mem, decide_eq_false_iff_not] at hT
    obtain ⟨own, more, rfl, -, h0, h1, h2⟩ := h
    have hmore : ∀ k ∈ more, k.name ≠ ⟨D, n⟩ := by
      intro k hk e
      obtain ⟨n', h7, h8⟩ := ofType_names hT.2 h2 k hk
      rw [e] at h8
      simp only [XName.mk.injEq, true_and] at h8
      subst h8
      exact hT.1 h7
    rcases List.mem_append.1 hk with hk | hk
    · obtain ⟨h3, h4⟩ := h1 k hk
      refine ⟨m, c, by simp [part, h3], by rw [h3], h4, ?_⟩
      intro hm a b e k' hk' he
      have hl := h0 hm
      match own, hk, hl with
      | [k0], hk, _ =>
        simp only [List.mem_singleton] at hk
        subst hk
        cases a with
        | nil =>
          simp only [List.cons_append, List.nil_append, List.cons.injEq, true_and] at e
          subst e
          exact hmore k' hk' (by rw [he, h3])
        | cons x a =>
          simp only [List.cons_append, List.nil_append, List.cons.injEq] at e
          exact hmore k' (by rw [e.2]; simp [hk']) (by rw [he, h3])
    · obtain ⟨m', c', h3, h4, h5, h6⟩ := ih hT.2 h2 hk
      have hne : n ≠ k.name.loc := by
        rintro rfl
        exact hmore k hk (by rw [← h4])
      refine ⟨m', c', by rw [part, if_neg hne, h3], h4, h5, ?_⟩
      intro hm a b e k' hk' he
      -- the prefix of `a`
      have : ∃ a', more = a' ++ k :: b := by
        rw [List.append_eq_append_iff] at e
        rcases e with ⟨a', e1, e2⟩ | ⟨a', e1, e2⟩
        · exact ⟨a', e2⟩
        · cases a' with
          | nil => exact ⟨[], by simpa using e2.symm⟩
          | cons x a' =>
            simp only [List.cons_append, List.cons.injEq] at e2
            exfalso
            have := (h1 x (by rw [e1]; simp)).1
            rw [← e2.1] at this
            exact hmore k hk this
      obtain ⟨a', e'⟩ := this
      exact h6 hm a' b e' k' hk' he
  | empty => rw [h.2.1] at hk; cases hk
  | simple => cases hT
  | attributed => cases hT

theorem cover_struct {D : Text} {t : Ty} {X : XType} (h : cover D t X = true) (hX : X.seq = true) : okStruct t = true := by
  cases X with
  | elem n r m c rest =>
    simp only [cover, Bool.and_eq_true] at h
    exact h.1.1.2
  | empty => exact h
  | simple => cases hX
  | attributed => cases hX

theorem cover_seq {D : Text} {info : StructInfo} {ts : List Ty} {X : XType} (h : cover D (.struct info ts) X = true) :
    X.seq = true ∨ ∃ l, X = .attributed l := by
  cases X with
  | elem n r m c rest =>
    simp only [cover, Bool.and_eq_true] at h
    exact Or.inl h.1.1.1
  | empty => exact Or.inl rfl
  | simple => cases h
  | attributed l => exact Or.inr ⟨l, rfl⟩

theorem part_cover {D : Text} {t : Ty} {X : XType} (h : cover D t X = true) {n : Text} {m : Bool} {c : XType} (hp : part n X = some (m, c))
    {t' : Ty} (hf : fieldAt ⟨D, n⟩ t = some t') : (m = true → isSlice t' = true) ∧ cover D t' c = true := by
  induction X with
  | elem n' r m' c' rest _ ih =>
    simp only [cover, Bool.and_eq_true] at h
    rw [part] at hp
    split at hp
    · rename_i he
      subst he
      simp only [Option.some.injEq, Prod.mk.injEq] at hp
      obtain ⟨rfl, rfl⟩ := hp
      have := h.1.2
      simp only [hf, Bool.and_eq_true, Bool.or_eq_true, Bool.not_eq_true'] at this
      refine ⟨fun hm => ?_, this.2⟩
      rcases this.1 with h' | h'
      · rw [hm] at h'; cases h'
      · exact h'
    · exact ih h.2 hp
  | _ => cases hp

theorem unread_mem {D : Text} {t : Ty} {X : XType} (hX : X.seq = true) (p : List Text) :
    p ∈ unread D t X ↔ ∃ n m c, part n X = some (m, c) ∧ ((fieldAt ⟨D, n⟩ t = none ∧ p = [n]) ∨
      ∃ t' q, fieldAt ⟨D, n⟩ t = some t' ∧ p = n :: q ∧ q ∈ unread D t' c) := by
  induction X with
  | elem n r m c rest _ ih =>
    have hX' := hX
    simp only [XType.seq, Bool.and_eq_true, Bool.not_eq_true', List.contains_eq_mem, decide_eq_false_iff_not] at hX
    have hrest : ∀ {n' m' c'}, part n' rest = some (m', c') → n ≠ n' := by
      have : ∀ (X : XType) {n' m' c'}, part n' X = some (m', c') → n' ∈ X.names := by
        intro X
        induction X with
        | elem a b e f g _ ihg =>
          intro n' m' c' h
          rw [part] at h
          split at h
          · rename_i he; simp [XType.names, he]
          · simp [XType.names, ihg h]
        | _ => intro n' m' c' h; cases h
      intro n' m' c' h e
      subst e
      exact hX.1 (this rest h)
    rw [unread, List.mem_append, ih hX.2]
    constructor
    · rintro (h | ⟨n', m', c', h1, h2⟩)
      · refine ⟨n, m, c, by simp [part], ?_⟩
        cases hf : fieldAt ⟨D, n⟩ t with
        | none => simp only [hf, List.mem_singleton] at h; exact Or.inl ⟨rfl, h⟩
        | some t' =>
          simp only [hf, List.mem_map] at h
          obtain ⟨q, h1, rfl⟩ := h
          exact Or.inr ⟨t', q, rfl, rfl, h1⟩
      · exact ⟨n', m', c', by rw [part, if_neg (hrest h1), h1], h2⟩
    · rintro ⟨n', m', c', h1, h2⟩
      rw [part] at h1
      split at h1
      · rename_i he
        subst he
        simp only [Option.some.injEq, Prod.mk.injEq] at h1
        obtain ⟨rfl, rfl⟩ := h1
        left
        rcases h2 with ⟨h2, rfl⟩ | ⟨t', q, h2, rfl, h3⟩
        · simp [h2]
        · simp [h2, h3]
      · exact Or.inr ⟨n', m', c', h1, h2⟩
  | empty => simp [unread, part]
  | _ => cases hX

theorem pairwise_mem {α : Type} {R : α → α → Prop} {l : List α} (h : l.Pairwise R) {x y : α} (hx : x ∈ l) (hy : y ∈ l) : x = y ∨ R x y ∨ R y x := by
  induction h with
  | nil => cases hx
  | @cons a l h1 h2 ih =>
    rcases List.mem_cons.1 hx with hxa | hx' <;> rcases List.mem_cons.1 hy with hya | hy'
    · exact Or.inl (hxa.trans hya.symm)
    · rw [hxa]; exact Or.inr (Or.inl (h1 y hy'))
    · rw [hya]; exact Or.inr (Or.inr (h1 x hx'))
    · exact ih hx' hy'

/-- The field that takes an element is the only one. -/
theorem fieldAt_takes {info : StructInfo} {ts : List Ty} (ho : okStruct (.struct info ts) = true) {x : FieldInfo × Ty} (hx : x ∈ info.fields.zip ts)
    {n : XName} (ht : Takes info x.1 n) : fieldAt n (.struct info ts) = some x.2 := by
  simp only [okStruct, core, decide_eq_true_eq] at ho
  simp only [fieldAt, core]
  cases hf : (info.fields.zip ts).find? fun x => decide (Takes info x.1 n) with
  | none =>
    rw [List.find?_eq_none] at hf
    exact absurd (by simpa using ht) (hf x hx)
  | some y =>
    have hy := List.mem_of_find?_eq_some hf
    have hty : Takes info y.1 n := by simpa using List.find?_some hf
    have hxy : x = y := by
      rcases pairwise_mem ho hx hy with h | h | h
      · exact h
      · exact absurd ⟨ht.1, hty.1, ht.2.1.symm.trans hty.2.1⟩ h
      · exact absurd ⟨hty.1, ht.1, hty.2.1.symm.trans ht.2.1⟩ h
    rw [hxy]; rfl

theorem fieldAt_some {info : StructInfo} {ts : List Ty} {n : XName} {t : Ty} (h : fieldAt n (.struct info ts) = some t) :
    ∃ x ∈ info.fields.zip ts, Takes info x.1 n ∧ x.2 = t := by
  simp only [fieldAt, core, Option.map_eq_some_iff] at h
  obtain ⟨x, hf, rfl⟩ := h
  exact ⟨x, List.mem_of_find?_eq_some hf, by simpa using List.find?_some hf, rfl⟩

theorem fieldAt_none {info : StructInfo} {ts : List Ty} {n : XName} : fieldAt n (.struct info ts) = none ↔
    ∀ x ∈ info.fields.zip ts, ¬ Takes info x.1 n := by
  simp [fieldAt, core]

theorem ofType_seq {D : Text} {T : XType} (hT : T.seq = true) {as d ks} (h : OfType D T as d ks) : as = [] ∧ Space d := by
  induction T generalizing ks with
  | elem n r m c T _ ih =>
    simp only [XType.seq, Bool.and_eq_true] at hT
    obtain ⟨own, more, -, -, -, -, h⟩ := h
    exact ih hT.2 h
  | empty => exact ⟨h.1, h.2.2⟩
  | _ => cases hT

theorem lost_sound {D : Text} {t : Ty} {i : Info} {p : List Text} (h : Lost t i p) : ∀ {X : XType}, cover D t X = true →
    OfType D X i.attrs i.data i.kids → p ∈ unread D t X ∧ Has p i := by
  have mk : ∀ (k : Info), k.name.space = D → (⟨D, k.name.loc⟩ : XName) = k.name := by
    intro k h
    rw [← h]
  induction h with
  | @unknown info ts i k hk hn =>
    intro X hc ho
    rcases cover_seq hc with hX | ⟨l, rfl⟩
    · obtain ⟨m, c, h1, h2, -⟩ := part_mem hX ho hk
      refine ⟨(unread_mem hX _).2 ⟨_, m, c, h1, Or.inl ⟨?_, rfl⟩⟩, ⟨k, hk, rfl, trivial⟩⟩
      rw [mk k h2, fieldAt_none]
      exact hn
    · rw [ho.1] at hk; cases hk
  | @replaced info ts i a k b k' x e hx ht hs hk' ht' =>
    intro X hc ho
    exfalso
    have hk : k ∈ i.kids := by rw [e]; simp
    have hkk : k' ∈ i.kids := by rw [e]; simp [hk']
    rcases cover_seq hc with hX | ⟨l, rfl⟩
    · obtain ⟨m, c, h1, h2, -, h3⟩ := part_mem hX ho hk
      obtain ⟨-, -, -, h2', -⟩ := part_mem hX ho hkk
      have hf := fieldAt_takes (cover_struct hc hX) hx ht
      rw [← mk k h2] at hf
      have hm : m = false := by
        by_contra hm
        have := (part_cover hc h1 hf).1 (by simpa using hm)
        cases hx2 : x.2 with
        | slice t => exact hs t hx2
        | _ => rw [hx2] at this; cases this
      refine h3 hm a b e k' hk' ?_
      rw [← mk k h2, ← mk k' h2', ht.2.1, ht'.2.1]
    · rw [ho.1] at hk; cases hk
  | @attr info ts i a ha hn =>
    intro X hc ho
    exfalso
    rcases cover_seq hc with hX | ⟨l, rfl⟩
    · rw [(ofType_seq hX ho).1] at ha; cases ha
    · obtain ⟨s, h1, -⟩ := ho.2.2 a ha
      simp only [cover, core, Bool.and_eq_true, List.all_eq_true, List.any_eq_true, decide_eq_true_eq] at hc
      obtain ⟨f, h2, h3⟩ := hc.1 _ h1
      exact hn f h2 h3
  | @text info ts i hd hn =>
    intro X hc ho
    exfalso
    rcases cover_seq hc with hX | ⟨l, rfl⟩
    · exact hd (ofType_seq hX ho).2
    · simp only [cover, core, Bool.and_eq_true, List.all_eq_true, List.any_eq_true, decide_eq_true_eq] at hc
      obtain ⟨f, h2, h3⟩ := hc.2
      exact hn f h2 h3
  | @inside info ts i k p x hk hx ht hl ih =>
    intro X hc ho
    rcases cover_seq hc with hX | ⟨l, rfl⟩
    · obtain ⟨m, c, h1, h2, h3, -⟩ := part_mem hX ho hk
      have hf := fieldAt_takes (cover_struct hc hX) hx ht
      rw [← mk k h2] at hf
      obtain ⟨h4, h5⟩ := ih (part_cover hc h1 hf).2 h3
      exact ⟨(unread_mem hX _).2 ⟨_, m, c, h1, Or.inr ⟨_, _, hf, rfl, h4⟩⟩, k, hk, rfl, h5⟩
    · rw [ho.1] at hk; cases hk
  | @leafElem t i k hl hk =>
    intro X hc ho
    exfalso
    cases X with
    | simple s => rw [ho.2.1] at hk; cases hk
    | attributed l => rw [ho.1] at hk; cases hk
    | _ => have := cover_struct hc (by first | rfl | (simp only [cover, Bool.and_eq_true] at hc; exact hc.1.1.1)); cases t <;> first | cases this | cases hl
  | @leafAttr t i a hl ha =>
    intro X hc ho
    exfalso
    cases X with
    | simple s => rw [ho.1] at ha; cases ha
    | attributed l => cases t <;> first | cases hc | cases hl
    | _ => have := cover_struct hc (by first | rfl | (simp only [cover, Bool.and_eq_true] at hc; exact hc.1.1.1)); cases t <;> first | cases this | cases hl
  | @ptr t i p h ih =>
    intro X hc ho
    rw [← unread_core, show core (.ptr t) = core t from rfl, unread_core]
    rw [← cover_core, show core (.ptr t) = core t from rfl, cover_core] at hc
    exact ih hc ho
  | @slice t i p h ih =>
    intro X hc ho
    rw [← unread_core, show core (.slice t) = core t from rfl, unread_core]
    rw [← cover_core, show core (.slice t) = core t from rfl, cover_core] at hc
    exact ih hc ho

theorem lost_core {i : Info} {p : List Text} : ∀ {t : Ty}, Lost (core t) i p → Lost t i p
  | .ptr t, h => .ptr (lost_core (t := t) h)
  | .slice t, h => .slice (lost_core (t := t) h)
  | .str, h | .int _, h | .float, h | .bool, h | .time, h | .struct _ _, h => h

theorem lost_complete {D : Text} : ∀ (p : List Text) {t : Ty} {i : Info} {X : XType}, cover D t X = true → OfType D X i.attrs i.data i.kids →
    p ∈ unread D t X → Has p i → Lost t i p := by
  intro p
  induction p with
  | nil =>
    intro t i X hc ho hp
    exfalso
    cases X with
    | elem n r m c rest =>
      have hX : XType.seq (.elem n r m c rest) = true := by simp only [cover, Bool.and_eq_true] at hc; exact hc.1.1.1
      obtain ⟨_, _, _, -, ⟨-, h⟩ | ⟨_, _, -, h, -⟩⟩ := (unread_mem hX _).1 hp <;> cases h
    | _ => cases hp
  | cons n q ih =>
    intro t i X hc ho hp hh
    have hX : X.seq = true := by
      cases X with
      | elem n r m c rest => simp only [cover, Bool.and_eq_true] at hc; exact hc.1.1.1
      | _ => cases hp
    obtain ⟨k, hk, hkn, hh⟩ := hh
    obtain ⟨n', m, c, h1, h2⟩ := (unread_mem hX _).1 hp
    obtain ⟨m', c', h3, h4, h5, -⟩ := part_mem hX ho hk
    have hn : n' = n := by rcases h2 with ⟨-, h⟩ | ⟨_, _, -, h, -⟩ <;> (simp only [List.cons.injEq] at h; exact h.1.symm)
    subst hn
    rw [hkn] at h3
    rw [h3] at h1
    simp only [Option.some.injEq, Prod.mk.injEq] at h1
    obtain ⟨rfl, rfl⟩ := h1
    have hkname : k.name = ⟨D, n'⟩ := by rw [← h4, ← hkn]
    refine lost_core ?_
    have hs := cover_struct hc hX
    unfold okStruct at hs
    split at hs
    · rename_i info ts hcore
      rw [hcore]
      rcases h2 with ⟨h2, h6⟩ | ⟨t', q', h2, h6, h7⟩
      · rw [← fieldAt_core, hcore, fieldAt_none, ← hkname] at h2
        rw [h6, ← hkn]
        exact .unknown hk h2
      · simp only [List.cons.injEq, true_and] at h6
        subst h6
        have hcv := (part_cover hc h3 h2).2
        rw [← fieldAt_core, hcore] at h2
        obtain ⟨x, hx, ht, rfl⟩ := fieldAt_some h2
        rw [← hkn]
        exact .inside hk hx (by rw [hkname]; exact ht) (ih hcv h5 h7 hh)
    · cases hs

theorem lost_iff {D : Text} {t : Ty} {X : XType} (hc : cover D t X = true) {i : Info} (ho : OfType D X i.attrs i.data i.kids) (p : List Text) :
    Lost t i p ↔ p ∈ unread D t X ∧ Has p i :=
  ⟨fun h => lost_sound h hc ho, fun h => lost_complete p hc ho h.1 h.2⟩

set_option maxRecDepth 20000 in
theorem lost_msg : ∀ (m : MsgType), (match m.wsdl with
    | some d => cover d.1.space m.ty d.2 && decide (unread d.1.space m.ty d.2 = (lostParts m).map (·.map String.toList))
    | none => true) = true := by
  intro m
  rcases m with r | r <;> cases r <;> decide

end Verif.Soap
