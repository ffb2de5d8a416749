import Verif.Spec.WsdlSent
import Verif.Lemmas.Wsdl
import Verif.Lemmas.Scalar
/-! # What is sent, against the WSDL files -/
set_option linter.unusedSimpArgs false
namespace Verif.Soap
open Xml Json

/-! ### Simple values -/

theorem charsOf_noSpace {t : Text} (h : ∀ c ∈ t, c.isDigit = true ∨ c = '+' ∨ c = '-' ∨ c = '.' ∨ c = 'e') :
    ∀ c ∈ t, c ≠ ' ' ∧ c ≠ '\t' ∧ c ≠ '\n' ∧ c ≠ '\r' := by
  intro c hc
  rcases h c hc with h | rfl | rfl | rfl | rfl
  · refine ⟨?_, ?_, ?_, ?_⟩ <;> (rintro rfl; revert h; decide)
  all_goals decide

theorem charsOf_xml {t : Text} (h : ∀ c ∈ t, c.isDigit = true ∨ c = '+' ∨ c = '-' ∨ c = '.' ∨ c = 'e') : cleanText t = t := by
  refine cleanText_id fun c hc => ?_
  rcases h c hc with h | rfl | rfl | rfl | rfl
  · simp only [Char.isDigit, Bool.and_eq_true, decide_eq_true_eq] at h
    unfold IsXmlChar
    have h1 : 48 ≤ c.val.toNat := by simpa [UInt32.le_iff_toNat_le] using h.1
    have h2 : c.val.toNat ≤ 57 := by simpa [UInt32.le_iff_toNat_le] using h.2
    have h3 : c.toNat = c.val.toNat := rfl
    omega
  all_goals decide

theorem intText_means (n : Int) : IntText (Codec.intText n) n := by
  refine ⟨decide (n < 0), natDigits n.natAbs, natDigits_ne_nil _, ?_, ?_⟩
  · rw [intText_eq]
    by_cases h : n < 0
    · simp [Signed, h]
    · simp [Signed, h]
  · rw [digitsVal_natDigits]
    by_cases h : n < 0
    · simp only [h, decide_true, if_true]; omega
    · simp only [h, decide_false, Bool.false_eq_true, if_false]; omega

theorem intText_unique {t : Text} {m n : Int} (h1 : IntText t m) (h2 : IntText t n) : m = n := by
  have hb : ∀ k : Int, k.natAbs ≤ m.natAbs + n.natAbs → -(2 ^ (m.natAbs + n.natAbs + 1 - 1) : Int) ≤ k ∧ k < 2 ^ (m.natAbs + n.natAbs + 1 - 1) := by
    intro k hk
    have h := Nat.lt_two_pow_self (n := m.natAbs + n.natAbs)
    have h' : ((m.natAbs + n.natAbs : Nat) : Int) < 2 ^ (m.natAbs + n.natAbs) := by exact_mod_cast h
    rw [Nat.add_sub_cancel]
    omega
  have e1 := (parseInt_iff (m.natAbs + n.natAbs + 1) t m).2 ⟨h1, hb m (by omega)⟩
  have e2 := (parseInt_iff (m.natAbs + n.natAbs + 1) t n).2 ⟨h2, hb n (by omega)⟩
  rw [e1] at e2
  exact Option.some.inj e2

theorem lexical_int (t : Text) (h : ∀ c ∈ t, c.isDigit = true ∨ c = '+' ∨ c = '-' ∨ c = '.' ∨ c = 'e') :
    XSimple.int.Lexical (cleanText t) ↔ ∃ n, IntText t n ∧ Int32 n := by
  rw [charsOf_xml h]
  constructor
  · rintro ⟨a, u, b, n, h1, h2, h3, h4⟩
    obtain ⟨rfl, rfl, rfl⟩ := space_not_mem h1 (charsOf_noSpace h)
    exact ⟨n, h2, h3, h4⟩
  · rintro ⟨n, h1, h2, h3⟩
    have hsp : Space [] := fun c hc => by cases hc
    exact ⟨[], t, [], n, ⟨hsp, hsp, by simp⟩, h1, h2, h3⟩

theorem lexical_intText (n : Int) : XSimple.int.Lexical (cleanText (Codec.intText n)) ↔ Int32 n := by
  rw [lexical_int _ (intText_chars n)]
  constructor
  · rintro ⟨m, h1, h2⟩
    have : m = n := intText_unique h1 (intText_means n)
    exact this ▸ h2
  · intro h; exact ⟨n, intText_means n, h⟩

theorem lexical_time {t : GoTime} (h : t.Plain) : XSimple.dateTime.Lexical (cleanText t.formatNano) ↔ DateOk t := by
  rw [cleanText_id (GoTime.formatNano_chars t)]
  exact dateTime_iff h

theorem lexical_max (n : Nat) (s : Text) : (XSimple.max n).Lexical (cleanText s) ↔ s.length ≤ n := by
  rw [XSimple.Lexical, cleanText_length]

/-- Characters that only come from themselves. -/
def plainChars (s : Text) : Bool := s.all fun c => c.isAlpha

theorem cleanChar_alpha {c d : Char} (hd : d.isAlpha = true) (h : cleanChar c = d) : c = d := by
  unfold cleanChar at h
  split at h
  · exact h
  · subst h; exact absurd hd (by decide)

theorem clean_plain {s t : Text} (ht : plainChars t = true) (h : cleanText s = t) : s = t := by
  induction s generalizing t with
  | nil => exact h
  | cons c s ih =>
    cases t with
    | nil => cases h
    | cons d t =>
      simp only [cleanText, List.map_cons, List.cons.injEq] at h
      simp only [plainChars, List.all_cons, Bool.and_eq_true] at ht
      rw [cleanChar_alpha ht.1 h.1, ih ht.2 h.2]

theorem plain_clean {t : Text} (ht : plainChars t = true) : cleanText t = t := by
  refine cleanText_id fun c hc => ?_
  have := List.all_eq_true.1 ht c hc
  unfold IsXmlChar
  simp only [Char.isAlpha, Char.isUpper, Char.isLower, Bool.or_eq_true, Bool.and_eq_true, decide_eq_true_eq, UInt32.le_iff_toNat_le] at this
  have h3 : c.toNat = c.val.toNat := rfl
  simp at this
  omega

theorem lexical_enum (l : List String) (hl : l.all (fun e => plainChars e.toList) = true) (s : Text) :
    (XSimple.enum (l.map String.toList)).Lexical (cleanText s) ↔ OneOf l s := by
  rw [XSimple.Lexical, OneOf]
  constructor
  · intro h
    obtain ⟨e, he, h⟩ := List.mem_map.1 h
    rw [clean_plain (List.all_eq_true.1 hl e he) h.symm]
    exact List.mem_map_of_mem he
  · intro h
    obtain ⟨e, he, rfl⟩ := List.mem_map.1 h
    rw [plain_clean (List.all_eq_true.1 hl e he)]
    exact List.mem_map_of_mem he

/-! ### Fields and blocks -/

/-- The blocks of elements, one for each field. -/
def blocks (G : FloatText) (D : Text) : List FieldInfo → List Ty → List Val → List (List Info)
  | f :: fs, t :: ts, v :: vs => render G D t f.xml f.xmlOmit v :: blocks G D fs ts vs
  | _, _, _ => []

def pick (bs : List (List Info)) (i : Nat) : List Info := (bs[i]?).getD []

/-- Names with their indices. -/
def numbered (k : Nat) : List Text → List (Nat × Text)
  | [] => []
  | n :: ns => (k, n) :: numbered (k + 1) ns

def elems (fs : List FieldInfo) : Bool := fs.all fun f => match f.xmlKind with | .elem => true | _ => false

theorem renderAttrs_elems (G : FloatText) {fs : List FieldInfo} (h : elems fs = true) (vs : List Val) : renderAttrs G fs vs = [] := by
  induction fs generalizing vs with
  | nil => cases vs <;> rfl
  | cons f fs ih =>
    cases vs with
    | nil => rfl
    | cons v vs =>
      simp only [elems, List.all_cons, Bool.and_eq_true] at h
      rw [renderAttrs, ih h.2]
      cases hk : f.xmlKind <;> simp_all

theorem renderData_elems (G : FloatText) {fs : List FieldInfo} (h : elems fs = true) (vs : List Val) : renderData G fs vs = [] := by
  induction fs generalizing vs with
  | nil => cases vs <;> rfl
  | cons f fs ih =>
    cases vs with
    | nil => rfl
    | cons v vs =>
      simp only [elems, List.all_cons, Bool.and_eq_true] at h
      rw [renderData, ih h.2]
      cases hk : f.xmlKind <;> simp_all

theorem renderFields_blocks (G : FloatText) (D : Text) {fs : List FieldInfo} (h : elems fs = true) {ts : List Ty} {vs : List Val} (f : Nat → List Info)
    (k : Nat) (h1 : fs.length = ts.length) (h2 : ts.length = vs.length) (hf : ∀ i, f (k + i) = pick (blocks G D fs ts vs) i) :
    renderFields G D fs ts vs = (numbered k (fs.map (·.xml))).flatMap fun b => f b.1 := by
  induction fs generalizing ts vs k with
  | nil => cases ts <;> cases vs <;> rfl
  | cons g fs ih =>
    cases ts with
    | nil => cases h1
    | cons t ts =>
      cases vs with
      | nil => cases h2
      | cons v vs =>
        simp only [elems, List.all_cons, Bool.and_eq_true] at h
        simp only [List.map_cons, numbered, List.flatMap_cons, renderFields]
        rw [ih h.2 (k + 1) (by simpa using h1) (by simpa using h2) (fun i => by
          have := hf (i + 1)
          rw [show k + (i + 1) = k + 1 + i by omega] at this
          rw [this]; simp [pick, blocks])]
        have h0 := hf 0
        simp only [Nat.add_zero, pick, blocks, List.getElem?_cons_zero, Option.getD_some] at h0
        rw [h0]
        cases hk : g.xmlKind <;> simp_all

theorem hasTys_length {ts : List Ty} {vs : List Val} (h : HasTys ts vs) : ts.length = vs.length := by
  induction ts generalizing vs with
  | nil => cases vs with | nil => rfl | cons => cases h
  | cons t ts ih => cases vs with | nil => cases h | cons v vs => simp [ih h.2]

theorem render_simple_name (G : FloatText) (D : Text) {t : Ty} (ht : simpleTy t = true) (n : Text) (om : Bool) (v : Val) :
    ∀ k ∈ render G D t n om v, k.name = ⟨D, n⟩ := by
  intro k hk
  rw [render_simple G ht] at hk
  split at hk
  · cases hk
  · simp only [List.mem_singleton] at hk; subst hk; rfl

/-- Elements of a field have its name. -/
theorem render_name (G : FloatText) (D : Text) (t : Ty) (n : Text) (om : Bool) (v : Val) : ∀ k ∈ render G D t n om v, k.name = ⟨D, n⟩ := by
  match t with
  | .str => exact render_simple_name G D (t := .str) rfl n om v
  | .int b => exact render_simple_name G D (t := .int b) rfl n om v
  | .float => exact render_simple_name G D (t := .float) rfl n om v
  | .bool => exact render_simple_name G D (t := .bool) rfl n om v
  | .time => exact render_simple_name G D (t := .time) rfl n om v
  | .ptr t =>
    intro k hk
    cases v <;> simp only [render, List.not_mem_nil] at hk
    exact render_name G D t n false _ k hk
  | .slice t =>
    intro k hk
    cases v <;> simp only [render, List.not_mem_nil, List.mem_flatMap] at hk
    obtain ⟨v, -, hk⟩ := hk
    exact render_name G D t n om v k hk
  | .struct info ts =>
    intro k hk
    cases v <;> simp only [render, List.not_mem_nil, List.mem_singleton] at hk
    subst hk; rfl

theorem block_name (G : FloatText) (D : Text) {fs : List FieldInfo} {ts : List Ty} {vs : List Val} (f : Nat → List Info)
    (k : Nat) (hf : ∀ i, f (k + i) = pick (blocks G D fs ts vs) i) :
    ∀ b ∈ numbered k (fs.map (·.xml)), ∀ e ∈ f b.1, e.name = ⟨D, b.2⟩ := by
  induction fs generalizing ts vs k with
  | nil => intro b hb; cases hb
  | cons g fs ih =>
    have hnil : (∀ i, pick (blocks G D (g :: fs) ts vs) i = []) → ∀ b ∈ numbered k ((g :: fs).map (·.xml)), ∀ e ∈ f b.1, e.name = ⟨D, b.2⟩ := by
      intro h0 b hb e he
      have hk : ∀ (ns : List Text) (k : Nat), ∀ b ∈ numbered k ns, k ≤ b.1 := by
        intro ns
        induction ns with
        | nil => intro k b hb; cases hb
        | cons n ns ih =>
          intro k b hb
          simp only [numbered, List.mem_cons] at hb
          rcases hb with rfl | hb
          · exact le_refl _
          · exact le_trans (Nat.le_succ _) (ih _ b hb)
      have := hf (b.1 - k)
      rw [Nat.add_sub_cancel' (hk _ _ b hb), h0] at this
      rw [this] at he; cases he
    cases ts with
    | nil => exact hnil (by intro i; simp [blocks, pick])
    | cons t ts =>
      cases vs with
      | nil => exact hnil (by intro i; simp [blocks, pick])
      | cons v vs =>
        intro b hb e he
        simp only [List.map_cons, numbered, List.mem_cons] at hb
        rcases hb with rfl | hb
        · have h0 := hf 0
          simp only [Nat.add_zero, pick, blocks, List.getElem?_cons_zero, Option.getD_some] at h0
          rw [h0] at he
          exact render_name G D _ _ _ _ e he
        · exact ih (ts := ts) (vs := vs) (k + 1) (fun i => by
            have := hf (i + 1)
            rw [show k + (i + 1) = k + 1 + i by omega] at this
            rw [this]; simp [pick, blocks]) b hb e he

theorem numbered_names (k : Nat) (ns : List Text) : (numbered k ns).map (·.2) = ns := by
  induction ns generalizing k with
  | nil => rfl
  | cons n ns ih => simp [numbered, ih]

/-- The content of a struct is of a type exactly if the needs are met. -/
theorem struct_iff (G : FloatText) (D : Text) {fs : List FieldInfo} {ts : List Ty} {vs : List Val} {T : XType} (hv : HasTys ts vs)
    (hl : fs.length = ts.length) (he : elems fs = true) (hn : (fs.map (·.xml)).Nodup) (hT : T.seq = true) :
    OfType D T (renderAttrs G fs vs) (renderData G fs vs) (renderFields G D fs ts vs) ↔
      ∀ nd ∈ needs (numbered 0 (fs.map (·.xml))) T, nd.Holds D (pick (blocks G D fs ts vs)) := by
  rw [renderAttrs_elems G he, renderData_elems G he,
    renderFields_blocks G D he (pick (blocks G D fs ts vs)) 0 hl (hasTys_length hv) (by simp),
    needs_iff hT (block_name G D (ts := ts) (vs := vs) _ 0 (by simp)) (by rw [numbered_names]; exact hn)]
  simp only [true_and]
  have hsp : Space [] := fun c hc => by cases hc
  exact ⟨fun h => h.2, fun h => ⟨hsp, h⟩⟩

/-- The blocks, with the names apart. -/
def blocksAt (G : FloatText) (D : Text) (nm : Nat → Text) : Nat → List Bool → List Ty → List Val → List (List Info)
  | k, om :: oms, t :: ts, v :: vs => render G D t (nm k) om v :: blocksAt G D nm (k + 1) oms ts vs
  | _, _, _, _ => []

theorem blocks_at (G : FloatText) (D : Text) (nm : Nat → Text) (fs : List FieldInfo) (ts : List Ty) (vs : List Val) (k : Nat)
    (h : ∀ i, nm (k + i) = ((fs.map (·.xml))[i]?).getD []) :
    blocks G D fs ts vs = blocksAt G D nm k (fs.map (·.xmlOmit)) ts vs := by
  induction fs generalizing ts vs k with
  | nil => cases ts <;> cases vs <;> rfl
  | cons f fs ih =>
    cases ts with
    | nil => rfl
    | cons t ts =>
      cases vs with
      | nil => rfl
      | cons v vs =>
        have h0 := h 0
        simp only [Nat.add_zero, List.map_cons, List.getElem?_cons_zero, Option.getD_some] at h0
        simp only [blocks, List.map_cons, blocksAt, h0, List.cons.injEq, true_and]
        refine ih ts vs (k + 1) fun i => ?_
        have := h (i + 1)
        rw [show k + (i + 1) = k + 1 + i by omega] at this
        rw [this]; simp

/-- A message against its global element. -/
theorem rendered_iff (G : FloatText) {m : MsgType} {info : StructInfo} {ts : List Ty} {vs : List Val} (hm : m.ty = .struct info ts) (hv : HasTys ts vs)
    {decl : XName × XType} (hd : m.wsdl = some decl) (hn : nameOf m.ty = decl.1) (hl : info.fields.length = ts.length)
    (he : elems info.fields = true) (hnd : (info.fields.map (·.xml)).Nodup) (hT : decl.2.seq = true) {l : List Need} {oms : List Bool}
    (hl' : needs (numbered 0 (info.fields.map (·.xml))) decl.2 = l) (ho : info.fields.map (·.xmlOmit) = oms) :
    ∃ D nm, ((∃ decl, m.wsdl = some decl ∧ XValid decl (rendered G m (.struct vs))) ↔
      ∀ nd ∈ l, nd.Holds D (pick (blocksAt G D nm 0 oms ts vs))) := by
  refine ⟨decl.1.space, fun i => ((info.fields.map (·.xml))[i]?).getD [], ?_⟩
  rw [← ho, ← blocks_at G _ _ info.fields ts vs 0 (fun i => by simp), ← hl', ← struct_iff G decl.1.space hv hl he hnd hT, hd]
  have hr : rendered G m (.struct vs) = .elem decl.1 (renderAttrs G info.fields vs) (renderData G info.fields vs)
      (renderFields G decl.1.space info.fields ts vs) := by
    unfold rendered
    simp only [hm]
    rw [← hm, hn]
  simp only [Option.some.injEq, exists_eq_left', hr, XValid]
  exact ⟨fun h => h.2, fun h => ⟨rfl, h⟩⟩

/-- The content of an inner struct. -/
theorem inner_iff (G : FloatText) (D : Text) {info : StructInfo} {ts : List Ty} {vs : List Val} (hv : HasTys ts vs)
    {T : XType} (hl : info.fields.length = ts.length)
    (he : elems info.fields = true) (hnd : (info.fields.map (·.xml)).Nodup) (hT : T.seq = true) {l : List Need} {oms : List Bool}
    (hl' : needs (numbered 0 (info.fields.map (·.xml))) T = l) (ho : info.fields.map (·.xmlOmit) = oms) :
    ∃ nm, (OfType D T (renderAttrs G info.fields vs) (renderData G info.fields vs) (renderFields G D info.fields ts vs) ↔
      ∀ nd ∈ l, nd.Holds D (pick (blocksAt G D nm 0 oms ts vs))) := by
  refine ⟨fun i => ((info.fields.map (·.xml))[i]?).getD [], ?_⟩
  rw [← ho, ← blocks_at G _ _ info.fields ts vs 0 (fun i => by simp), ← hl', ← struct_iff G D hv hl he hnd hT]

/-- A block of a simple value. -/
def scalar (G : FloatText) (D n : Text) (om : Bool) (v : Val) : List Info :=
  if om = true ∧ Blank v = true then [] else [.elem ⟨D, n⟩ [] (cleanText (scalarText G v)) []]

theorem render_str (G : FloatText) (D n : Text) (om : Bool) (v : Val) : render G D .str n om v = scalar G D n om v := rfl
theorem render_int (G : FloatText) (D n : Text) (b : Nat) (om : Bool) (v : Val) : render G D (.int b) n om v = scalar G D n om v := rfl
theorem render_float (G : FloatText) (D n : Text) (om : Bool) (v : Val) : render G D .float n om v = scalar G D n om v := rfl
theorem render_bool (G : FloatText) (D n : Text) (om : Bool) (v : Val) : render G D .bool n om v = scalar G D n om v := rfl
theorem render_time (G : FloatText) (D n : Text) (om : Bool) (v : Val) : render G D .time n om v = scalar G D n om v := rfl

theorem scalar_nil (G : FloatText) (D n : Text) (om : Bool) (v : Val) : scalar G D n om v = [] ↔ om = true ∧ Blank v = true := by
  unfold scalar; split <;> simp_all

theorem scalar_one (G : FloatText) (D n : Text) (om : Bool) (v : Val) : (scalar G D n om v).length ≤ 1 := by
  unfold scalar; split <;> simp

theorem scalar_each (G : FloatText) (D n : Text) (om : Bool) (v : Val) (s : XSimple) :
    (∀ k ∈ scalar G D n om v, OfType D (.simple s) k.attrs k.data k.kids) ↔ (om = true ∧ Blank v = true) ∨ s.Lexical (cleanText (scalarText G v)) := by
  unfold scalar
  split
  · simp_all
  · rename_i h
    simp only [List.mem_singleton, forall_eq, h, false_or]
    exact ⟨fun h => h.2.2, fun h => ⟨rfl, rfl, h⟩⟩

theorem pick_zero (b : List Info) (bs : List (List Info)) : pick (b :: bs) 0 = b := rfl
theorem pick_succ (b : List Info) (bs : List (List Info)) (i : Nat) : pick (b :: bs) (i + 1) = pick bs i := by simp [pick]

end Verif.Soap
