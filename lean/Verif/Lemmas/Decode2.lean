import Verif.Lemmas.Decode
set_option linter.unusedSimpArgs false
/-!
# The generated decoders and the JSON schemas agree, type by type
-/
namespace Verif
namespace Decode
open Json Codec Encode

/-! ### The check -/

/-- The decoder of a struct against its schema. -/
def decOk (info : StructInfo) (props : List (Text × Schema)) (required : List Text) (closed : Bool) : Bool :=
  match info.dec with
  | .cases cs strict req =>
    !reflective info && (strict == closed) && req.all (required.contains ·) && required.all (req.contains ·) &&
    cs.all (fun c => ((info.fields[c.2]?).map FieldInfo.json == some c.1) && (props.map Prod.fst).contains c.1) &&
    info.fields.zipIdx.all (fun f => !(props.map Prod.fst).contains f.1.json || cs.lookup f.1.json == some f.2) &&
    props.all (fun p => (cs.lookup p.1).isSome)
  | .reflect fs => reflective info && decide (fs = info.fields.zipIdx.map fun f => (f.1.json, f.2))

mutual
/-- A type's decoders against a schema. -/
def okDec : Ty → Schema → Bool
  | .ptr t, sch => okDec t sch
  | .slice t, .arr items => okDec t items
  | .slice _, _ => false
  | .struct info ts, .obj props required closed =>
    info.fields.length == ts.length && decide ((info.fields.map FieldInfo.json).Nodup) &&
    decOk info props required closed && okDecs ts info.fields props (reflective info)
  | .struct _ _, _ => false
  | _, _ => true
def okDecs : List Ty → List FieldInfo → List (Text × Schema) → Bool → Bool
  | t :: ts, f :: fs, props, all =>
    (!(all || (props.map Prod.fst).contains f.json) || okDec t ((props.lookup f.json).getD .str)) &&
    okDecs ts fs props all
  | _, _, _, _ => true
end

/-! ### Well-typedness -/


theorem fracNano_lt (k : Nat) (ds : List (Fin 10)) : GoTime.fracNano k ds < 10 ^ k := by
  induction ds generalizing k with
  | nil => simp [GoTime.fracNano]
  | cons d ds ih =>
    simp only [GoTime.fracNano]
    split
    · simp
    · have h := ih (k - 1)
      have hd := d.isLt
      obtain ⟨k, rfl⟩ : ∃ m, k = m + 1 := ⟨k - 1, by omega⟩
      simp only [Nat.add_sub_cancel] at h ⊢
      rw [pow_succ]
      have : d.val * 10 ^ k ≤ 9 * 10 ^ k := Nat.mul_le_mul_right _ (by omega)
      omega

theorem parseFraction_lt (t : Text) : (GoTime.parseFraction t).1 < 10 ^ 9 := by
  unfold GoTime.parseFraction
  repeat' split
  all_goals first | exact fracNano_lt _ _ | simp

theorem parseTime_nano {s : Text} {t : GoTime} (h : GoTime.parseTime s = some t) : t.nano < 10 ^ 9 := by
  simp only [GoTime.parseTime, bind, Option.bind_eq_some_iff] at h
  obtain ⟨_, _, _, _, _, _, _, _, _, _, _, _, _, _, _, _, _, _, _, _, ⟨s', r'⟩, _, _, _, h⟩ := h
  split at h
  · simp only [Option.some.injEq] at h
    rw [← h]; exact parseFraction_lt _
  · cases h

mutual
theorem hasTy_zero (t : Ty) : HasTy t (zeroVal t) := by
  match t with
  | .str => exact True.intro
  | .int b => 
    simp only [zeroVal, HasTy]
    constructor
    · have : (0 : Int) ≤ 2 ^ (b - 1) := by positivity
      omega
    · positivity
  | .float =>
    have h := isF64_int (n := 0) (by norm_num)
    simp only [Int.cast_zero] at h
    exact h
  | .bool => exact True.intro
  | .time => simp [zeroVal, HasTy, GoTime.zero]
  | .ptr _ => exact True.intro
  | .slice _ => exact True.intro
  | .struct _ ts => exact hasTys_zero ts
  termination_by structural t
theorem hasTys_zero (ts : List Ty) : HasTys ts (zeroVals ts) := by
  match ts with
  | [] => exact True.intro
  | t :: ts => exact ⟨hasTy_zero t, hasTys_zero ts⟩
  termination_by structural ts
end

/-! ### Structs -/

theorem lookup_mem {α : Type} {l : List (Text × α)} {k : Text} {a : α} (h : l.lookup k = some a) : (k, a) ∈ l := by
  induction l with
  | nil => simp at h
  | cons x l ih =>
    obtain ⟨k', a'⟩ := x
    rw [List.lookup_cons] at h
    split at h
    · rename_i he
      simp only [beq_iff_eq] at he
      simp_all
    · exact List.mem_cons_of_mem _ (ih h)

theorem lookup_none {α : Type} {l : List (Text × α)} {k : Text} : l.lookup k = none ↔ k ∉ l.map Prod.fst := by
  induction l with
  | nil => simp
  | cons x l ih =>
    obtain ⟨k', a'⟩ := x
    rw [List.lookup_cons, List.map_cons, List.mem_cons]
    split
    · rename_i he
      simp only [beq_iff_eq] at he
      simp [he]
    · rename_i he
      simp only [beq_eq_false_iff_ne, ne_eq] at he
      rw [ih]; tauto

/-- The facts the check gives for a switch decoder. -/
structure CasesFacts (fs : List FieldInfo) (props : List (Text × Schema)) (cs : List (Text × Nat)) : Prop where
  iff : ∀ k i, cs.lookup k = some i ↔ ∃ f, fs[i]? = some f ∧ f.json = k ∧ k ∈ props.map Prod.fst
  none : ∀ k, cs.lookup k = none ↔ k ∉ props.map Prod.fst

theorem casesFacts {fs : List FieldInfo} {props : List (Text × Schema)} {cs : List (Text × Nat)}
    (h1 : cs.all (fun c => ((fs[c.2]?).map FieldInfo.json == some c.1) && (props.map Prod.fst).contains c.1) = true)
    (h2 : fs.zipIdx.all (fun f => !(props.map Prod.fst).contains f.1.json || cs.lookup f.1.json == some f.2) = true)
    (h3 : props.all (fun p => (cs.lookup p.1).isSome) = true) : CasesFacts fs props cs := by
  have key : ∀ k i, cs.lookup k = some i ↔ ∃ f, fs[i]? = some f ∧ f.json = k ∧ k ∈ props.map Prod.fst := by
    intro k i
    constructor
    · intro h
      have := List.all_eq_true.1 h1 _ (lookup_mem h)
      simp only [Bool.and_eq_true, beq_iff_eq, Option.map_eq_some_iff, List.contains_iff_mem] at this
      obtain ⟨⟨f, hf, hk⟩, hp⟩ := this
      exact ⟨f, hf, hk, hp⟩
    · rintro ⟨f, hf, rfl, hp⟩
      have hm : (f, i) ∈ fs.zipIdx := by
        rw [List.mem_zipIdx_iff_getElem?]; exact hf
      have := List.all_eq_true.1 h2 _ hm
      simp only [Bool.or_eq_true, Bool.not_eq_true', beq_iff_eq] at this
      rcases this with h | h
      · rw [List.contains_iff_mem.2 hp] at h; cases h
      · exact h
  refine ⟨key, fun k => ⟨fun h hp => ?_, fun h => ?_⟩⟩
  · obtain ⟨p, hpp, rfl⟩ := List.mem_map.1 hp
    have := List.all_eq_true.1 h3 _ hpp
    rw [h] at this; cases this
  · cases hc : cs.lookup k with
    | none => rfl
    | some i => 
      obtain ⟨f, _, _, hp⟩ := (key k i).1 hc
      exact absurd hp h

/-- The loop over the property map and the specified fields. -/
theorem loop_iff {fs : List FieldInfo} {props : List (Text × Schema)} {cs : List (Text × Nat)} (hc : CasesFacts fs props cs)
    {closed : Bool} {rs : List Reader} {ms ents : List (Text × JVal)} (hp : ents.Perm (lastWins ms)) {vs vs' : List Val}
    (h1 : rs.length = fs.length) (h2 : vs.length = fs.length) :
    Loop cs closed rs ents vs vs' ↔ (closed = true → ∀ m ∈ ms, (props.map Prod.fst).contains m.1 = true) ∧
      readFields props ms fs rs vs = some vs' := by
  have hent : ∀ e, e ∈ ents ↔ lastVal ms e.1 = some e.2 := fun e => hp.mem_iff.trans (lastWins_mem ms e.1 e.2)
  rw [readFields_iff h1 h2]
  constructor
  · rintro ⟨g1, g2, g3, g4⟩
    refine ⟨?_, g1, ?_⟩
    · intro hcl m hm
      have : m.1 ∈ (lastWins ms).map Prod.fst := (lastWins_keys ms m.1).2 (List.mem_map_of_mem hm)
      obtain ⟨e, he, hk⟩ := List.mem_map.1 this
      rw [List.contains_iff_mem]
      by_contra hnp
      have := g3 e (hp.mem_iff.2 he) ((hc.none _).2 (hk ▸ hnp))
      rw [hcl] at this; cases this
    · intro i f r v hf hr hv
      by_cases hpf : f.json ∈ props.map Prod.fst
      · rw [if_pos (List.contains_iff_mem.2 hpf)]
        have hlk := (hc.iff f.json i).2 ⟨f, hf, rfl, hpf⟩
        cases hl : lastVal ms f.json with
        | some j =>
          obtain ⟨r', v1, v', q1, q2, q3, q4⟩ := g2 (f.json, j) ((hent _).2 hl) i hlk
          rw [hr] at q1; cases q1
          rw [hv] at q2; cases q2
          exact ⟨v', q3, q4⟩
        | none =>
          refine ⟨v, ?_, rfl⟩
          rw [g4 i, hv]
          intro e he hlk'
          obtain ⟨f', hf', hk', _⟩ := (hc.iff _ _).1 hlk'
          rw [hf] at hf'; cases hf'
          have := (hent _).1 he
          rw [← hk', hl] at this; cases this
      · rw [if_neg (fun h => hpf (List.contains_iff_mem.1 h))]
        refine ⟨v, ?_, rfl⟩
        rw [g4 i, hv]
        intro e he hlk'
        obtain ⟨f', hf', hk', hp'⟩ := (hc.iff _ _).1 hlk'
        rw [hf] at hf'; cases hf'
        exact hpf (hk' ▸ hp')
  · rintro ⟨g1, g2, g3⟩
    refine ⟨g2, ?_, ?_, ?_⟩
    · intro e he i hlk
      obtain ⟨f, hf, hk, hpf⟩ := (hc.iff _ _).1 hlk
      have hi : i < fs.length := (List.getElem?_eq_some_iff.1 hf).1
      obtain ⟨r, hr⟩ : ∃ r, rs[i]? = some r := ⟨_, List.getElem?_eq_getElem (by omega)⟩
      obtain ⟨v, hv⟩ : ∃ v, vs[i]? = some v := ⟨_, List.getElem?_eq_getElem (by omega)⟩
      obtain ⟨v', hv', hpk⟩ := g3 i f r v hf hr hv
      rw [hk, if_pos (List.contains_iff_mem.2 hpf), (hent e).1 he] at hpk
      exact ⟨r, v, v', hr, hv, hv', hpk⟩
    · intro e he hlk
      cases closed with
      | false => rfl
      | true =>
        have hkm : e.1 ∈ ms.map Prod.fst := (lastWins_keys ms _).1 (List.mem_map_of_mem (hp.mem_iff.1 he))
        obtain ⟨m, hm, hk⟩ := List.mem_map.1 hkm
        have := List.contains_iff_mem.1 (g1 rfl m hm)
        rw [hk] at this
        exact absurd this ((hc.none _).1 hlk)
    · intro i hne
      by_cases hi : i < fs.length
      · obtain ⟨f, hf⟩ : ∃ f, fs[i]? = some f := ⟨_, List.getElem?_eq_getElem hi⟩
        obtain ⟨r, hr⟩ : ∃ r, rs[i]? = some r := ⟨_, List.getElem?_eq_getElem (by omega)⟩
        obtain ⟨v, hv⟩ : ∃ v, vs[i]? = some v := ⟨_, List.getElem?_eq_getElem (by omega)⟩
        obtain ⟨v', hv', hpk⟩ := g3 i f r v hf hr hv
        by_cases hpf : f.json ∈ props.map Prod.fst
        · rw [if_pos (List.contains_iff_mem.2 hpf)] at hpk
          cases hl : lastVal ms f.json with
          | some j => exact absurd ((hc.iff f.json i).2 ⟨f, hf, rfl, hpf⟩) (hne (f.json, j) ((hent _).2 hl))
          | none =>
            rw [hl] at hpk
            rw [hv', hv]; exact congrArg some hpk
        · rw [if_neg (fun h => hpf (List.contains_iff_mem.1 h))] at hpk
          rw [hv', hv]; exact congrArg some hpk
      · rw [List.getElem?_eq_none (by omega), List.getElem?_eq_none (by omega)]

theorem all_contains {a b : List Text} : a.all (b.contains ·) = true ↔ ∀ k ∈ a, k ∈ b := by
  simp

/-- A switch decoder. -/
theorem cases_ok (o : Order) {fs : List FieldInfo} {props : List (Text × Schema)} {cs : List (Text × Nat)}
    (hc : CasesFacts fs props cs) {closed : Bool} {req required : List Text} (hr1 : ∀ k, k ∈ req ↔ k ∈ required)
    {ts : List Ty} {decs : List FieldDec} {rs : List Reader} (hl : fs.length = ts.length) (hrl : rs.length = fs.length)
    (hd : DecsOk cs ts decs rs) (p : List Nat) (ms : List (Text × JVal)) {vs : List Val} (hv : HasTys ts vs) :
    Agree ((goCases cs closed decs p 0 (o.ord p (lastWins ms)) vs).bind
        (checkRequired req ((o.ord p (lastWins ms)).map Prod.fst)))
      (if (closed = true → ∀ m ∈ ms, (props.map Prod.fst).contains m.1 = true) ∧
        (∀ k ∈ required, (ms.map Prod.fst).contains k = true) then
          (readFields props ms fs rs vs).map .struct else none) ∧
    ∀ vs', (closed = true → ∀ m ∈ ms, (props.map Prod.fst).contains m.1 = true) → readFields props ms fs rs vs = some vs' → HasTys ts vs' := by
  have hp := o.perm p (lastWins ms)
  have hn : ((o.ord p (lastWins ms)).map Prod.fst).Nodup := ((hp.map Prod.fst).nodup_iff).2 (lastWins_nodup ms)
  have hinj : ∀ k k' i, cs.lookup k = some i → cs.lookup k' = some i → k = k' := by
    intro k k' i h h'
    obtain ⟨f, hf, hk, _⟩ := (hc.iff _ _).1 h
    obtain ⟨f', hf', hk', _⟩ := (hc.iff _ _).1 h'
    rw [hf] at hf'; cases hf'
    rw [← hk, hk']
  obtain ⟨a1, a2, a3⟩ := goCases_ok hd hinj closed p _ hn 0 vs hv
  have hvl := hasTys_length hv
  have a3 := fun vs' => (a3 vs').trans (loop_iff hc hp hrl (by omega))
  refine ⟨agree_of ?_ ?_, ?_⟩
  · intro v
    rw [GoRes.bind_eq_ok]
    have hcr : ∀ vs', checkRequired req ((o.ord p (lastWins ms)).map Prod.fst) vs' = .ok v ↔
        (∀ k ∈ required, (ms.map Prod.fst).contains k = true) ∧ v = .struct vs' := by
      intro vs'
      have : req.all (((o.ord p (lastWins ms)).map Prod.fst).contains ·) = true ↔
          ∀ k ∈ required, (ms.map Prod.fst).contains k = true := by
        rw [all_contains]
        constructor
        · intro h k hk
          have := h k ((hr1 k).2 hk)
          rw [(hp.map Prod.fst).mem_iff, lastWins_keys] at this
          exact List.contains_iff_mem.2 this
        · intro h k hk
          rw [(hp.map Prod.fst).mem_iff, lastWins_keys]
          exact List.contains_iff_mem.1 (h k ((hr1 k).1 hk))
      simp only [checkRequired]
      split
      · rename_i h
        rw [GoRes.ok.injEq]
        exact ⟨fun e => ⟨this.1 h, e.symm⟩, fun e => e.2.symm⟩
      · rename_i h
        simp only [reduceCtorEq, false_iff]
        exact fun hh => h (this.2 hh.1)
    constructor
    · rintro ⟨vs', h1, h2⟩
      obtain ⟨g1, g2⟩ := (a3 vs').1 h1
      obtain ⟨g3, rfl⟩ := (hcr vs').1 h2
      rw [if_pos ⟨g1, g3⟩, g2]; rfl
    · intro h
      split at h
      · rename_i hh
        obtain ⟨vs', h1, rfl⟩ := Option.map_eq_some_iff.1 h
        exact ⟨vs', (a3 vs').2 ⟨hh.1, h1⟩, (hcr vs').2 ⟨hh.2, rfl⟩⟩
      · cases h
  · cases hg : goCases cs closed decs p 0 (o.ord p (lastWins ms)) vs with
    | ok vs' => simp only [GoRes.bind, checkRequired]; split <;> rfl
    | err m => rfl
    | panic m => rw [hg] at a1; cases a1
  · intro vs' h1 h2
    exact a2 vs' ((a3 vs').2 ⟨h1, h2⟩)

/-! ### Reflective decoding -/

theorem lookup_zipIdx (fs : List FieldInfo) (k : Text) (n : Nat) :
    ((fs.zipIdx n).map fun f => (f.1.json, f.2)).lookup k = (fs.findIdx? (fun f => f.json == k)).map (· + n) := by
  induction fs generalizing n with
  | nil => rfl
  | cons f fs ih =>
    simp only [List.zipIdx_cons, List.map_cons, List.lookup_cons, List.findIdx?_cons]
    by_cases h : f.json = k
    · simp [h]
    · have h' : ¬ k = f.json := fun e => h e.symm
      simp only [beq_eq_false_iff_ne.2 h', beq_eq_false_iff_ne.2 h, Bool.false_eq_true, if_false]
      rw [ih]
      simp only [Option.map_map]
      congr 1
      funext i
      simp only [Function.comp]; omega

theorem find_zipIdx (fs : List FieldInfo) (p : Text → Bool) (n : Nat) :
    (((fs.zipIdx n).map fun f => (f.1.json, f.2)).find? (fun f => p f.1)).map Prod.snd =
      (fs.findIdx? (fun f => p f.json)).map (· + n) := by
  induction fs generalizing n with
  | nil => rfl
  | cons f fs ih =>
    simp only [List.zipIdx_cons, List.map_cons, List.find?_cons, List.findIdx?_cons]
    cases h : p f.json with
    | true => simp
    | false =>
      simp only [Bool.false_eq_true, if_false]
      rw [ih]
      simp only [Option.map_map]
      congr 1
      funext i
      simp only [Function.comp]; omega

theorem lookupFold_eq (fs : List FieldInfo) (k : Text) :
    lookupFold (fs.zipIdx.map fun f => (f.1.json, f.2)) k = fieldOf fs k := by
  unfold lookupFold fieldOf
  rw [lookup_zipIdx]
  have : (fun f : Text × Nat => f.1.map foldChar == k.map foldChar) = fun f => (fun s => foldName s == foldName k) f.1 := rfl
  rw [this, find_zipIdx fs (fun s => foldName s == foldName k)]
  cases fs.findIdx? (fun f => f.json == k) <;> simp

theorem fieldOf_lt {fs : List FieldInfo} {k : Text} {i : Nat} (h : fieldOf fs k = some i) : i < fs.length := by
  unfold fieldOf at h
  split at h
  · rename_i j hj
    cases h
    obtain ⟨hlt, _⟩ := List.findIdx?_eq_some_iff_getElem.1 hj
    exact hlt
  · obtain ⟨hlt, _⟩ := List.findIdx?_eq_some_iff_getElem.1 h
    exact hlt

theorem reflect_dec_ok {fs : List FieldInfo} {ts : List Ty} {decs : List FieldDec} {rs : List Reader}
    (hd : ∀ (i : Nat), i < fs.length → ∃ t d r, ts[i]? = some t ∧ decs[i]? = some d ∧ rs[i]? = some r ∧
      ∀ p j old, HasTy t old → Agree (d p j old) (r j old) ∧ ∀ v, r j old = some v → HasTy t v)
    (p : List Nat) (ms : List (Text × JVal)) (n : Nat) {vs : List Val} (hv : HasTys ts vs) :
    Agree (goReflect (fs.zipIdx.map fun f => (f.1.json, f.2)) decs p n ms vs) (readLenient fs rs ms vs) ∧
    ∀ vs', readLenient fs rs ms vs = some vs' → HasTys ts vs' := by
  induction ms generalizing n vs with
  | nil => exact ⟨rfl, fun vs' h => by cases h; exact hv⟩
  | cons m ms ih =>
    obtain ⟨k, j⟩ := m
    simp only [goReflect, readLenient, lookupFold_eq]
    cases hk : fieldOf fs k with
    | none => exact ih (n + 1) hv
    | some i =>
      simp only []
      obtain ⟨t, d, r, ht, hdi, hri, hag⟩ := hd i (fieldOf_lt hk)
      obtain ⟨v, hvi, hvt⟩ := hasTys_get hv ht
      obtain ⟨h1, h2⟩ := hag (n :: p) j v hvt
      rw [getD_some hdi, getD_some hvi, hri, hvi]
      simp only []
      cases hr : r j v with
      | none =>
        rw [hr] at h1
        refine ⟨?_, by simp⟩
        revert h1
        generalize d (n :: p) j v = x
        cases x <;> simp [Agree]
      | some v' =>
        rw [(h1.ok_iff v').2 hr]
        exact ih (n + 1) (hasTys_set hv ht (h2 v' hr))

/-! ### All types -/

theorem readers_length (ts : List Ty) (fs : List FieldInfo) (props : List (Text × Schema)) (h : fs.length = ts.length) :
    (readers ts fs props).length = fs.length := by
  induction ts generalizing fs with
  | nil => cases fs <;> simp_all [readers]
  | cons t ts ih =>
    cases fs with
    | nil => simp at h
    | cons f fs => simp [readers]; exact ih fs (by simpa using h)

theorem elems_ok {f : Nat → JVal → GoRes Val} {g : JVal → Option Val} {P : Val → Prop}
    (h : ∀ n j, Agree (f n j) (g j) ∧ ∀ v, g j = some v → P v) (n : Nat) (js : List JVal) :
    Agree (decElems f n js) (allSome (js.map g)) ∧ ∀ vs, allSome (js.map g) = some vs → ∀ v ∈ vs, P v := by
  induction js generalizing n with
  | nil => exact ⟨rfl, fun vs h => by cases h; simp⟩
  | cons j js ih =>
    obtain ⟨h1, h2⟩ := h n j
    obtain ⟨i1, i2⟩ := ih (n + 1)
    simp only [decElems, List.map_cons]
    cases hg : g j with
    | none =>
      rw [hg] at h1
      refine ⟨?_, by simp [allSome]⟩
      revert h1
      generalize f n j = x
      cases x <;> simp [Agree, allSome]
    | some v =>
      rw [(h1.ok_iff v).2 hg]
      simp only [GoRes.bind, allSome]
      refine ⟨i1.map (v :: ·), ?_⟩
      intro vs hvs
      obtain ⟨vs', hvs', rfl⟩ := Option.map_eq_some_iff.1 hvs
      intro w hw
      rcases List.mem_cons.1 hw with rfl | hw
      · exact h2 _ hg
      · exact i2 vs' hvs' w hw

mutual
theorem unmarshal_read (o : Order) (t : Ty) (sch : Schema) (ht : okDec t sch = true) (p : List Nat) (j : JVal) (old : Val)
    (hv : HasTy t old) : Agree (unmarshal o t p j old) (read t sch j old) ∧ ∀ v, read t sch j old = some v → HasTy t v := by
  match t with
  | .str => cases j <;> simp [unmarshal, read, Agree, hv, HasTy]
  | .bool => cases j <;> simp [unmarshal, read, Agree, hv, HasTy]
  | .int b =>
    cases j with
    | num l =>
      simp only [unmarshal, read]
      split
      · rename_i h
        exact ⟨rfl, fun v hv => by cases hv; exact h.2⟩
      · exact ⟨True.intro, by simp⟩
    | _ => simp [unmarshal, read, Agree, hv]
  | .float =>
    cases j with
    | num l =>
      simp only [unmarshal, read]
      cases h : fl64 l.value with
      | none => exact ⟨True.intro, by simp⟩
      | some q => exact ⟨rfl, fun v hv => by cases hv; exact fl64_isF64 h⟩
    | _ => simp [unmarshal, read, Agree, hv]
  | .time =>
    cases j with
    | str s =>
      simp only [unmarshal, read]
      cases h : GoTime.parseTime s with
      | none => exact ⟨True.intro, by simp⟩
      | some q => exact ⟨rfl, fun v hv => by cases hv; exact parseTime_nano h⟩
    | _ => simp [unmarshal, read, Agree, hv]
  | .ptr t =>
    simp only [okDec] at ht
    have fin : ∀ v0, HasTy t v0 → Agree ((unmarshal o t p j v0).bind fun v => .ok (Val.ptr v)) ((read t sch j v0).map Val.ptr) ∧
        ∀ v, ((read t sch j v0).map Val.ptr) = some v → HasTy (.ptr t) v := by
      intro v0 h0
      have ih := unmarshal_read o t sch ht p j v0 h0
      refine ⟨ih.1.map Val.ptr, ?_⟩
      intro v hv
      obtain ⟨w, hw, rfl⟩ := Option.map_eq_some_iff.1 hv
      exact ih.2 w hw
    have hz := hasTy_zero t
    cases j with
    | null => simp [unmarshal, read, Agree, HasTy]
    | _ =>
      simp only [unmarshal, read]
      cases old with
      | ptr v => exact fin v hv
      | _ => exact fin _ hz
  | .slice t =>
    cases sch with
    | arr items =>
      simp only [okDec] at ht
      cases j with
      | null => simp [unmarshal, read, Agree, HasTy]
      | arr js =>
        simp only [unmarshal, read]
        have ih : ∀ n j, Agree (unmarshal o t (n :: p) j (zeroVal t)) (read t items j (zeroVal t)) ∧
            ∀ v, read t items j (zeroVal t) = some v → HasTy t v :=
          fun n j => unmarshal_read o t items ht (n :: p) j _ (hasTy_zero t)
        have := elems_ok (f := fun n j => unmarshal o t (n :: p) j (zeroVal t)) (g := fun j => read t items j (zeroVal t))
          (P := HasTy t) ih 0 js
        refine ⟨this.1.map Val.slice, ?_⟩
        intro v hv
        obtain ⟨w, hw, rfl⟩ := Option.map_eq_some_iff.1 hv
        exact this.2 w hw
      | _ => simp [unmarshal, read, Agree]
    | _ => simp [okDec] at ht
  | .struct info ts =>
    cases sch with
    | obj props required closed =>
      simp only [okDec, Bool.and_eq_true, beq_iff_eq, decide_eq_true_eq] at ht
      obtain ⟨⟨⟨hl, _⟩, hdec⟩, hdecs⟩ := ht
      have ih := unmarshal_reads o ts info.fields props (reflective info) hdecs
      obtain ⟨vs, rfl⟩ : ∃ vs, old = .struct vs := by
        cases old <;> simp [HasTy] at hv
        exact ⟨_, rfl⟩
      have hvs : HasTys ts vs := hv
      simp only [unmarshal, read, readStruct, decStruct]
      unfold decOk at hdec
      cases hd : info.dec with
      | cases cs strict req =>
        rw [hd] at hdec
        simp only [Bool.and_eq_true, Bool.not_eq_true', beq_iff_eq] at hdec
        obtain ⟨⟨⟨⟨⟨⟨hre, hst⟩, hr1⟩, hr2⟩, c1⟩, c2⟩, c3⟩ := hdec
        subst hst
        have hc := casesFacts c1 c2 c3
        have hreq : ∀ k, k ∈ req ↔ k ∈ required :=
          fun k => ⟨fun h => all_contains.1 hr1 k h, fun h => all_contains.1 hr2 k h⟩
        have hdo : DecsOk cs ts (unmarshalAll o ts) (readers ts info.fields props) := by
          intro k i hk
          obtain ⟨f, hf, rfl, hpf⟩ := (hc.iff _ _).1 hk
          have hi : i < info.fields.length := (List.getElem?_eq_some_iff.1 hf).1
          obtain ⟨t, ht⟩ : ∃ t, ts[i]? = some t := ⟨_, List.getElem?_eq_getElem (by omega)⟩
          obtain ⟨d, r, q1, q2, q3⟩ := ih i t f ht hf (Or.inr hpf)
          exact ⟨t, d, r, ht, q1, q2, q3⟩
        cases j with
        | obj ms =>
          simp only [hre, Bool.false_eq_true, if_false, fieldsOf, Val.fields]
          obtain ⟨a1, a2⟩ := cases_ok o hc (closed := strict) hreq hl (readers_length _ _ _ hl) hdo p ms hvs
          refine ⟨a1, ?_⟩
          intro v hv
          split at hv
          · rename_i hh
            obtain ⟨w, hw, rfl⟩ := Option.map_eq_some_iff.1 hv
            exact a2 w hh.1 hw
          · cases hv
        | null =>
          simp only [hre, Bool.false_eq_true, false_or, checkRequired, fieldsOf]
          have : required = [] ↔ req = [] := by
            rw [List.eq_nil_iff_forall_not_mem, List.eq_nil_iff_forall_not_mem]
            exact forall_congr' fun k => not_congr (hreq k).symm
          by_cases hq : req = []
          · rw [if_pos (this.2 hq), if_pos (by simp [hq])]
            exact ⟨rfl, fun v hv => by cases hv; exact hvs⟩
          · rw [if_neg (fun h => hq (this.1 h)), if_neg]
            · exact ⟨True.intro, by simp⟩
            · rw [all_contains]
              intro h
              exact hq (List.eq_nil_iff_forall_not_mem.2 fun k hk => by simpa using h k hk)
        | _ => exact ⟨True.intro, by simp⟩
      | reflect fs =>
        rw [hd] at hdec
        simp only [Bool.and_eq_true, decide_eq_true_eq] at hdec
        obtain ⟨hre, rfl⟩ := hdec
        have hdo : ∀ (i : Nat), i < info.fields.length → ∃ t d r, ts[i]? = some t ∧ (unmarshalAll o ts)[i]? = some d ∧
            (readers ts info.fields props)[i]? = some r ∧
            ∀ p j old, HasTy t old → Agree (d p j old) (r j old) ∧ ∀ v, r j old = some v → HasTy t v := by
          intro i hi
          obtain ⟨f, hf⟩ : ∃ f, info.fields[i]? = some f := ⟨_, List.getElem?_eq_getElem hi⟩
          obtain ⟨t, ht⟩ : ∃ t, ts[i]? = some t := ⟨_, List.getElem?_eq_getElem (by omega)⟩
          obtain ⟨d, r, q1, q2, q3⟩ := ih i t f ht hf (Or.inl hre)
          exact ⟨t, d, r, ht, q1, q2, q3⟩
        cases j with
        | obj ms =>
          simp only [hre, if_true, fieldsOf, Val.fields]
          obtain ⟨a1, a2⟩ := reflect_dec_ok hdo p ms 0 hvs
          refine ⟨a1.map Val.struct, ?_⟩
          intro v hv
          obtain ⟨w, hw, rfl⟩ := Option.map_eq_some_iff.1 hv
          exact a2 w hw
        | null => simp only [hre, true_or, if_true]; exact ⟨rfl, fun v hv => by cases hv; exact hvs⟩
        | _ => exact ⟨True.intro, by simp⟩
    | _ => simp [okDec] at ht
  termination_by structural t
theorem unmarshal_reads (o : Order) (ts : List Ty) (fs : List FieldInfo) (props : List (Text × Schema)) (all : Bool)
    (h : okDecs ts fs props all = true) :
    ∀ (i : Nat) t f, ts[i]? = some t → fs[i]? = some f → (all = true ∨ f.json ∈ props.map Prod.fst) →
      ∃ d r, (unmarshalAll o ts)[i]? = some d ∧ (readers ts fs props)[i]? = some r ∧
        ∀ p j old, HasTy t old → Agree (d p j old) (r j old) ∧ ∀ v, r j old = some v → HasTy t v := by
  intro i t f ht hf hp
  match ts with
  | [] => simp at ht
  | t' :: ts =>
    cases fs with
    | nil => simp at hf
    | cons f' fs =>
      simp only [okDecs, Bool.and_eq_true] at h
      cases i with
      | zero =>
        simp only [List.getElem?_cons_zero, Option.some.injEq] at ht hf
        subst hf
        have hok : okDec t' ((props.lookup f'.json).getD .str) = true := by
          have h1 := h.1
          rw [Bool.or_eq_true] at h1
          rcases h1 with h1 | h1
          · exfalso
            rw [Bool.not_eq_true', Bool.or_eq_false_iff] at h1
            rcases hp with hp | hp
            · rw [hp] at h1; exact absurd h1.1 (by simp)
            · rw [List.contains_iff_mem.2 hp] at h1; exact absurd h1.2 (by simp)
          · exact h1
        refine ⟨_, _, rfl, rfl, ?_⟩
        intro p j old hv
        subst ht
        exact unmarshal_read o t' _ hok p j old hv
      | succ i =>
        obtain ⟨d, r, q1, q2, q3⟩ := unmarshal_reads o ts fs props all h.2 i t f (by simpa using ht) (by simpa using hf) hp
        exact ⟨d, r, by simpa [unmarshalAll] using q1, by simpa [readers] using q2, q3⟩
  termination_by structural ts
end

/-! ### Every message type passes the check -/

set_option maxRecDepth 8000 in
theorem okDec_req : ∀ r : ReqType, okDec r.ty r.schema = true := by
  intro r; cases r <;> decide

set_option maxRecDepth 8000 in
theorem okDec_resp : ∀ r : RespType, okDec r.ty r.schema = true := by
  intro r; cases r <;> decide

theorem okDec_msg (m : MsgType) : okDec m.ty m.schema = true := by
  cases m with
  | req r => exact okDec_req r
  | resp r => exact okDec_resp r

end Decode
end Verif
