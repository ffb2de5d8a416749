import Verif.Lemmas.Trip
set_option linter.unusedSimpArgs false
set_option linter.unnecessarySeqFocus false
/-!
# Properties of JSON decoding (C02 to C07)
-/
namespace Verif
open Json Codec Encode Decode Trip

/-- The two requests without generated decoder. -/
def MsgType.lenient (m : MsgType) : Bool :=
  m == .req .csreqRemoteStartTransaction || m == .req .csreqRemoteStopTransaction

theorem msg_struct (m : MsgType) : ∃ info ts props required, m.ty = .struct info ts ∧ m.schema = .obj props required true ∧
    reflective info = m.lenient := by
  cases m with
  | req r => cases r <;> exact ⟨_, _, _, _, rfl, rfl, rfl⟩
  | resp r => cases r <;> exact ⟨_, _, _, _, rfl, rfl, rfl⟩

/-! ### C04 -/

/-- C04.  Decoding succeeds with a message exactly if the text is JSON for a value from which the
message's schema and tags let that message be read (`MsgType.read`); otherwise it fails with an error.
It never panics, and what it yields is a value of the message's type. -/
theorem C04_decode (o : Order) (m : MsgType) (text : Text) :
    (∀ v, decode o m.ty text = .ok v ↔ ∃ j, JsonText j text ∧ m.read j = some v) ∧
    (decode o m.ty text).isPanic = false ∧
    (∀ v, decode o m.ty text = .ok v → HasTy m.ty v) := by
  unfold decode
  cases hp : parse text with
  | none =>
    refine ⟨fun v => ?_, rfl, by simp⟩
    simp only [reduceCtorEq, false_iff]
    rintro ⟨j, hj, _⟩
    rw [← parse_iff, hp] at hj; cases hj
  | some j =>
    simp only []
    obtain ⟨h1, h2⟩ := unmarshal_read o m.ty m.schema (okDec_msg m) [] j _ (hasTy_zero m.ty)
    refine ⟨fun v => ?_, ?_, fun v hv => h2 v ((h1.ok_iff v).1 hv)⟩
    · rw [h1.ok_iff v]
      constructor
      · intro h; exact ⟨j, (parse_iff _ _).1 hp, h⟩
      · rintro ⟨j', hj', h⟩
        rw [← parse_iff, hp] at hj'
        cases hj'; exact h
    · revert h1
      generalize unmarshal o m.ty [] j (zeroVal m.ty) = x
      generalize Verif.read m.ty m.schema j (zeroVal m.ty) = y
      cases x <;> cases y <;> simp [Agree]

theorem JsonText_unique {j j' : JVal} {text : Text} (h : JsonText j text) (h' : JsonText j' text) : j = j' := by
  rw [← parse_iff] at h h'
  rw [h] at h'; simpa using h'

theorem decode_iff {o : Order} {m : MsgType} {text : Text} {j : JVal} (hj : JsonText j text) (v : Val) :
    decode o m.ty text = .ok v ↔ m.read j = some v := by
  rw [(C04_decode o m text).1 v]
  constructor
  · rintro ⟨j', hj', h⟩; rw [JsonText_unique hj hj']; exact h
  · exact fun h => ⟨j, hj, h⟩

theorem read_obj {m : MsgType} (hm : m.lenient = false) {info : StructInfo} {ts : List Ty} {props : List (Text × Schema)}
    {required : List Text} {closed : Bool} (ht : m.ty = .struct info ts) (hs : m.schema = .obj props required closed) {ms : List (Text × JVal)}
    {v : Val} : m.read (.obj ms) = some v ↔ (∀ e ∈ ms, e.1 ∈ props.map Prod.fst) ∧ (∀ k ∈ required, k ∈ ms.map Prod.fst) ∧
      ∃ vs, v = .struct vs ∧ readFields props ms info.fields (readers ts info.fields props) (zeroVals ts) = some vs := by
  obtain ⟨info', ts', props', required', ht', hs', hr⟩ := msg_struct m
  rw [ht] at ht'; cases ht'
  rw [hs] at hs'; cases hs'
  unfold MsgType.read
  rw [ht, hs]
  simp only [read, readStruct, hr, hm, Bool.false_eq_true, if_false, zeroVal, Val.fields]
  have hc : ((True → ∀ m ∈ ms, (props.map Prod.fst).contains m.1 = true) ∧
      (∀ k ∈ required, (ms.map Prod.fst).contains k = true)) ↔
      (∀ e ∈ ms, e.1 ∈ props.map Prod.fst) ∧ (∀ k ∈ required, k ∈ ms.map Prod.fst) := by
    simp only [List.contains_iff_mem, true_imp_iff]
  rw [← and_assoc, ← hc]
  split
  · rename_i h
    rw [Option.map_eq_some_iff]
    constructor
    · rintro ⟨vs, h1, rfl⟩
      exact ⟨h, vs, rfl, h1⟩
    · rintro ⟨_, vs, rfl, h1⟩
      exact ⟨vs, h1, rfl⟩
  · rename_i h
    constructor
    · intro h'; cases h'
    · exact fun h' => absurd h'.1 h

theorem read_notObj {m : MsgType} {j : JVal} {v : Val} (h : m.read j = some v) :
    (∃ ms, j = .obj ms) ∨ j = .null := by
  obtain ⟨info, ts, props, required, ht, hs, hr⟩ := msg_struct m
  unfold MsgType.read at h
  rw [ht, hs] at h
  simp only [read] at h
  cases j <;> simp [readStruct, hr] at h ⊢

/-- C04, the accepted objects: for every message type except the two of C06, a JSON text that decodes is
an object (or `null`, if nothing is required) that has every required property of the message's schema and
no property that the schema does not list. -/
theorem C04_closed (o : Order) (m : MsgType) (hm : m.lenient = false) (text : Text) (v : Val)
    (h : decode o m.ty text = .ok v) (props : List (Text × Schema)) (required : List Text) (closed : Bool)
    (hs : m.schema = .obj props required closed) :
    (∃ ms, JsonText (.obj ms) text ∧ (∀ k ∈ required, k ∈ ms.map Prod.fst) ∧ (∀ k ∈ ms.map Prod.fst, k ∈ props.map Prod.fst)) ∨
    (JsonText .null text ∧ required = []) := by
  obtain ⟨j, hj, hr⟩ := ((C04_decode o m text).1 v).1 h
  obtain ⟨info, ts, props', required', ht, hs', hre⟩ := msg_struct m
  rcases read_notObj hr with ⟨ms, rfl⟩ | rfl
  · obtain ⟨h1, h2, _⟩ := (read_obj hm ht hs).1 hr
    refine Or.inl ⟨ms, hj, h2, ?_⟩
    intro k hk
    obtain ⟨e, he, rfl⟩ := List.mem_map.1 hk
    exact h1 e he
  · refine Or.inr ⟨hj, ?_⟩
    unfold MsgType.read at hr
    rw [ht, hs] at hr
    simp only [read, readStruct, hre, hm] at hr
    by_contra hc
    simp [hc] at hr

theorem field_in_props {m : MsgType} (hm : m.lenient = false) {info : StructInfo} {ts : List Ty} {props : List (Text × Schema)}
    {required : List Text} {closed : Bool} (ht : m.ty = .struct info ts) (hs : m.schema = .obj props required closed)
    {f : FieldInfo} (hf : f ∈ info.fields) : f.json ∈ props.map Prod.fst := by
  obtain ⟨info', ts', props', required', ht', hs', hr⟩ := msg_struct m
  rw [ht] at ht'; cases ht'
  rw [hs] at hs'; cases hs'
  have := okTrip_msg m
  rw [ht, hs] at this
  simp only [okTrip, structOk, hr, hm, Bool.false_eq_true, if_false, Bool.and_eq_true, Bool.not_true, Bool.false_or,
    List.all_eq_true] at this
  exact List.contains_iff_mem.1 (this.1.1 f hf)

theorem lastVal_last {post : List (Text × JVal)} {k : Text} (pre : List (Text × JVal)) (j : JVal) (h : k ∉ post.map Prod.fst) :
    lastVal (pre ++ (k, j) :: post) k = some j := by
  induction pre with
  | nil => simp [lastVal, lastVal_none.2 h]
  | cons e pre ih => simp [lastVal, ih]

/-- C04, the fields: a property of the object is decoded, on its own, into its own field (the last one, if
the name occurs several times), and a field whose property is absent has its zero value. -/
theorem C04_field (o : Order) (m : MsgType) (hm : m.lenient = false) (text : Text) (ms : List (Text × JVal)) (v : Val)
    (hj : JsonText (.obj ms) text) (h : decode o m.ty text = .ok v) (info : StructInfo) (ts : List Ty) (ht : m.ty = .struct info ts)
    (i : Nat) (f : FieldInfo) (t : Ty) (hf : info.fields[i]? = some f) (hti : ts[i]? = some t) :
    ∃ vs x, v = .struct vs ∧ vs[i]? = some x ∧
      (∀ pre j post, ms = pre ++ (f.json, j) :: post → f.json ∉ post.map Prod.fst → unmarshal o t [] j (zeroVal t) = .ok x) ∧
      (f.json ∉ ms.map Prod.fst → x = zeroVal t) := by
  obtain ⟨info', ts', props, required, ht', hs, hre⟩ := msg_struct m
  rw [ht] at ht'; cases ht'
  obtain ⟨_, _, vs, rfl, hrf⟩ := (read_obj hm ht hs).1 ((decode_iff hj v).1 h)
  have hok := okDec_msg m
  rw [ht, hs] at hok
  obtain ⟨_, hl⟩ := fields_nodup hok
  rw [readFields_iff (readers_length _ _ _ hl) (by rw [zeroVals_length, hl])] at hrf
  obtain ⟨x, hx, hpk⟩ := hrf.2 i f _ _ hf (readers_get hti hf) (zeroVals_get hti)
  have hpf := List.contains_iff_mem.2 (field_in_props hm ht hs (List.mem_of_getElem? hf))
  rw [if_pos hpf] at hpk
  refine ⟨vs, x, rfl, hx, ?_, ?_⟩
  · rintro pre j post rfl hnp
    have hlast := lastVal_last pre j hnp
    rw [hlast] at hpk
    simp only [okDec, Bool.and_eq_true] at hok
    have hokt := okDecs_get hok.2 hti hf (by simp only [hpf, Bool.or_true])
    exact ((unmarshal_read o t _ hokt [] j _ (hasTy_zero t)).1.ok_iff x).2 hpk
  · intro hn
    rw [lastVal_none.2 hn] at hpk
    exact hpk

/-! ### C03 -/

/-- C03.  Whatever orders Go's map iterations take in two runs, decoding the same text succeeds in both with
the same message or fails in both with an error. -/
theorem C03_order (o o' : Order) (m : MsgType) (text : Text) :
    (∃ v, decode o m.ty text = .ok v ∧ decode o' m.ty text = .ok v) ∨
    (∃ e e', decode o m.ty text = .err e ∧ decode o' m.ty text = .err e') := by
  have h1 := C04_decode o m text
  have h2 := C04_decode o' m text
  cases hd : decode o m.ty text with
  | ok v => exact Or.inl ⟨v, rfl, (h2.1 v).2 ((h1.1 v).1 hd)⟩
  | panic e => have := h1.2.1; rw [hd] at this; cases this
  | err e =>
    cases hd' : decode o' m.ty text with
    | ok v => have := (h1.1 v).2 ((h2.1 v).1 hd'); rw [hd] at this; cases this
    | panic e => have := h2.2.1; rw [hd'] at this; cases this
    | err e' => exact Or.inr ⟨e, e', rfl, rfl⟩

/-! ### C05 -/

/-- The object with the value of a property replaced by `null`. -/
def setNull (k : Text) (ms : List (Text × JVal)) : List (Text × JVal) :=
  ms.map fun e => if e.1 = k then (k, .null) else e

theorem setNull_keys (k : Text) (ms : List (Text × JVal)) : (setNull k ms).map Prod.fst = ms.map Prod.fst := by
  induction ms with
  | nil => rfl
  | cons e ms ih =>
    simp only [setNull, List.map_cons] at ih ⊢
    rw [ih]
    split
    · rename_i h; rw [h]
    · rfl

theorem lastVal_setNull (k k' : Text) (ms : List (Text × JVal)) :
    lastVal (setNull k ms) k' = if k' = k then (lastVal ms k').map (fun _ => .null) else lastVal ms k' := by
  induction ms with
  | nil => simp [setNull, lastVal]
  | cons e ms ih =>
    obtain ⟨a, b⟩ := e
    have hh : setNull k ((a, b) :: ms) = (if a = k then (k, JVal.null) else (a, b)) :: setNull k ms := rfl
    rw [hh]
    by_cases ha : a = k <;> by_cases hk : k' = k <;> simp only [ha, hk, if_true, if_false, lastVal] at ih ⊢
    · rw [ih]
      cases lastVal ms k <;> simp
    · rw [ih]
      have : ¬ k = k' := fun e => hk e.symm
      cases lastVal ms k' <;> simp [this]
    · rw [ih]
      cases lastVal ms k <;> simp [ha]
    · rw [ih]

/-- Not a struct by value. -/
def notStruct : Ty → Bool
  | .struct _ _ => false
  | _ => true

theorem notStruct_msg (m : MsgType) {info : StructInfo} {ts : List Ty} (h : m.ty = .struct info ts) : ts.all notStruct = true := by
  have : (match m.ty with | .struct _ ts => ts.all notStruct | _ => true) = true := by
    cases m with
    | req r => cases r <;> rfl
    | resp r => cases r <;> rfl
  rw [h] at this
  exact this

theorem read_null {t : Ty} (h : notStruct t = true) (sch : Schema) : read t sch .null (zeroVal t) = some (zeroVal t) := by
  cases t <;> simp [notStruct] at h <;> rfl

/-- C05.  If an object decodes to a message, then it also decodes with any property (a required one
included) given as `null`; that field then has its zero value, the others are unchanged. -/
theorem C05_null (o : Order) (m : MsgType) (hm : m.lenient = false) (ms : List (Text × JVal)) (vs : List Val) (text text' : Text)
    (hj : JsonText (.obj ms) text) (h : decode o m.ty text = .ok (.struct vs))
    (info : StructInfo) (ts : List Ty) (ht : m.ty = .struct info ts)
    (i : Nat) (f : FieldInfo) (t : Ty) (hf : info.fields[i]? = some f) (hti : ts[i]? = some t)
    (hj' : JsonText (.obj (setNull f.json ms)) text') :
    decode o m.ty text' = .ok (.struct (vs.set i (zeroVal t))) := by
  obtain ⟨info', ts', props, required, ht', hs, hre⟩ := msg_struct m
  rw [ht] at ht'; cases ht'
  rw [decode_iff hj', read_obj hm ht hs]
  obtain ⟨h1, h2, vs', hvs, hrf⟩ := (read_obj hm ht hs).1 ((decode_iff hj _).1 h)
  cases hvs
  have hok := okDec_msg m
  rw [ht, hs] at hok
  obtain ⟨hnd, hl⟩ := fields_nodup hok
  refine ⟨?_, ?_, _, rfl, ?_⟩
  · intro e he
    have : e.1 ∈ ms.map Prod.fst := by rw [← setNull_keys f.json ms]; exact List.mem_map_of_mem he
    obtain ⟨e', he', h'⟩ := List.mem_map.1 this
    rw [← h']; exact h1 e' he'
  · rw [setNull_keys]; exact h2
  · have hz : (zeroVals ts).length = info.fields.length := by rw [zeroVals_length, hl]
    rw [readFields_iff (readers_length _ _ _ hl) hz] at hrf ⊢
    refine ⟨by simpa using hrf.1, ?_⟩
    intro i' f' r z hf' hr hz'
    obtain ⟨v', hv', hpk⟩ := hrf.2 i' f' r z hf' hr hz'
    have hpf := List.contains_iff_mem.2 (field_in_props hm ht hs (List.mem_of_getElem? hf'))
    rw [if_pos hpf] at hpk ⊢
    rw [lastVal_setNull]
    by_cases e : i = i'
    · subst e
      rw [hf] at hf'; cases hf'
      rw [readers_get hti hf] at hr; cases hr
      rw [zeroVals_get hti] at hz'; cases hz'
      refine ⟨zeroVal t, ?_, ?_⟩
      · rw [List.getElem?_set_self]
        exact (List.getElem?_eq_some_iff.1 hv').1
      · rw [if_pos rfl]
        cases lastVal ms f.json with
        | none => rfl
        | some j => exact read_null (List.all_eq_true.1 (notStruct_msg m ht) t (List.mem_of_getElem? hti)) _
    · refine ⟨v', by rw [List.getElem?_set_ne e]; exact hv', ?_⟩
      have hne : f'.json ≠ f.json := by
        intro he
        have a := fieldOf_self hnd hf'
        have b := fieldOf_self hnd hf
        rw [he, b] at a
        exact e (by simpa using a)
      rw [if_neg hne]
      exact hpk

/-- C05, in the extreme: the object whose only properties are the required ones, all `null`, decodes to the
message whose fields all have their zero values. -/
theorem C05_allNull (o : Order) (m : MsgType) (hm : m.lenient = false) (props : List (Text × Schema)) (required : List Text)
    (closed : Bool) (hs : m.schema = .obj props required closed) (text : Text)
    (hj : JsonText (.obj (required.map fun k => (k, .null))) text) : decode o m.ty text = .ok (zeroVal m.ty) := by
  obtain ⟨info, ts, props', required', ht, hs', hre⟩ := msg_struct m
  rw [hs] at hs'; cases hs'
  have hok := okDec_msg m
  rw [ht, hs] at hok
  obtain ⟨hnd, hl⟩ := fields_nodup hok
  have hkeys : ((required.map fun k => (k, JVal.null))).map Prod.fst = required := by
    rw [List.map_map]; exact List.map_id' _
  have hreq : ∀ k ∈ required, k ∈ props.map Prod.fst := by
    -- every required name is a field's name, and those are properties
    have := okTrip_msg m
    rw [ht, hs] at this
    simp only [okTrip, structOk, hre, hm, Bool.false_eq_true, if_false, Bool.and_eq_true, List.all_eq_true,
      List.any_eq_true, beq_iff_eq] at this
    intro k hk
    obtain ⟨⟨f, t⟩, hft, rfl, _⟩ := this.1.2 k hk
    exact field_in_props hm ht hs (List.of_mem_zip hft).1
  rw [decode_iff hj, read_obj hm ht hs]
  refine ⟨?_, ?_, zeroVals ts, by rw [ht]; rfl, ?_⟩
  · intro e he
    obtain ⟨k, hk, rfl⟩ := List.mem_map.1 he
    exact hreq k hk
  · rw [hkeys]; exact fun k hk => hk
  · rw [readFields_iff (readers_length _ _ _ hl) (by rw [zeroVals_length, hl])]
    refine ⟨rfl, ?_⟩
    intro i f r z hf hr hz
    refine ⟨z, hz, ?_⟩
    have hi : i < ts.length := by have := (List.getElem?_eq_some_iff.1 hf).1; omega
    have hti : ts[i]? = some ts[i] := List.getElem?_eq_getElem hi
    rw [readers_get hti hf] at hr; cases hr
    rw [zeroVals_get hti] at hz; cases hz
    rw [if_pos (List.contains_iff_mem.2 (field_in_props hm ht hs (List.mem_of_getElem? hf)))]
    have hlv : ∀ j, lastVal (required.map fun k => (k, JVal.null)) f.json = some j → j = .null := by
      intro j h
      rw [← lastWins_mem] at h
      have : ∀ (l : List Text), ∀ e ∈ lastWins (l.map fun k => (k, JVal.null)), e.2 = JVal.null := by
        intro l
        induction l with
        | nil => simp [lastWins]
        | cons a l ih =>
          simp only [List.map_cons, lastWins]
          split
          · exact ih
          · intro e he
            rcases List.mem_cons.1 he with rfl | he
            · rfl
            · exact ih e he
      exact this _ _ h
    cases hv : lastVal (required.map fun k => (k, JVal.null)) f.json with
    | none => rfl
    | some j =>
      rw [hlv j hv]
      exact read_null (List.all_eq_true.1 (notStruct_msg m ht) _ (List.mem_of_getElem? hti)) _

/-! ### C06 -/

theorem read_lenient {m : MsgType} (hm : m.lenient = true) {info : StructInfo} {ts : List Ty} (ht : m.ty = .struct info ts) :
    ∃ rs : List Reader, ∀ ms, m.read (.obj ms) = (readLenient info.fields rs ms (zeroVals ts)).map .struct := by
  obtain ⟨info', ts', props, required, ht', hs, hre⟩ := msg_struct m
  rw [ht] at ht'; cases ht'
  refine ⟨readers ts info.fields props, fun ms => ?_⟩
  unfold MsgType.read
  rw [ht, hs]
  simp only [read, readStruct, hre, hm, if_true, zeroVal, Val.fields]

theorem decode_eq {o : Order} {m : MsgType} {text text' : Text} {j j' : JVal} (hj : JsonText j text) (hj' : JsonText j' text')
    (h : m.read j = m.read j') : (decode o m.ty text).val? = (decode o m.ty text').val? := by
  apply Option.ext
  intro v
  have e : ∀ x : GoRes Val, x.val? = some v ↔ x = .ok v := by intro x; cases x <;> simp
  rw [e, e, decode_iff hj, decode_iff hj', h]

theorem readLenient_append {fs : List FieldInfo} {rs : List Reader} (ms ms' : List (Text × JVal)) (vs : List Val) :
    readLenient fs rs (ms ++ ms') vs = (readLenient fs rs ms vs).bind (readLenient fs rs ms') := by
  induction ms generalizing vs with
  | nil => rfl
  | cons e ms ih =>
    obtain ⟨k, j⟩ := e
    simp only [List.cons_append, readLenient]
    cases fieldOf fs k with
    | none => exact ih vs
    | some i =>
      simp only []
      cases rs[i]? <;> cases vs[i]? <;> simp only [Option.bind_none]
      rename_i r v
      cases r j v <;> simp only [Option.bind_none, ih]

/-- C06, missing properties: for the two requests, the empty object (and `null`) is accepted and gives the
request whose fields all have their zero values. -/
theorem C06_missing (o : Order) (m : MsgType) (hm : m.lenient = true) (text : Text)
    (hj : JsonText (.obj []) text ∨ JsonText .null text) : decode o m.ty text = .ok (zeroVal m.ty) := by
  obtain ⟨info, ts, props, required, ht, hs, hre⟩ := msg_struct m
  rcases hj with hj | hj
  · rw [decode_iff hj]
    obtain ⟨rs, h⟩ := read_lenient hm ht
    rw [h, ht]; rfl
  · rw [decode_iff hj]
    unfold MsgType.read
    rw [ht, hs]
    simp only [read, readStruct, hre, hm, true_or, if_true]

/-- C06, unknown properties: adding, anywhere, a property whose name is no field's name (in any case
variant) does not change what is decoded, nor whether. -/
theorem C06_unknown (o : Order) (m : MsgType) (hm : m.lenient = true) (info : StructInfo) (ts : List Ty) (ht : m.ty = .struct info ts)
    (ms ms' : List (Text × JVal)) (k : Text) (j : JVal) (hk : ∀ f ∈ info.fields, foldName f.json ≠ foldName k)
    (text text' : Text) (h1 : JsonText (.obj (ms ++ ms')) text) (h2 : JsonText (.obj (ms ++ (k, j) :: ms')) text') :
    (decode o m.ty text').val? = (decode o m.ty text).val? := by
  obtain ⟨rs, h⟩ := read_lenient hm ht
  refine decode_eq h2 h1 ?_
  have hf : fieldOf info.fields k = none := by
    unfold fieldOf
    have a : info.fields.findIdx? (fun f => f.json == k) = none := by
      rw [List.findIdx?_eq_none_iff]
      intro f hf
      simp only [beq_eq_false_iff_ne]
      intro e; exact hk f hf (by rw [e])
    have b : info.fields.findIdx? (fun f => foldName f.json == foldName k) = none := by
      rw [List.findIdx?_eq_none_iff]
      intro f hf
      simp only [beq_eq_false_iff_ne]
      exact hk f hf
    rw [a, b]
  rw [h, h, readLenient_append, readLenient_append]
  congr 2
  funext vs
  simp only [readLenient, hf]

theorem lenient_names {m : MsgType} (hm : m.lenient = true) {info : StructInfo} {ts : List Ty} (ht : m.ty = .struct info ts) :
    (info.fields.map fun f => foldName f.json).Nodup := by
  simp only [MsgType.lenient, Bool.or_eq_true, beq_iff_eq] at hm
  rcases hm with rfl | rfl
  · have h : csreq.RemoteStartTransaction = .struct info ts := ht
    rw [csreq.RemoteStartTransaction] at h
    cases h; decide
  · have h : csreq.RemoteStopTransaction = .struct info ts := ht
    rw [csreq.RemoteStopTransaction] at h
    cases h; decide

/-- C06, names in any case: a property whose name differs from a field's name only in case is decoded as if
it had that name. -/
theorem C06_case (o : Order) (m : MsgType) (hm : m.lenient = true) (info : StructInfo) (ts : List Ty) (ht : m.ty = .struct info ts)
    (ms ms' : List (Text × JVal)) (f : FieldInfo) (hf : f ∈ info.fields) (k : Text) (hk : foldName k = foldName f.json) (j : JVal)
    (text text' : Text) (h1 : JsonText (.obj (ms ++ (f.json, j) :: ms')) text) (h2 : JsonText (.obj (ms ++ (k, j) :: ms')) text') :
    (decode o m.ty text').val? = (decode o m.ty text).val? := by
  obtain ⟨rs, h⟩ := read_lenient hm ht
  refine decode_eq h2 h1 ?_
  have hn := lenient_names hm ht
  obtain ⟨i, hi⟩ := List.mem_iff_getElem?.1 hf
  obtain ⟨hil, hie⟩ := List.getElem?_eq_some_iff.1 hi
  -- the only field with that name up to case is `f`
  have huniq : ∀ (i' : Nat) (h' : i' < info.fields.length), foldName (info.fields[i']).json = foldName f.json → i' = i := by
    intro i' h' e
    exact (List.Nodup.getElem_inj_iff hn (hi := by simpa using h') (hj := by simpa using hil)).1 (by simp [e, hie])
  have hof : ∀ k, foldName k = foldName f.json → fieldOf info.fields k = some i := by
    intro k hk
    unfold fieldOf
    cases ha : info.fields.findIdx? (fun f => f.json == k) with
    | some i' =>
      obtain ⟨h', hp, _⟩ := List.findIdx?_eq_some_iff_getElem.1 ha
      simp only [beq_iff_eq] at hp
      simp only [Option.some.injEq]
      exact huniq i' h' (by rw [hp, hk])
    | none =>
      simp only []
      rw [List.findIdx?_eq_some_iff_getElem]
      refine ⟨hil, by simp [hie, hk], ?_⟩
      intro i' hlt
      simp only [beq_iff_eq]
      intro e
      have := huniq i' (by omega) (by rw [e, hk])
      omega
  rw [h, h, readLenient_append, readLenient_append]
  congr 2
  funext vs
  simp only [readLenient, hof k hk, hof f.json rfl]

/-! ### C02 -/

/-- C02.  Decoding the encoding of a message, in whatever iteration order, gives back the message with its
times cut to whole seconds: for every message type but SendLocalList (see C07) and all values whose times
RFC 3339 can express. -/
theorem C02_roundTrip (F : FloatFmt) (o : Order) (m : MsgType) (hm : m ≠ .req .csreqSendLocalList) (v : Val) (hv : HasTy m.ty v)
    (hp : v.TimesAll GoTime.Plain) (text : Text) (h : marshal F m.ty v = .ok text) :
    decode o m.ty text = .ok v.cutTimes := by
  obtain ⟨ms, hj, _, hw⟩ := C01_readable F m v hv text h
  rw [decode_iff hj]
  have hc : covered m.ty m.schema = true := by
    cases m with
    | req r => exact covered_req r (fun e => hm (by rw [e]))
    | resp r => exact covered_resp r
  unfold MsgType.read
  rw [read_wire F m.ty m.schema (okDec_msg m) (okTrip_msg m) (keysOk_msg m) v hv hp _ hw, trip_cut _ _ hc v hv]

mutual
theorem cutTimes_whole (v : Val) (h : v.TimesAll fun t => t.nano = 0) : v.cutTimes = v := by
  match v with
  | .time t => simp only [Val.TimesAll] at h; simp only [Val.cutTimes, GoTime.cut]; rw [← h]
  | .ptr v => simp only [Val.TimesAll] at h; simp only [Val.cutTimes, cutTimes_whole v h]
  | .slice vs => simp only [Val.TimesAll] at h; simp only [Val.cutTimes, cutAll_whole vs h]
  | .struct vs => simp only [Val.TimesAll] at h; simp only [Val.cutTimes, cutAll_whole vs h]
  | .str _ => rfl
  | .int _ => rfl
  | .float _ => rfl
  | .bool _ => rfl
  | .nil => rfl
  termination_by structural v
theorem cutAll_whole (vs : List Val) (h : Val.TimesAlls (fun t => t.nano = 0) vs) : Val.cutAll vs = vs := by
  match vs with
  | [] => rfl
  | v :: vs =>
    simp only [Val.TimesAlls] at h
    simp only [Val.cutAll, cutTimes_whole v h.1, cutAll_whole vs h.2]
  termination_by structural vs
end

/-- C02, without any loss: if the times are whole seconds, the very same message comes back. -/
theorem C02_lossless (F : FloatFmt) (o : Order) (m : MsgType) (hm : m ≠ .req .csreqSendLocalList) (v : Val) (hv : HasTy m.ty v)
    (hp : v.TimesAll GoTime.Plain) (hn : v.TimesAll fun t => t.nano = 0) (text : Text) (h : marshal F m.ty v = .ok text) :
    decode o m.ty text = .ok v := by
  rw [C02_roundTrip F o m hm v hv hp text h, cutTimes_whole v hn]

/-! ### C07 -/

/-- An authorization list entry as it can be received: the idTagInfo is absent, or has only a status. -/
def EntryStripped (e : Val) : Prop :=
  e = .nil ∨ (∃ tag, e = .ptr (.struct [tag, .nil])) ∨
    ∃ tag status, e = .ptr (.struct [tag, .ptr (.struct [.nil, .str [], status])])

/-- What arrives of an authorization list entry. -/
def stripEntry : Val → Val
  | .ptr (.struct [tag, .ptr (.struct [_, _, status])]) => .ptr (.struct [tag, .ptr (.struct [.nil, .str [], status])])
  | e => e

/-- What arrives of an authorization list. -/
def stripList : Val → Val
  | .slice es => .slice (es.map stripEntry)
  | l => l

theorem trip_info (v : Val) (hv : HasTy csreq.IdTagInfo v) :
    ∃ x p st, v = .struct [x, .str p, .str st] ∧
      trip csreq.IdTagInfo (.obj [("status".toList, .str)] ["status".toList] false) v = .struct [.nil, .str [], .str st] := by
  rw [csreq.IdTagInfo] at hv
  cases v <;> simp only [HasTy] at hv
  rename_i vs
  rcases vs with _ | ⟨a, _ | ⟨b, _ | ⟨c, _ | _⟩⟩⟩ <;> simp only [HasTys, and_true, and_false] at hv
  obtain ⟨ha, hb, hc⟩ := hv
  cases b <;> simp only [HasTy] at hb
  cases c <;> simp only [HasTy] at hc
  exact ⟨_, _, _, rfl, rfl⟩

theorem trip_entry (e : Val) (he : HasTy (.ptr csreq.LocalAuthorizationListItems) e) :
    trip (.ptr csreq.LocalAuthorizationListItems)
      (.obj [("idTag".toList, .str), ("idTagInfo".toList, .obj [("status".toList, .str)] ["status".toList] false)] ["idTag".toList] false) e =
      stripEntry e := by
  cases e <;> simp only [HasTy] at he
  · rfl
  · rename_i v
    rw [csreq.LocalAuthorizationListItems] at he
    cases v <;> simp only [HasTy] at he
    rename_i vs
    rcases vs with _ | ⟨a, _ | ⟨b, _ | _⟩⟩ <;> simp only [HasTys, and_true, and_false] at he
    obtain ⟨ha, hb⟩ := he
    cases a <;> simp only [HasTy] at ha
    cases b <;> simp only [HasTy] at hb
    · rfl
    · rename_i info
      obtain ⟨x, p, st, rfl, _⟩ := trip_info info hb
      rfl

theorem SendLocalList_schema : (MsgType.req .csreqSendLocalList).schema =
    .obj [("listVersion".toList, .int),
      ("localAuthorizationList".toList, .arr (.obj [("idTag".toList, .str),
        ("idTagInfo".toList, .obj [("status".toList, .str)] ["status".toList] false)] ["idTag".toList] false)),
      ("updateType".toList, .str)] ["listVersion".toList, "updateType".toList] true := rfl

/-- C07.  Of a SendLocalList request that is sent, version, update type, the tags and the stati arrive; every
expiry date arrives as absent and every parent tag as the empty string. -/
theorem C07_lost (F : FloatFmt) (o : Order) (n list u : Val)
    (hv : HasTy (MsgType.req .csreqSendLocalList).ty (.struct [n, list, u]))
    (hp : (Val.struct [n, list, u]).TimesAll GoTime.Plain)
    (text : Text) (h : marshal F (MsgType.req .csreqSendLocalList).ty (.struct [n, list, u]) = .ok text) :
    decode o (MsgType.req .csreqSendLocalList).ty text = .ok (.struct [n, stripList list, u]) := by
  obtain ⟨ms, hj, _, hw⟩ := C01_readable F _ _ hv text h
  rw [decode_iff hj]
  unfold MsgType.read
  rw [read_wire F _ _ (okDec_msg _) (okTrip_msg _) (keysOk_msg _) _ hv hp _ hw]
  have hv' : HasTy csreq.SendLocalList (.struct [n, list, u]) := hv
  obtain ⟨n', b, u', he, hb⟩ := List_shape hv'
  simp only [Val.struct.injEq, List.cons.injEq, and_true] at he
  obtain ⟨rfl, rfl, rfl⟩ := he
  have key : trip (.slice (.ptr csreq.LocalAuthorizationListItems)) (.arr (.obj [("idTag".toList, .str),
        ("idTagInfo".toList, .obj [("status".toList, .str)] ["status".toList] false)] ["idTag".toList] false)) list = stripList list := by
    cases list <;> simp only [HasTy] at hb
    · rfl
    · rename_i es
      simp only [trip, stripList, Val.slice.injEq]
      exact List.map_congr_left fun e he => trip_entry e (hb e he)
  rw [← key]
  rfl

/-- The schema of idTagInfo in a SendLocalList request. -/
abbrev infoSchema : Schema := .obj [("status".toList, .str)] ["status".toList] false
/-- The schema of an entry of a SendLocalList request. -/
abbrev entrySchema : Schema := .obj [("idTag".toList, .str), ("idTagInfo".toList, infoSchema)] ["idTag".toList] false

theorem read_ptr {t : Ty} {sch : Schema} {j : JVal} {v : Val} (h : read (.ptr t) sch j .nil = some v) :
    (j = .null ∧ v = .nil) ∨ ∃ w, v = .ptr w ∧ read t sch j (zeroVal t) = some w := by
  cases j with
  | null => simp [read] at h; exact Or.inl ⟨rfl, h.symm⟩
  | _ =>
    simp only [read] at h
    obtain ⟨w, h1, rfl⟩ := Option.map_eq_some_iff.1 h
    exact Or.inr ⟨w, rfl, h1⟩

theorem read_open {info : StructInfo} (hre : reflective info = false) {ts : List Ty} {props : List (Text × Schema)} {k : Text} {ks : List Text} {j : JVal} {v : Val}
    (h : read (.struct info ts) (.obj props (k :: ks) false) j (zeroVal (.struct info ts)) = some v) :
    ∃ ms vs, v = .struct vs ∧ readFields props ms info.fields (readers ts info.fields props) (zeroVals ts) = some vs := by
  simp only [read] at h
  cases j with
  | obj ms =>
    simp only [readStruct, hre, Bool.false_eq_true, if_false] at h
    split at h
    · obtain ⟨vs, h1, h2⟩ := Option.map_eq_some_iff.1 h
      exact ⟨ms, vs, h2.symm, h1⟩
    · cases h
  | null => simp [readStruct, hre] at h
  | _ => simp [readStruct] at h

theorem read_info {j : JVal} {v : Val} (h : read csreq.IdTagInfo infoSchema j (zeroVal csreq.IdTagInfo) = some v) :
    ∃ st, v = .struct [.nil, .str [], st] := by
  rw [csreq.IdTagInfo] at h
  obtain ⟨ms, vs, rfl, h3⟩ := read_open (by decide) h
  rw [readFields_iff (by rfl) (by rfl)] at h3
  obtain ⟨hl, h⟩ := h3
  have hl : vs.length = 3 := hl
  rcases vs with _ | ⟨a, _ | ⟨b, _ | ⟨c, _ | _⟩⟩⟩ <;> simp at hl
  obtain ⟨a', ha, h0⟩ := h 0 _ _ _ rfl rfl rfl
  obtain ⟨b', hb, h1⟩ := h 1 _ _ _ rfl rfl rfl
  simp at ha hb
  subst ha hb
  exact ⟨c, by rw [show a = Val.nil from h0, show b = Val.str [] from h1]⟩

theorem read_entry {j : JVal} {e : Val} (h : read (.ptr csreq.LocalAuthorizationListItems) entrySchema j .nil = some e) :
    EntryStripped e := by
  rcases read_ptr h with ⟨_, rfl⟩ | ⟨w, rfl, h3⟩
  · exact Or.inl rfl
  rw [csreq.LocalAuthorizationListItems] at h3
  obtain ⟨ms, vs, rfl, h4⟩ := read_open (by decide) h3
  rw [readFields_iff (by rfl) (by rfl)] at h4
  obtain ⟨hl, h⟩ := h4
  have hl : vs.length = 2 := hl
  rcases vs with _ | ⟨a, _ | ⟨b, _ | _⟩⟩ <;> simp at hl
  obtain ⟨b', hb, h1⟩ := h 1 _ _ _ rfl rfl rfl
  simp at hb; subst hb
  have h1 : Picked (lastVal ms "idTagInfo".toList) (read (.ptr csreq.IdTagInfo) infoSchema) .nil b := h1
  cases hlv : lastVal ms "idTagInfo".toList with
  | none => rw [hlv] at h1; exact Or.inr (Or.inl ⟨a, by rw [show b = Val.nil from h1]⟩)
  | some j =>
    rw [hlv] at h1
    simp only [Picked] at h1
    rcases read_ptr h1 with ⟨_, rfl⟩ | ⟨w, rfl, h5⟩
    · exact Or.inr (Or.inl ⟨a, rfl⟩)
    · obtain ⟨st, rfl⟩ := read_info h5
      exact Or.inr (Or.inr ⟨a, st, rfl⟩)

theorem allSome_mem {α β : Type} {f : α → Option β} {l : List α} {bs : List β} (h : allSome (l.map f) = some bs) {b : β} (hb : b ∈ bs) :
    ∃ a, f a = some b := by
  induction l generalizing bs with
  | nil => simp [allSome] at h; subst h; simp at hb
  | cons a l ih =>
    rw [List.map_cons] at h
    cases hx : f a with
    | none => rw [hx] at h; simp [allSome] at h
    | some x =>
      rw [hx] at h
      simp only [allSome] at h
      obtain ⟨bs', h', rfl⟩ := Option.map_eq_some_iff.1 h
      rcases List.mem_cons.1 hb with rfl | hb
      · exact ⟨a, hx⟩
      · exact ih h' hb

/-- C07, on the receiving side: whatever a peer (this library or another) sends, in a SendLocalList request
that decodes no entry has an expiry date or a parent tag. -/
theorem C07_received (o : Order) (text : Text) (v : Val) (h : decode o (MsgType.req .csreqSendLocalList).ty text = .ok v) :
    ∃ n list u, v = .struct [n, list, u] ∧ (list = .nil ∨ ∃ es, list = .slice es ∧ ∀ e ∈ es, EntryStripped e) := by
  obtain ⟨j, hj, hr⟩ := ((C04_decode o _ text).1 v).1 h
  rcases read_notObj hr with ⟨ms, rfl⟩ | rfl
  swap
  · have : (MsgType.req .csreqSendLocalList).read .null = none := rfl
    rw [this] at hr; cases hr
  obtain ⟨_, _, vs, rfl, hrf⟩ := (read_obj rfl rfl rfl).1 hr
  rw [readFields_iff (by rfl) (by rfl)] at hrf
  obtain ⟨hl, hrf⟩ := hrf
  have hl : vs.length = 3 := hl
  rcases vs with _ | ⟨a, _ | ⟨b, _ | ⟨c, _ | _⟩⟩⟩ <;> simp at hl
  refine ⟨a, b, c, rfl, ?_⟩
  obtain ⟨b', hb, h1⟩ := hrf 1 _ _ _ rfl rfl rfl
  simp at hb; subst hb
  have h1 : Picked (lastVal ms "localAuthorizationList".toList)
    (read (.slice (.ptr csreq.LocalAuthorizationListItems)) (.arr entrySchema)) .nil b := h1
  cases hlv : lastVal ms "localAuthorizationList".toList with
  | none => rw [hlv] at h1; exact Or.inl h1
  | some j =>
    rw [hlv] at h1
    simp only [Picked] at h1
    cases j with
    | null => simp [read] at h1; exact Or.inl h1.symm
    | arr js =>
      right
      rw [read] at h1
      obtain ⟨es, h2, rfl⟩ := Option.map_eq_some_iff.1 h1
      refine ⟨es, rfl, fun e he => ?_⟩
      obtain ⟨j, hj⟩ := allSome_mem h2 he
      exact read_entry hj
    | _ => simp [read] at h1

/-! ### The hypotheses can be met -/

/-- A BootNotification object with a required property given as `null`. -/
example : (MsgType.req .cpreqBootNotification).read (.obj [("chargePointVendor".toList, .null), ("chargePointModel".toList, .str "M".toList)]) =
    some (.struct [.str [], .str "M".toList, .str [], .str [], .str [], .str [], .str [], .str [], .str []]) := rfl

/-- ... without one, and with an unknown property. -/
example : (MsgType.req .cpreqBootNotification).read (.obj [("chargePointModel".toList, .str "M".toList)]) = none := rfl
example : (MsgType.req .cpreqBootNotification).read (.obj [("chargePointVendor".toList, .str []), ("chargePointModel".toList, .str "M".toList),
    ("x".toList, .null)]) = none := rfl

example : (MsgType.req .cpreqBootNotification).lenient = false ∧ (MsgType.req .csreqRemoteStopTransaction).lenient = true := by decide

/-- A case variant of a property name, and an unknown one. -/
example : foldName "IDTAG".toList = foldName "idTag".toList ∧
    ∀ f ∈ csreq.RemoteStartTransaction.info.fields, foldName f.json ≠ foldName "vendor".toList := by decide

/-- A status notification at 2020-01-01T00:00:00.5Z, which can be sent and comes back without the half second. -/
def sampleStatus2 : Val :=
  .struct [.int 1, .str "NoError".toList, .str "a".toList, .str "Available".toList, .ptr (.time ⟨1577836800, 500000000, 0⟩), .str [], .str []]

example : HasTy (MsgType.req .cpreqStatusNotification).ty sampleStatus2 ∧ sampleStatus2.TimesAll GoTime.Plain := by
  refine ⟨by simp [MsgType.ty, ReqType.ty, cpreq.StatusNotification, sampleStatus2, HasTy, HasTys], ?_⟩
  simp only [sampleStatus2, Val.TimesAll, Val.TimesAlls]
  decide

example : sampleStatus2.cutTimes = .struct [.int 1, .str "NoError".toList, .str "a".toList, .str "Available".toList,
    .ptr (.time ⟨1577836800, 0, 0⟩), .str [], .str []] := rfl

end Verif
