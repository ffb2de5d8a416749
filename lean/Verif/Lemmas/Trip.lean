import Verif.Spec.Trip
import Verif.Lemmas.Decode2
import Verif.Lemmas.Time
import Verif.Props.Encode
set_option linter.unusedSimpArgs false
/-!
# Reading back what was written
-/
namespace Verif
namespace Trip
open Json Codec Encode Decode

mutual
/-- What is read back of a value: fields that the schema does not mention are lost. -/
def trip : Ty → Schema → Val → Val
  | .time, _, .time t => .time t.cut
  | .ptr t, sch, .ptr v => .ptr (trip t sch v)
  | .slice t, sch, .slice vs => .slice (vs.map (trip t (match sch with | .arr items => items | _ => .str)))
  | .struct info ts, sch, .struct vs =>
    .struct (trips ts info.fields (match sch with | .obj props _ _ => props | _ => []) (reflective info) vs)
  | _, _, v => v
def trips : List Ty → List FieldInfo → List (Text × Schema) → Bool → List Val → List Val
  | t :: ts, f :: fs, props, all, v :: vs =>
    (if all || (props.map Prod.fst).contains f.json then trip t ((props.lookup f.json).getD .str) v else zeroVal t) ::
      trips ts fs props all vs
  | _, _, _, _, _ => []
end

/-- Not a pointer or list. -/
def notNil : Ty → Bool
  | .ptr _ => false
  | .slice _ => false
  | _ => true

/-- Not a list. -/
def notSlice : Ty → Bool
  | .slice _ => false
  | _ => true

/-- What the encoder of a struct must provide for its decoder. -/
def structOk (info : StructInfo) (ts : List Ty) (props : List (Text × Schema)) (required : List Text) (closed : Bool) : Bool :=
  if reflective info then ts.all notSlice
  else (!closed || info.fields.all fun f => (props.map Prod.fst).contains f.json) &&
    required.all fun k => (info.fields.zip ts).any fun f =>
      f.1.json == k && (fieldMode info f.1 f.2 != .omitNil && fieldMode info f.1 f.2 != .omitEmpty)

mutual
/-- The check for the round trip. -/
def okTrip : Ty → Schema → Bool
  | .ptr t, sch => notNil t && okTrip t sch
  | .slice t, .arr items => okTrip t items
  | .slice _, _ => false
  | .struct info ts, .obj props required closed => structOk info ts props required closed &&
      okTrips ts info.fields props (reflective info)
  | .struct _ _, _ => false
  | _, _ => true
def okTrips : List Ty → List FieldInfo → List (Text × Schema) → Bool → Bool
  | t :: ts, f :: fs, props, all =>
    (!(all || (props.map Prod.fst).contains f.json) || okTrip t ((props.lookup f.json).getD .str)) &&
    okTrips ts fs props all
  | _, _, _, _ => true
end

set_option maxRecDepth 8000 in
theorem okTrip_req : ∀ r : ReqType, okTrip r.ty r.schema = true := by
  intro r; cases r <;> decide

set_option maxRecDepth 8000 in
theorem okTrip_resp : ∀ r : RespType, okTrip r.ty r.schema = true := by
  intro r; cases r <;> decide

theorem okTrip_msg (m : MsgType) : okTrip m.ty m.schema = true := by
  cases m with
  | req r => exact okTrip_req r
  | resp r => exact okTrip_resp r

/-! ### Slots of fields -/

theorem mem_insertSlot {s s' : Slot} {ss : List Slot} : s ∈ insertSlot s' ss ↔ s = s' ∨ s ∈ ss := by
  induction ss with
  | nil => simp [insertSlot]
  | cons x ss ih =>
    simp only [insertSlot]
    split
    · simp
    · simp [ih]; tauto

theorem mem_sorted {s : Slot} {ss : List Slot} : s ∈ ss.foldr insertSlot [] ↔ s ∈ ss := by
  induction ss with
  | nil => simp
  | cons x ss ih => simp [mem_insertSlot, ih]

theorem mem_fieldSlots {info : StructInfo} {n : Nat} {fs : List FieldInfo} {ts : List Ty} {s : Slot} :
    s ∈ fieldSlots info n fs ts ↔ ∃ i f t, fs[i]? = some f ∧ ts[i]? = some t ∧ s = ⟨f.json, n + i, fieldMode info f t⟩ := by
  induction fs generalizing n ts with
  | nil => simp [fieldSlots]
  | cons f fs ih =>
    cases ts with
    | nil => simp [fieldSlots]
    | cons t ts =>
      simp only [fieldSlots, List.mem_cons, ih]
      constructor
      · rintro (rfl | ⟨i, f', t', h1, h2, rfl⟩)
        · exact ⟨0, f, t, rfl, rfl, rfl⟩
        · exact ⟨i + 1, f', t', by simpa using h1, by simpa using h2, by simp; omega⟩
      · rintro ⟨i, f', t', h1, h2, rfl⟩
        cases i with
        | zero => simp at h1 h2; subst h1 h2; exact Or.inl rfl
        | succ i => exact Or.inr ⟨i, f', t', by simpa using h1, by simpa using h2, by simp; omega⟩

theorem mem_slots {info : StructInfo} {ts : List Ty} {s : Slot} :
    s ∈ slots info ts ↔ ∃ i f t, info.fields[i]? = some f ∧ ts[i]? = some t ∧ s = ⟨f.json, i, fieldMode info f t⟩ := by
  unfold slots
  simp only []
  split
  · rw [mem_fieldSlots]; simp
  · rw [mem_sorted, mem_fieldSlots]; simp

theorem lastVal_none {ms : List (Text × JVal)} {k : Text} : lastVal ms k = none ↔ k ∉ ms.map Prod.fst := by
  induction ms with
  | nil => simp [lastVal]
  | cons m ms ih =>
    obtain ⟨k', j'⟩ := m
    simp only [lastVal, List.map_cons, List.mem_cons, not_or]
    cases h : lastVal ms k with
    | some j => simp [h] at ih; simp [ih]
    | none =>
      have := ih.1 h
      simp only [this, not_false_eq_true, and_true]
      by_cases hk : k' = k <;> simp [hk, eq_comm]
      exact fun h => hk h.symm

theorem lastVal_nodup {ms : List (Text × JVal)} (h : (ms.map Prod.fst).Nodup) {k : Text} {j : JVal} :
    lastVal ms k = some j ↔ (k, j) ∈ ms := by
  induction ms with
  | nil => simp [lastVal]
  | cons m ms ih =>
    obtain ⟨k', j'⟩ := m
    simp only [List.map_cons, List.nodup_cons] at h
    simp only [lastVal, List.mem_cons, Prod.mk.injEq]
    cases hl : lastVal ms k with
    | some x =>
      have hm := (ih h.2).1 
      have hk : k' ≠ k := by
        rintro rfl
        exact absurd (lastVal_none.2 h.1) (by simp [hl])
      have := ih h.2
      rw [hl] at this
      simp only [this]
      constructor
      · exact Or.inr
      · rintro (⟨rfl, _⟩ | h)
        · exact absurd rfl hk
        · exact h
    | none =>
      have hk := lastVal_none.1 hl
      have hm : (k, j) ∉ ms := fun hh => hk (List.mem_map_of_mem hh)
      simp only [hm, or_false]
      by_cases e : k' = k
      · simp [e, eq_comm]
      · simp only [e, if_false, reduceCtorEq, false_iff]
        exact fun hh => e hh.1.symm

theorem fieldOf_self {fs : List FieldInfo} (h : (fs.map FieldInfo.json).Nodup) {i : Nat} {f : FieldInfo} (hf : fs[i]? = some f) :
    fieldOf fs f.json = some i := by
  have : fs.findIdx? (fun g => g.json == f.json) = some i := by
    rw [List.findIdx?_eq_some_iff_getElem]
    obtain ⟨hi, he⟩ := List.getElem?_eq_some_iff.1 hf
    refine ⟨hi, by simp [he], ?_⟩
    intro j hj
    simp only [beq_iff_eq]
    intro e
    have hj' : j < (fs.map FieldInfo.json).length := by simp; omega
    have hi' : i < (fs.map FieldInfo.json).length := by simpa using hi
    have := (List.Nodup.getElem_inj_iff h (hi := hj') (hj := hi')).1 (by simp [e, he])
    omega
  rw [fieldOf, this]

/-- Each field is either present and read to the target value, or absent and already has it. -/
def Reads (ms : List (Text × JVal)) (fs : List FieldInfo) (rs : List Reader) (vs tv : List Val) : Prop :=
  tv.length = vs.length ∧ ∀ (i : Nat) f, fs[i]? = some f → ∃ r v v', rs[i]? = some r ∧ vs[i]? = some v ∧ tv[i]? = some v' ∧
    ((∃ j, (f.json, j) ∈ ms ∧ r j v = some v') ∨ (f.json ∉ ms.map Prod.fst ∧ v = v'))

theorem readLenient_of {fs : List FieldInfo} {rs : List Reader} (hf : (fs.map FieldInfo.json).Nodup)
    {ms : List (Text × JVal)} (hn : (ms.map Prod.fst).Nodup) (hk : ∀ k ∈ ms.map Prod.fst, k ∈ fs.map FieldInfo.json)
    {vs tv : List Val} (hl : vs.length = fs.length) (h : Reads ms fs rs vs tv) : readLenient fs rs ms vs = some tv := by
  induction ms generalizing vs with
  | nil =>
    simp only [readLenient, Option.some.injEq]
    apply List.ext_getElem?
    intro i
    by_cases hi : i < fs.length
    · obtain ⟨f, hfi⟩ : ∃ f, fs[i]? = some f := ⟨_, List.getElem?_eq_getElem hi⟩
      obtain ⟨r, v, v', _, h2, h3, h4⟩ := h.2 i f hfi
      rcases h4 with ⟨j, h4, _⟩ | ⟨_, rfl⟩
      · simp at h4
      · rw [h2, h3]
    · rw [List.getElem?_eq_none (by omega), List.getElem?_eq_none (by rw [h.1]; omega)]
  | cons m ms ih =>
    obtain ⟨k, j⟩ := m
    simp only [List.map_cons, List.nodup_cons, List.mem_cons, forall_eq_or_imp] at hn hk
    obtain ⟨f, hfm, rfl⟩ := List.mem_map.1 hk.1
    obtain ⟨i, hi⟩ := List.mem_iff_getElem?.1 hfm
    simp only [readLenient, fieldOf_self hf hi]
    obtain ⟨r, v, v', h1, h2, h3, h4⟩ := h.2 i f hi
    have hr : r j v = some v' := by
      rcases h4 with ⟨j', h4, h5⟩ | ⟨h4, _⟩
      · rcases List.mem_cons.1 h4 with e | e
        · cases e; exact h5
        · exact absurd (List.mem_map_of_mem e) hn.1
      · simp at h4
    rw [h1, h2]
    simp only [hr]
    refine ih hn.2 hk.2 (by simpa using hl) ⟨by simpa using h.1, ?_⟩
    intro i' f' hf'
    by_cases e : i = i'
    · subst e
      rw [hi] at hf'; cases hf'
      refine ⟨r, v', v', h1, ?_, h3, Or.inr ⟨hn.1, rfl⟩⟩
      rw [List.getElem?_set_self]
      exact (List.getElem?_eq_some_iff.1 h2).1
    · obtain ⟨r', w, w', g1, g2, g3, g4⟩ := h.2 i' f' hf'
      refine ⟨r', w, w', g1, by rw [List.getElem?_set_ne e]; exact g2, g3, ?_⟩
      have hne : f'.json ≠ f.json := by
        intro he
        have a := fieldOf_self hf hf'
        have b := fieldOf_self hf hi
        rw [he, b] at a
        exact e (by simpa using a)
      rcases g4 with ⟨j', g4, g5⟩ | ⟨g4, g5⟩
      · rcases List.mem_cons.1 g4 with e' | e'
        · exact absurd (congrArg Prod.fst e') hne
        · exact Or.inl ⟨j', e', g5⟩
      · exact Or.inr ⟨fun hh => g4 (by simp [hh]), g5⟩

/-! ### The round trip -/

theorem trip_nil (t : Ty) (sch : Schema) : trip t sch .nil = .nil := by
  cases t <;> simp [trip]

theorem nil_zero {t : Ty} {v : Val} (hv : HasTy t v) (h : v.isNil = true) : v = .nil ∧ zeroVal t = .nil := by
  cases v <;> simp [Val.isNil] at h
  cases t <;> simp [HasTy] at hv <;> simp [zeroVal]

theorem empty_zero {t : Ty} {v : Val} (hv : HasTy t v) (h : v.isEmpty = true) (hs : notSlice t = true) (sch : Schema) :
    trip t sch v = zeroVal t := by
  cases t with
  | slice t => simp [notSlice] at hs
  | float =>
    cases v with
    | float q => cases q <;> simp_all [Val.isEmpty, trip, zeroVal]
    | _ => simp [HasTy] at hv
  | str => cases v <;> simp_all [HasTy, Val.isEmpty, trip, zeroVal]
  | int b => cases v <;> simp_all [HasTy, Val.isEmpty, trip, zeroVal]
  | bool => cases v <;> simp_all [HasTy, Val.isEmpty, trip, zeroVal]
  | time => cases v <;> simp_all [HasTy, Val.isEmpty, trip, zeroVal]
  | ptr t => cases v <;> simp_all [HasTy, Val.isEmpty, trip, zeroVal]
  | struct info ts => cases v <;> simp_all [HasTy, Val.isEmpty, trip, zeroVal]

theorem wire_not_null {F : FloatFmt} {t : Ty} {v : Val} (h : notNil t = true) : wire F t v ≠ .ok .null := by
  cases t with
  | ptr t => simp [notNil] at h
  | slice t => simp [notNil] at h
  | float =>
    cases v with
    | float q => cases q <;> simp [wire]
    | _ => simp [wire]
  | struct info ts =>
    cases v with
    | struct vs =>
      simp only [wire]
      generalize slotMembers vs (wireAll F ts vs) (slots info ts) = x
      cases x <;> simp
    | _ => simp [wire]
  | _ => cases v <;> simp [wire]

theorem zeroVals_get {ts : List Ty} {i : Nat} {t : Ty} (h : ts[i]? = some t) : (zeroVals ts)[i]? = some (zeroVal t) := by
  induction ts generalizing i with
  | nil => simp at h
  | cons t' ts ih =>
    cases i with
    | zero => simp at h; subst h; rfl
    | succ i => simp [zeroVals]; exact ih (by simpa using h)

theorem zeroVals_length (ts : List Ty) : (zeroVals ts).length = ts.length := by
  induction ts with
  | nil => rfl
  | cons t ts ih => simp [zeroVals, ih]

theorem trips_length {ts : List Ty} {fs : List FieldInfo} {props : List (Text × Schema)} {all : Bool} {vs : List Val}
    (h1 : fs.length = ts.length) (h2 : vs.length = ts.length) : (trips ts fs props all vs).length = ts.length := by
  induction ts generalizing fs vs with
  | nil => cases fs <;> cases vs <;> simp_all [trips]
  | cons t ts ih =>
    cases fs with
    | nil => simp at h1
    | cons f fs =>
      cases vs with
      | nil => simp at h2
      | cons v vs => simp [trips]; exact ih (by simpa using h1) (by simpa using h2)

theorem trips_get {ts : List Ty} {fs : List FieldInfo} {props : List (Text × Schema)} {all : Bool} {vs : List Val} {i : Nat}
    {t : Ty} {f : FieldInfo} {v : Val} (ht : ts[i]? = some t) (hf : fs[i]? = some f) (hv : vs[i]? = some v) :
    (trips ts fs props all vs)[i]? = some (if all || (props.map Prod.fst).contains f.json then
      trip t ((props.lookup f.json).getD .str) v else zeroVal t) := by
  induction ts generalizing fs vs i with
  | nil => simp at ht
  | cons t' ts ih =>
    cases fs with
    | nil => simp at hf
    | cons f' fs =>
      cases vs with
      | nil => simp at hv
      | cons v' vs =>
        cases i with
        | zero => simp at ht hf hv; subst ht hf hv; rfl
        | succ i => simp only [trips, List.getElem?_cons_succ]; exact ih (by simpa using ht) (by simpa using hf) (by simpa using hv)

theorem readers_get {ts : List Ty} {fs : List FieldInfo} {props : List (Text × Schema)} {i : Nat}
    {t : Ty} {f : FieldInfo} (ht : ts[i]? = some t) (hf : fs[i]? = some f) :
    (readers ts fs props)[i]? = some (read t ((props.lookup f.json).getD .str)) := by
  induction ts generalizing fs i with
  | nil => simp at ht
  | cons t' ts ih =>
    cases fs with
    | nil => simp at hf
    | cons f' fs =>
      cases i with
      | zero => simp at ht hf; subst ht hf; rfl
      | succ i => simp only [readers, List.getElem?_cons_succ]; exact ih (by simpa using ht) (by simpa using hf)

theorem timesAlls_get {P : GoTime → Prop} {vs : List Val} (h : Val.TimesAlls P vs) {v : Val} (hv : v ∈ vs) : v.TimesAll P := by
  induction vs with
  | nil => simp at hv
  | cons w vs ih =>
    simp only [Val.TimesAlls] at h
    rcases List.mem_cons.1 hv with rfl | hv
    · exact h.1
    · exact ih h.2 hv

theorem allSome_map {α β : Type} {f : α → Option β} {g : α → β} {l : List α} (h : ∀ a ∈ l, f a = some (g a)) :
    allSome (l.map f) = some (l.map g) := by
  induction l with
  | nil => rfl
  | cons a l ih =>
    simp only [List.map_cons, h a (by simp), allSome, ih (fun b hb => h b (by simp [hb])), Option.map_some]

theorem elems_trip {F : FloatFmt} {t : Ty} {items : Schema} {vs : List Val} {js : List JVal}
    (h : ∀ v ∈ vs, ∀ j, wire F t v = .ok j → read t items j (zeroVal t) = some (trip t items v))
    (hj : allOk (vs.map (wire F t)) = .ok js) :
    allSome (js.map fun j => read t items j (zeroVal t)) = some (vs.map (trip t items)) := by
  induction vs generalizing js with
  | nil => simp [allOk] at hj; subst hj; rfl
  | cons v vs ih =>
    simp only [List.map_cons, allOk] at hj
    rw [GoRes.bind_eq_ok] at hj
    obtain ⟨j, h1, hj⟩ := hj
    rw [GoRes.bind_eq_ok] at hj
    obtain ⟨js', h2, hj⟩ := hj
    cases hj
    simp only [List.map_cons, h v (by simp) j h1, allSome, ih (fun v hv => h v (by simp [hv])) h2, Option.map_some]

theorem keysOks_get {ts : List Ty} (h : keysOks ts = true) {i : Nat} {t : Ty} (ht : ts[i]? = some t) : keysOk t = true := by
  induction ts generalizing i with
  | nil => simp at ht
  | cons t' ts ih =>
    simp only [keysOks, Bool.and_eq_true] at h
    cases i with
    | zero => simp at ht; subst ht; exact h.1
    | succ i => exact ih h.2 (by simpa using ht)

theorem okTrips_get {ts : List Ty} {fs : List FieldInfo} {props : List (Text × Schema)} {all : Bool}
    (h : okTrips ts fs props all = true) {i : Nat} {t : Ty} {f : FieldInfo} (ht : ts[i]? = some t) (hf : fs[i]? = some f)
    (hp : (all || (props.map Prod.fst).contains f.json) = true) : okTrip t ((props.lookup f.json).getD .str) = true := by
  induction ts generalizing fs i with
  | nil => simp at ht
  | cons t' ts ih =>
    cases fs with
    | nil => simp at hf
    | cons f' fs =>
      simp only [okTrips, Bool.and_eq_true] at h
      cases i with
      | zero => simp at ht hf; subst ht hf; have := h.1; rw [hp] at this; simpa using this
      | succ i => exact ih h.2 (by simpa using ht) (by simpa using hf)

theorem okDecs_get {ts : List Ty} {fs : List FieldInfo} {props : List (Text × Schema)} {all : Bool}
    (h : okDecs ts fs props all = true) {i : Nat} {t : Ty} {f : FieldInfo} (ht : ts[i]? = some t) (hf : fs[i]? = some f)
    (hp : (all || (props.map Prod.fst).contains f.json) = true) : okDec t ((props.lookup f.json).getD .str) = true := by
  induction ts generalizing fs i with
  | nil => simp at ht
  | cons t' ts ih =>
    cases fs with
    | nil => simp at hf
    | cons f' fs =>
      simp only [okDecs, Bool.and_eq_true] at h
      cases i with
      | zero => simp at ht hf; subst ht hf; have := h.1; rw [hp] at this; simpa using this
      | succ i => exact ih h.2 (by simpa using ht) (by simpa using hf)

/-- Field names are distinct when property names of the slots are. -/
theorem fields_nodup {info : StructInfo} {ts : List Ty} {sch : Schema} (h : okDec (.struct info ts) sch = true) :
    (info.fields.map FieldInfo.json).Nodup ∧ info.fields.length = ts.length := by
  cases sch <;> simp only [okDec, Bool.and_eq_true, beq_iff_eq, decide_eq_true_eq, Bool.false_eq_true] at h
  exact ⟨h.1.1.2, h.1.1.1⟩

/-- One struct, given the round trip of its fields. -/
theorem struct_trip {F : FloatFmt} {info : StructInfo} {ts : List Ty} {props : List (Text × Schema)} {required : List Text}
    {closed : Bool} (hnd : (info.fields.map FieldInfo.json).Nodup) (hl : info.fields.length = ts.length)
    (hk : keysOk (.struct info ts) = true) (hs : structOk info ts props required closed = true)
    {vs : List Val} (hv : HasTys ts vs)
    (ih : ∀ (i : Nat) t f v, ts[i]? = some t → info.fields[i]? = some f → vs[i]? = some v →
      (reflective info || (props.map Prod.fst).contains f.json) = true → ∀ j, wire F t v = .ok j →
      read t ((props.lookup f.json).getD .str) j (zeroVal t) = some (trip t ((props.lookup f.json).getD .str) v))
    {ms ms' : List (Text × JVal)} (h : wire F (.struct info ts) (.struct vs) = .ok (.obj ms)) (hperm : ms'.Perm ms) :
    readStruct info (readers ts info.fields props) (.obj props required closed) (.obj ms') (.struct (zeroVals ts)) =
      some (.struct (trips ts info.fields props (reflective info) vs)) := by
  have hvl := hasTys_length hv
  have hdist := wire_distinct F _ _ _ hk h
  have hn : (ms'.map Prod.fst).Nodup := (hperm.map Prod.fst).nodup_iff.2 hdist.1
  -- keys of the object are field names
  have hkeys : ∀ k ∈ ms'.map Prod.fst, k ∈ info.fields.map FieldInfo.json := by
    have h1 : slotMembers vs (wireAll F ts vs) (slots info ts) = .ok ms := by
      simp only [wire] at h
      rw [GoRes.bind_eq_ok] at h
      obtain ⟨ms', h1, h⟩ := h
      cases h; exact h1
    intro k hkm
    have := (slotMembers_keys h1).subset ((hperm.map Prod.fst).mem_iff.1 hkm)
    obtain ⟨s, hs, rfl⟩ := List.mem_map.1 this
    obtain ⟨i, f, t, hf, _, rfl⟩ := mem_slots.1 hs
    exact List.mem_map_of_mem (List.mem_of_getElem? hf)
  -- a field's member
  have hmem : ∀ (i : Nat) t f v, ts[i]? = some t → info.fields[i]? = some f → vs[i]? = some v → ∀ j,
      (f.json, j) ∈ ms' ↔ wire F t v = .ok j ∧ ¬ (fieldMode info f t = .omitNil ∧ v.isNil = true) ∧
        ¬ (fieldMode info f t = .omitEmpty ∧ v.isEmpty = true) := by
    intro i t f v ht hf hvi j
    rw [hperm.mem_iff]
    exact C01_member F info ts vs hk ms h ⟨f.json, i, fieldMode info f t⟩ (mem_slots.2 ⟨i, f, t, hf, ht, rfl⟩) t v ht hvi j
  -- when not left out, the member is there
  have hpres : ∀ (i : Nat) t f v, ts[i]? = some t → info.fields[i]? = some f → vs[i]? = some v →
      ¬ (fieldMode info f t = .omitNil ∧ v.isNil = true) → ¬ (fieldMode info f t = .omitEmpty ∧ v.isEmpty = true) →
      ∃ j, wire F t v = .ok j := by
    intro i t f v ht hf hvi ha hb
    have h1 : slotMembers vs (wireAll F ts vs) (slots info ts) = .ok ms := by
      simp only [wire] at h
      rw [GoRes.bind_eq_ok] at h
      obtain ⟨ms', h1, h⟩ := h
      cases h; exact h1
    have hs : (⟨f.json, i, fieldMode info f t⟩ : Slot) ∈ slots info ts := mem_slots.2 ⟨i, f, t, hf, ht, rfl⟩
    generalize slots info ts = ss at hs h1
    clear h hdist hn hkeys hmem hk hperm
    induction ss generalizing ms with
    | nil => simp at hs
    | cons s' ss ihs =>
      simp only [slotMembers] at h1
      rw [GoRes.bind_eq_ok] at h1
      obtain ⟨m, h2, h3⟩ := h1
      rw [GoRes.bind_eq_ok] at h3
      obtain ⟨ms', h3, _⟩ := h3
      rcases List.mem_cons.1 hs with rfl | hs
      · rw [getD_some hvi, getD_some (wireAll_get ht hvi)] at h2
        cases hw : wire F t v with
        | ok j => exact ⟨j, rfl⟩
        | _ =>
          exfalso
          rw [hw] at h2
          revert h2 ha hb
          simp only [slotMember]
          cases fieldMode info f t <;> cases v.isNil <;> cases v.isEmpty <;> simp
      · exact ihs hs h3
  have hcase : ∀ (i : Nat) t f v, ts[i]? = some t → info.fields[i]? = some f → vs[i]? = some v →
      (∃ j, (f.json, j) ∈ ms' ∧ wire F t v = .ok j) ∨
      (f.json ∉ ms'.map Prod.fst ∧ ((fieldMode info f t = .omitNil ∧ v.isNil = true) ∨
        (fieldMode info f t = .omitEmpty ∧ v.isEmpty = true))) := by
    intro i t f v ht hf hvi
    by_cases ha : (fieldMode info f t = .omitNil ∧ v.isNil = true) ∨ (fieldMode info f t = .omitEmpty ∧ v.isEmpty = true)
    · refine Or.inr ⟨?_, ha⟩
      intro hm
      obtain ⟨⟨k, j⟩, hm, e⟩ := List.mem_map.1 hm
      simp only at e; subst e
      have := (hmem i t f v ht hf hvi j).1 hm
      tauto
    · rw [not_or] at ha
      obtain ⟨j, hj⟩ := hpres i t f v ht hf hvi ha.1 ha.2
      exact Or.inl ⟨j, (hmem i t f v ht hf hvi j).2 ⟨hj, ha⟩, hj⟩
  have hget : ∀ i : Nat, i < info.fields.length → ∃ t f v, ts[i]? = some t ∧ info.fields[i]? = some f ∧ vs[i]? = some v :=
    fun i hi => ⟨_, _, _, List.getElem?_eq_getElem (by omega), List.getElem?_eq_getElem hi, List.getElem?_eq_getElem (by omega)⟩
  -- a field left out has its zero value
  have hzero : ∀ (i : Nat) t f v, ts[i]? = some t → info.fields[i]? = some f → vs[i]? = some v →
      ((fieldMode info f t = .omitNil ∧ v.isNil = true) ∨ (fieldMode info f t = .omitEmpty ∧ v.isEmpty = true)) → ∀ sch,
      trip t sch v = zeroVal t := by
    intro i t f v ht hf hvi ha sch
    obtain ⟨v', hv', hty⟩ := hasTys_get hv ht
    rw [hvi] at hv'; cases hv'
    rcases ha with ⟨_, h⟩ | ⟨hm, h⟩
    · obtain ⟨rfl, hz⟩ := nil_zero hty h
      rw [hz, trip_nil]
    · apply empty_zero hty h
      by_cases hr : reflective info = true
      · simp only [structOk, hr, if_true, List.all_eq_true] at hs
        exact hs t (List.mem_of_getElem? ht)
      · exfalso
        simp only [fieldMode, hr] at hm
        revert hm
        simp only [Bool.false_eq_true, if_false]
        repeat' split
        all_goals simp
  simp only [readStruct]
  by_cases hr : reflective info = true
  · rw [if_pos hr]
    have : Reads ms' info.fields (readers ts info.fields props) (zeroVals ts) (trips ts info.fields props (reflective info) vs) := by
      refine ⟨by rw [trips_length hl hvl, zeroVals_length], ?_⟩
      intro i f hf
      obtain ⟨t, f', v, ht, hf', hvi⟩ := hget i (List.getElem?_eq_some_iff.1 hf).1
      rw [hf] at hf'; cases hf'
      refine ⟨_, _, _, readers_get ht hf, zeroVals_get ht, trips_get ht hf hvi, ?_⟩
      rw [hr]
      simp only [Bool.true_or, if_true]
      rcases hcase i t f v ht hf hvi with ⟨j, hm, hw⟩ | ⟨hm, ha⟩
      · exact Or.inl ⟨j, hm, ih i t f v ht hf hvi (by simp [hr]) j hw⟩
      · exact Or.inr ⟨hm, (hzero i t f v ht hf hvi ha _).symm⟩
    simp only [Val.fields]
    rw [readLenient_of hnd hn hkeys (by rw [zeroVals_length, hl]) this]
    rfl
  · rw [if_neg hr]
    simp only [structOk, hr, Bool.false_eq_true, if_false, Bool.and_eq_true, Bool.or_eq_true, Bool.not_eq_true',
      List.all_eq_true, List.any_eq_true, beq_iff_eq, bne_iff_ne] at hs
    have hif : (closed = true → ∀ m ∈ ms', (props.map Prod.fst).contains m.1 = true) ∧
        (∀ k ∈ required, (ms'.map Prod.fst).contains k = true) := by
      constructor
      · intro hc m hm
        rcases hs.1 with h0 | h0
        · rw [hc] at h0; cases h0
        · obtain ⟨f, hf, e⟩ := List.mem_map.1 (hkeys m.1 (List.mem_map_of_mem hm))
          rw [← e]; exact h0 f hf
      · intro k hkr
        obtain ⟨⟨f, t⟩, hft, rfl, hm1, hm2⟩ := hs.2 k hkr
        obtain ⟨i, hi⟩ := List.mem_iff_getElem?.1 hft
        rw [List.getElem?_zip_eq_some] at hi
        obtain ⟨hf, ht⟩ := hi
        obtain ⟨v, hvi, _⟩ := hasTys_get hv ht
        rcases hcase i t f v ht hf hvi with ⟨j, hm, _⟩ | ⟨_, ha⟩
        · exact List.contains_iff_mem.2 (List.mem_map_of_mem hm)
        · rcases ha with ⟨e, _⟩ | ⟨e, _⟩
          · exact absurd e hm1
          · exact absurd e hm2
    rw [if_pos hif]
    simp only [Val.fields]
    have : readFields props ms' info.fields (readers ts info.fields props) (zeroVals ts) =
        some (trips ts info.fields props (reflective info) vs) := by
      rw [readFields_iff (readers_length _ _ _ hl) (by rw [zeroVals_length, hl])]
      refine ⟨by rw [trips_length hl hvl, zeroVals_length], ?_⟩
      intro i f r z hf hri hz
      obtain ⟨t, f', v, ht, hf', hvi⟩ := hget i (List.getElem?_eq_some_iff.1 hf).1
      rw [hf] at hf'; cases hf'
      rw [readers_get ht hf] at hri; cases hri
      rw [zeroVals_get ht] at hz; cases hz
      refine ⟨_, trips_get ht hf hvi, ?_⟩
      have hr' : reflective info = false := by simpa using hr
      rw [hr']
      simp only [Bool.false_or]
      by_cases hp : (props.map Prod.fst).contains f.json = true
      · rw [if_pos hp, if_pos hp]
        rcases hcase i t f v ht hf hvi with ⟨j, hm, hw⟩ | ⟨hm, ha⟩
        · rw [(lastVal_nodup hn).2 hm]
          exact ih i t f v ht hf hvi (by simp only [hp, Bool.or_true]) j hw
        · rw [lastVal_none.2 hm]
          exact hzero i t f v ht hf hvi ha _
      · rw [if_neg hp, if_neg hp]
        rfl
    rw [this]; rfl

mutual
theorem read_wire (F : FloatFmt) (t : Ty) (sch : Schema) (hd : okDec t sch = true) (ht : okTrip t sch = true)
    (hk : keysOk t = true) (v : Val) (hv : HasTy t v) (hp : v.TimesAll GoTime.Plain) (j : JVal) (hw : wire F t v = .ok j) :
    read t sch j (zeroVal t) = some (trip t sch v) := by
  match t with
  | .str =>
    cases v <;> simp [HasTy] at hv
    simp [wire] at hw; subst hw; rfl
  | .bool =>
    cases v <;> simp [HasTy] at hv
    simp [wire] at hw; subst hw; rfl
  | .int b =>
    cases v <;> simp only [HasTy] at hv
    simp [wire] at hw; subst hw
    simp only [read, isInt_ofInt, intVal_ofInt, trip]
    rw [if_pos ⟨trivial, hv⟩]
  | .float =>
    cases v <;> try simp only [HasTy] at hv
    rename_i q
    cases q with
    | fin q =>
      simp only [HasTy] at hv
      simp [wire] at hw; subst hw
      simp only [read, F.roundtrip q hv, trip]; rfl
    | _ => simp [wire] at hw
  | .time =>
    cases v <;> simp only [HasTy] at hv
    simp [wire] at hw; subst hw
    simp only [Val.TimesAll] at hp
    simp only [read, GoTime.parse_format hp, trip]; rfl
  | .ptr t =>
    simp only [okDec, okTrip, keysOk, Bool.and_eq_true] at hd ht hk
    cases v <;> simp only [HasTy] at hv
    · simp [wire] at hw; subst hw; simp [read, trip]
    · rename_i v
      simp only [wire] at hw
      simp only [Val.TimesAll] at hp
      have := read_wire F t sch hd ht.2 hk v hv hp j hw
      cases j with
      | null => exact absurd hw (wire_not_null ht.1)
      | _ => simp only [read, zeroVal, this, trip]; rfl
  | .slice t =>
    cases sch with
    | arr items =>
      simp only [okDec, okTrip, keysOk] at hd ht hk
      cases v <;> simp only [HasTy] at hv
      · simp [wire] at hw; subst hw; simp [read, trip]
      · rename_i vs
        simp only [wire] at hw
        rw [GoRes.bind_eq_ok] at hw
        obtain ⟨js, hjs, hw⟩ := hw
        cases hw
        simp only [Val.TimesAll] at hp
        have ih : ∀ v ∈ vs, ∀ j, wire F t v = .ok j → read t items j (zeroVal t) = some (trip t items v) :=
          fun v hm j hj => read_wire F t items hd ht hk v (hv v hm) (timesAlls_get hp hm) j hj
        simp only [read, trip, elems_trip ih hjs]; rfl
    | _ => simp [okDec] at hd
  | .struct info ts =>
    cases sch with
    | obj props required closed =>
      obtain ⟨hnd, hl⟩ := fields_nodup hd
      simp only [okDec, okTrip, Bool.and_eq_true] at hd ht
      have hk' := hk
      simp only [keysOk, Bool.and_eq_true] at hk
      cases v <;> simp only [HasTy] at hv
      rename_i vs
      simp only [Val.TimesAll] at hp
      have ih := read_wires F ts info.fields props (reflective info) hd.2 ht.2 hk.2 vs hv hp
      have hobj : ∃ ms, j = .obj ms := by
        simp only [wire] at hw
        rw [GoRes.bind_eq_ok] at hw
        obtain ⟨ms, _, hw⟩ := hw
        exact ⟨ms, by simpa using hw.symm⟩
      obtain ⟨ms, rfl⟩ := hobj
      simp only [read, zeroVal, trip]
      exact struct_trip hnd hl hk' ht.1 hv ih hw (List.Perm.refl _)
    | _ => simp [okDec] at hd
  termination_by structural t
theorem read_wires (F : FloatFmt) (ts : List Ty) (fs : List FieldInfo) (props : List (Text × Schema)) (all : Bool)
    (hd : okDecs ts fs props all = true) (ht : okTrips ts fs props all = true) (hk : keysOks ts = true)
    (vs : List Val) (hv : HasTys ts vs) (hp : Val.TimesAlls GoTime.Plain vs) :
    ∀ (i : Nat) t f v, ts[i]? = some t → fs[i]? = some f → vs[i]? = some v →
      (all || (props.map Prod.fst).contains f.json) = true → ∀ j, wire F t v = .ok j →
      read t ((props.lookup f.json).getD .str) j (zeroVal t) = some (trip t ((props.lookup f.json).getD .str) v) := by
  intro i t f v hti hfi hvi ha j hj
  match ts with
  | [] => simp at hti
  | t' :: ts =>
    cases fs with
    | nil => simp at hfi
    | cons f' fs =>
      cases vs with
      | nil => simp at hvi
      | cons v' vs =>
        have hdt := okDecs_get hd hti hfi ha
        have htt := okTrips_get ht hti hfi ha
        have hkt := keysOks_get hk hti
        simp only [HasTys] at hv
        simp only [Val.TimesAlls] at hp
        cases i with
        | zero =>
          simp only [List.getElem?_cons_zero, Option.some.injEq] at hti hfi hvi
          subst hfi hvi
          rw [← hti] at hdt htt hkt hj ⊢
          exact read_wire F t' _ hdt htt hkt v' hv.1 hp.1 j hj
        | succ i =>
          simp only [okDecs, okTrips, keysOks, Bool.and_eq_true] at hd ht hk
          exact read_wires F ts fs props all hd.2 ht.2 hk.2 vs hv.2 hp.2 i t f v (by simpa using hti) (by simpa using hfi)
            (by simpa using hvi) ha j hj
  termination_by structural ts
end

/-! ### Schemas that mention every field -/

mutual
/-- Every field is a property of the schema. -/
def covered : Ty → Schema → Bool
  | .ptr t, sch => covered t sch
  | .slice t, .arr items => covered t items
  | .slice _, _ => false
  | .struct info ts, .obj props _ _ => coveredAll ts info.fields props
  | .struct _ _, _ => false
  | _, _ => true
def coveredAll : List Ty → List FieldInfo → List (Text × Schema) → Bool
  | t :: ts, f :: fs, props =>
    (props.map Prod.fst).contains f.json && covered t ((props.lookup f.json).getD .str) && coveredAll ts fs props
  | [], [], _ => true
  | _, _, _ => false
end

set_option maxRecDepth 8000 in
theorem covered_req : ∀ r : ReqType, r ≠ .csreqSendLocalList → covered r.ty r.schema = true := by
  intro r; cases r <;> intro h <;> first | decide | exact absurd rfl h

set_option maxRecDepth 8000 in
theorem covered_resp : ∀ r : RespType, covered r.ty r.schema = true := by
  intro r; cases r <;> decide

mutual
theorem trip_cut (t : Ty) (sch : Schema) (h : covered t sch = true) (v : Val) (hv : HasTy t v) :
    trip t sch v = v.cutTimes := by
  match t with
  | .str => cases v <;> simp [HasTy] at hv <;> rfl
  | .bool => cases v <;> simp [HasTy] at hv <;> rfl
  | .int _ => cases v <;> simp only [HasTy] at hv <;> rfl
  | .float =>
    cases v <;> try simp only [HasTy] at hv
    rfl
  | .time => cases v <;> simp only [HasTy] at hv <;> rfl
  | .ptr t =>
    simp only [covered] at h
    cases v <;> simp only [HasTy] at hv
    · rfl
    · rename_i v
      simp only [trip, Val.cutTimes, trip_cut t sch h v hv]
  | .slice t =>
    cases sch with
    | arr items =>
      simp only [covered] at h
      cases v <;> simp only [HasTy] at hv
      · rfl
      · rename_i vs
        simp only [trip, Val.cutTimes, Val.slice.injEq]
        have ih : ∀ v ∈ vs, trip t items v = v.cutTimes := fun v hm => trip_cut t items h v (hv v hm)
        clear hv
        induction vs with
        | nil => rfl
        | cons v vs ihv =>
          simp only [List.map_cons, Val.cutAll, ih v (by simp), ihv (fun w hw => ih w (by simp [hw]))]
    | _ => simp [covered] at h
  | .struct info ts =>
    cases sch with
    | obj props required closed =>
      simp only [covered] at h
      cases v <;> simp only [HasTy] at hv
      rename_i vs
      simp only [trip, Val.cutTimes, trips_cut ts info.fields props (reflective info) h vs hv]
    | _ => simp [covered] at h
  termination_by structural t
theorem trips_cut (ts : List Ty) (fs : List FieldInfo) (props : List (Text × Schema)) (all : Bool)
    (h : coveredAll ts fs props = true) (vs : List Val) (hv : HasTys ts vs) :
    trips ts fs props all vs = Val.cutAll vs := by
  match ts with
  | [] => cases vs <;> simp [HasTys] at hv; rfl
  | t :: ts =>
    cases fs with
    | nil => simp [coveredAll] at h
    | cons f fs =>
      cases vs with
      | nil => simp [HasTys] at hv
      | cons v vs =>
        simp only [coveredAll, Bool.and_eq_true] at h
        simp only [HasTys] at hv
        simp only [trips, Val.cutAll, h.1.1, Bool.or_true, if_true]
        rw [trip_cut t _ h.1.2 v hv.1, trips_cut ts fs props all h.2 vs hv.2]
  termination_by structural ts
end

end Trip
end Verif
