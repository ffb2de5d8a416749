import Verif.Spec.Conform
import Verif.Props.Encode
import Verif.Lemmas.Trip
/-!
# C64: messages and the schemas shipped with the library
-/
set_option linter.unusedSimpArgs false
namespace Verif.Conf
open Json Codec Encode Trip

/-- Fields that are always written when the encoding succeeds. -/
def Mode.omits : Mode → Bool
  | .omitNil | .omitEmpty => true
  | _ => false

mutual
/-- The kinds of a type and a schema agree; all required properties are always written; all names are known. -/
def fits : Ty → JSchema → Bool
  | .ptr t, s => fits t s
  | .str, .str _ _ => true
  | .time, .str none none => true
  | .int _, .int => true
  | .int _, .num => true
  | .float, .num => true
  | .bool, .bool => true
  | .slice t, .arr it => fits t it
  | .struct info ts, .obj props required closed =>
    decide ((props.map Prod.fst).Nodup) &&
    (required.all fun k => (info.fields.zip ts).any fun x => x.1.json == k && !Mode.omits (fieldMode info x.1 x.2)) &&
    fitss closed info.fields ts props
  | _, _ => false
/-- The same for fields. -/
def fitss (closed : Bool) : List FieldInfo → List Ty → List (Text × JSchema) → Bool
  | f :: fs, t :: ts, props =>
    (match props.lookup f.json with
     | none => !closed
     | some s => fits t s) && fitss closed fs ts props
  | [], [], _ => true
  | _, _, _ => false
end

set_option maxRecDepth 8000 in
theorem fits_msg (m : MsgType) : fits m.ty m.jschema = true := by
  cases m with
  | req r => cases r <;> decide
  | resp r => cases r <;> decide

theorem lookup_of_mem {α : Type} {props : List (Text × α)} (hn : (props.map Prod.fst).Nodup) {k : Text} {s : α} (h : (k, s) ∈ props) :
    props.lookup k = some s := by
  induction props with
  | nil => cases h
  | cons x props ih =>
    obtain ⟨k', s'⟩ := x
    simp only [List.map_cons, List.nodup_cons] at hn
    rw [List.lookup_cons]
    rcases List.mem_cons.1 h with h | h
    · cases h; simp
    · have hm : k ∈ props.map Prod.fst := List.mem_map_of_mem (f := Prod.fst) h
      have hne : k ≠ k' := fun e => hn.1 (e ▸ hm)
      rw [show (k == k') = false by simpa using hne]
      exact ih hn.2 h

theorem fitss_get {closed : Bool} {fs : List FieldInfo} {ts : List Ty} {props : List (Text × JSchema)} (h : fitss closed fs ts props = true) :
    fs.length = ts.length ∧ ∀ (i : Nat) f t, fs[i]? = some f → ts[i]? = some t →
      (match props.lookup f.json with
       | none => closed = false
       | some s => fits t s = true) := by
  induction fs generalizing ts with
  | nil =>
    cases ts with
    | nil => simp
    | cons t ts => simp [fitss] at h
  | cons f fs ih =>
    cases ts with
    | nil => simp [fitss] at h
    | cons t ts =>
      simp only [fitss, Bool.and_eq_true] at h
      obtain ⟨h1, h2⟩ := h
      obtain ⟨h3, h4⟩ := ih h2
      refine ⟨by simp [h3], ?_⟩
      intro i f' t' hf ht
      cases i with
      | zero =>
        simp at hf ht; subst hf ht
        revert h1
        cases props.lookup f.json <;> simp
      | succ i => exact h4 i f' t' (by simpa using hf) (by simpa using ht)

theorem soundFields_iff {info : StructInfo} {fs : List FieldInfo} {ts : List Ty} {props : List (Text × JSchema)} {vs : List Val}
    (h1 : fs.length = ts.length) (h2 : ts.length = vs.length) :
    SoundFields info fs ts props vs ↔ ∀ (i : Nat) f t v, fs[i]? = some f → ts[i]? = some t → vs[i]? = some v →
      LeftOut (fieldMode info f t) v ∨ ∀ sch, (f.json, sch) ∈ props → Sound t sch v := by
  induction fs generalizing ts vs with
  | nil => simp [SoundFields]
  | cons f fs ih =>
    cases ts with
    | nil => simp at h1
    | cons t ts =>
      cases vs with
      | nil => simp at h2
      | cons v vs =>
        simp only [SoundFields]
        rw [ih (by simpa using h1) (by simpa using h2)]
        constructor
        · rintro ⟨a, b⟩ i f' t' v' hf ht hv
          cases i with
          | zero => simp at hf ht hv; subst hf ht hv; exact a
          | succ i => exact b i f' t' v' (by simpa using hf) (by simpa using ht) (by simpa using hv)
        · intro h
          refine ⟨h 0 f t v rfl rfl rfl, fun i f' t' v' hf ht hv => h (i + 1) f' t' v' (by simpa using hf) (by simpa using ht) (by simpa using hv)⟩

theorem hasTys_length {ts : List Ty} {vs : List Val} (h : HasTys ts vs) : ts.length = vs.length := by
  induction ts generalizing vs with
  | nil => cases vs <;> simp [HasTys] at h ⊢
  | cons t ts ih => cases vs with
    | nil => simp [HasTys] at h
    | cons v vs => simp [HasTys] at h; simp [ih h.2]

theorem hasTys_get {ts : List Ty} {vs : List Val} (h : HasTys ts vs) {i : Nat} {t : Ty} {v : Val} (ht : ts[i]? = some t) (hv : vs[i]? = some v) :
    HasTy t v := by
  induction ts generalizing vs i with
  | nil => simp at ht
  | cons t' ts ih => cases vs with
    | nil => simp at hv
    | cons v' vs =>
      simp only [HasTys] at h
      cases i with
      | zero => simp at ht hv; subst ht hv; exact h.1
      | succ i => exact ih h.2 (by simpa using ht) (by simpa using hv)

theorem mem_of_lookup {α : Type} {m : List (Text × α)} {k : Text} {v : α} (h : m.lookup k = some v) : (k, v) ∈ m := by
  induction m with
  | nil => simp at h
  | cons x m ih =>
    obtain ⟨k', v'⟩ := x
    rw [List.lookup_cons] at h
    split at h
    · rename_i e
      simp only [beq_iff_eq] at e
      subst e; cases h; simp
    · exact List.mem_cons_of_mem _ (ih h)

theorem slot_written {s : Slot} {v : Val} {w : GoRes JVal} (h : (slotMember s v w).isOk = true) (hno : ¬ LeftOut s.mode v) :
    ∃ j, w = .ok j := by
  obtain ⟨k, i, mode⟩ := s
  cases w with
  | ok j => exact ⟨j, rfl⟩
  | err e =>
    exfalso
    cases hn : v.isNil <;> cases he : v.isEmpty <;> cases mode <;> simp [slotMember, LeftOut, GoRes.bind, GoRes.isOk, hn, he] at h hno
  | panic e =>
    exfalso
    cases hn : v.isNil <;> cases he : v.isEmpty <;> cases mode <;> simp [slotMember, LeftOut, GoRes.bind, GoRes.isOk, hn, he] at h hno

/-- One struct, given the fields. -/
theorem struct_iff (F : FloatFmt) (info : StructInfo) (ts : List Ty) (props : List (Text × JSchema)) (required : List Text) (closed : Bool)
    (vs : List Val) (j : JVal) (hf : fits (.struct info ts) (.obj props required closed) = true) (hk : keysOk (.struct info ts) = true)
    (hv : HasTys ts vs) (h : wire F (.struct info ts) (.struct vs) = .ok j)
    (ih : ∀ (i : Nat) t v sch j, ts[i]? = some t → vs[i]? = some v → fits t sch = true → wire F t v = .ok j → (Conforms sch j ↔ Sound t sch v)) :
    Conforms (.obj props required closed) j ↔ Sound (.struct info ts) (.obj props required closed) (.struct vs) := by
  have hw := h
  simp only [wire] at hw
  rw [GoRes.bind_eq_ok] at hw
  obtain ⟨ms, h1, h2⟩ := hw
  cases h2
  simp only [fits, Bool.and_eq_true, decide_eq_true_eq] at hf
  obtain ⟨⟨hn, hr⟩, hff⟩ := hf
  obtain ⟨hl, hget⟩ := fitss_get hff
  have hl2 := hasTys_length hv
  have hmem := C01_member F info ts vs hk ms h
  -- every member is that of a field
  have hfield : ∀ k j, (k, j) ∈ ms → ∃ (i : Nat) (f : FieldInfo) (t : Ty) (v : Val), info.fields[i]? = some f ∧ ts[i]? = some t ∧ vs[i]? = some v ∧ k = f.json ∧
      wire F t v = .ok j ∧ ¬ LeftOut (fieldMode info f t) v := by
    intro k j hkj
    have hks := (slotMembers_keys h1).subset (List.mem_map_of_mem (f := Prod.fst) hkj)
    obtain ⟨s, hs, rfl⟩ := List.mem_map.1 hks
    obtain ⟨i, f, t, h3, h4, rfl⟩ := mem_slots.1 hs
    obtain ⟨v, h5⟩ : ∃ v, vs[i]? = some v := by
      have := (List.getElem?_eq_some_iff.1 h4).1
      exact ⟨_, List.getElem?_eq_getElem (by omega)⟩
    obtain ⟨h6, h7, h8⟩ := (hmem _ hs t v h4 h5 j).1 hkj
    refine ⟨i, f, t, v, h3, h4, h5, rfl, h6, ?_⟩
    rintro (h | h)
    · exact h7 h
    · exact h8 h
  have hfield' : ∀ (i : Nat) (f : FieldInfo) (t : Ty) (v : Val), info.fields[i]? = some f → ts[i]? = some t → vs[i]? = some v →
      ¬ LeftOut (fieldMode info f t) v → ∃ j, wire F t v = .ok j ∧ (f.json, j) ∈ ms := by
    intro i f t v h3 h4 h5 hno
    have hs : (⟨f.json, i, fieldMode info f t⟩ : Slot) ∈ slots info ts := mem_slots.2 ⟨i, f, t, h3, h4, rfl⟩
    have hok : (slotMember ⟨f.json, i, fieldMode info f t⟩ v (wire F t v)).isOk = true := by
      clear hmem hfield
      generalize slots info ts = ss at hs h1
      clear h
      induction ss generalizing ms with
      | nil => simp at hs
      | cons s' ss ih =>
        simp only [slotMembers] at h1
        rw [GoRes.bind_eq_ok] at h1
        obtain ⟨m, h2, h3⟩ := h1
        rw [GoRes.bind_eq_ok] at h3
        obtain ⟨ms', h3, _⟩ := h3
        rcases List.mem_cons.1 hs with rfl | hs
        · rw [getD_some h5, getD_some (wireAll_get h4 h5)] at h2
          simp [h2]
        · exact ih _ hs h3
    have hj := slot_written hok hno
    obtain ⟨j, hj⟩ := hj
    refine ⟨j, hj, (hmem _ hs t v h4 h5 j).2 ⟨hj, ?_, ?_⟩⟩
    · exact fun h => hno (.inl h)
    · exact fun h => hno (.inr h)
  simp only [Sound]
  rw [soundFields_iff hl hl2]
  constructor
  · intro hc
    cases hc with
    | obj hc1 hc2 hc3 =>
      intro i f t v h3 h4 h5
      by_cases hlo : LeftOut (fieldMode info f t) v
      · exact .inl hlo
      · right
        intro sch hsch
        obtain ⟨j, hj, hjm⟩ := hfield' i f t v h3 h4 h5 hlo
        have := hget i f t h3 h4
        rw [lookup_of_mem hn hsch] at this
        exact (ih i t v sch j h4 h5 this hj).1 (hc1 _ _ _ hsch hjm)
  · intro hsound
    refine .obj ?_ ?_ ?_
    · intro k sch j hsch hkj
      obtain ⟨i, f, t, v, h3, h4, h5, rfl, h6, h7⟩ := hfield k j hkj
      have := hget i f t h3 h4
      rw [lookup_of_mem hn hsch] at this
      rcases hsound i f t v h3 h4 h5 with hlo | hso
      · exact absurd hlo h7
      · exact (ih i t v sch j h4 h5 this h6).2 (hso sch hsch)
    · intro k hkr
      have := List.all_eq_true.1 hr k hkr
      obtain ⟨x, hx, hxk⟩ := List.any_eq_true.1 this
      simp only [Bool.and_eq_true, beq_iff_eq, Bool.not_eq_true'] at hxk
      obtain ⟨i, hi⟩ := List.getElem?_of_mem hx
      rw [List.getElem?_zip_eq_some] at hi
      obtain ⟨v, h5⟩ : ∃ v, vs[i]? = some v := by
        have := (List.getElem?_eq_some_iff.1 hi.2).1
        exact ⟨_, List.getElem?_eq_getElem (by omega)⟩
      have hno : ¬ LeftOut (fieldMode info x.1 x.2) v := by
        rintro (⟨h, -⟩ | ⟨h, -⟩) <;> rw [h] at hxk <;> simp [Mode.omits] at hxk
      obtain ⟨j, -, hj⟩ := hfield' i x.1 x.2 v hi.1 hi.2 h5 hno
      rw [← hxk.1]
      exact List.mem_map_of_mem (f := Prod.fst) hj
    · intro hcl k hk'
      obtain ⟨⟨k, j⟩, hkj, rfl⟩ := List.mem_map.1 hk'
      obtain ⟨i, f, t, v, h3, h4, h5, rfl, -, -⟩ := hfield k j hkj
      have := hget i f t h3 h4
      cases hlk : props.lookup f.json with
      | none => rw [hlk] at this; simp only [] at this; rw [this] at hcl; cases hcl
      | some s =>
        simp only []
        exact List.mem_map_of_mem (f := Prod.fst) (mem_of_lookup hlk)

theorem value_ofInt' (n : Int) : (NumLit.ofInt n).value = n := value_ofInt n

mutual
theorem conforms_iff (F : FloatFmt) (t : Ty) (v : Val) (sch : JSchema) (j : JVal) (hf : fits t sch = true) (hk : keysOk t = true)
    (hv : HasTy t v) (h : wire F t v = .ok j) : Conforms sch j ↔ Sound t sch v := by
  match t with
  | .str =>
    cases v <;> simp only [HasTy] at hv
    cases sch <;> simp only [fits, Bool.false_eq_true] at hf
    simp only [wire, GoRes.ok.injEq] at h
    subst h
    simp only [Sound]
    exact ⟨fun h => by cases h; assumption, .str⟩
  | .time =>
    cases v <;> simp only [HasTy] at hv
    cases sch <;> try simp only [fits, Bool.false_eq_true] at hf
    rename_i en ml
    simp only [wire, GoRes.ok.injEq] at h
    subst h
    simp only [Sound, iff_true]
    cases en <;> cases ml <;> simp only [fits, Bool.false_eq_true] at hf
    exact .str ⟨by simp, by simp⟩
  | .int b =>
    cases v <;> simp only [HasTy] at hv
    rename_i n
    simp only [wire, GoRes.ok.injEq] at h
    subst h
    cases sch <;> simp only [fits, Bool.false_eq_true] at hf <;> simp only [Sound, iff_true]
    · exact .int (value_ofInt' n)
    · exact .num
  | .float =>
    cases v <;> try simp only [HasTy] at hv
    rename_i q
    cases q <;> simp only [wire, GoRes.ok.injEq, reduceCtorEq] at h
    subst h
    cases sch <;> simp only [fits, Bool.false_eq_true] at hf <;> simp only [Sound, iff_true]
    exact .num
  | .bool =>
    cases v <;> simp only [HasTy] at hv
    simp only [wire, GoRes.ok.injEq] at h
    subst h
    cases sch <;> simp only [fits, Bool.false_eq_true] at hf <;> simp only [Sound, iff_true]
    exact .bool
  | .ptr t =>
    cases v <;> simp only [HasTy] at hv
    · simp only [wire, GoRes.ok.injEq] at h
      subst h
      simp only [Sound, iff_false]
      intro hc; cases hc
    · simp only [wire] at h
      simp only [fits] at hf
      simp only [keysOk] at hk
      simp only [Sound]
      exact conforms_iff F t _ sch j hf hk hv h
  | .slice t =>
    cases v <;> simp only [HasTy] at hv
    · simp only [wire, GoRes.ok.injEq] at h
      subst h
      cases sch <;> simp only [fits, Bool.false_eq_true] at hf
      simp only [Sound, iff_false]
      intro hc; cases hc
    · rename_i vs
      simp only [wire] at h
      rw [GoRes.bind_eq_ok] at h
      obtain ⟨js, h1, h2⟩ := h
      cases h2
      cases sch <;> simp only [fits, Bool.false_eq_true] at hf
      rename_i it
      simp only [keysOk] at hk
      simp only [Sound]
      have h3 := allOk_mem h1
      have hget : ∀ (i : Nat) v j, vs[i]? = some v → js[i]? = some j → wire F t v = .ok j := by
        intro i v j h4 h5
        have : (vs.map (wire F t))[i]? = (js.map GoRes.ok)[i]? := by rw [h3]
        simpa [h4, h5] using this
      have hlen : vs.length = js.length := by have := congrArg List.length h3; simpa using this
      constructor
      · intro hc v hvm
        cases hc with
        | arr hc =>
          obtain ⟨i, hi⟩ := List.getElem?_of_mem hvm
          obtain ⟨j, hj⟩ : ∃ j, js[i]? = some j := ⟨_, List.getElem?_eq_getElem (by have := (List.getElem?_eq_some_iff.1 hi).1; omega)⟩
          exact (conforms_iff F t v it j hf hk (hv v hvm) (hget i v j hi hj)).1 (hc j (List.mem_of_getElem? hj))
      · intro hs
        refine .arr fun j hjm => ?_
        obtain ⟨i, hi⟩ := List.getElem?_of_mem hjm
        obtain ⟨v, hvi⟩ : ∃ v, vs[i]? = some v := ⟨_, List.getElem?_eq_getElem (by have := (List.getElem?_eq_some_iff.1 hi).1; omega)⟩
        have hvm := List.mem_of_getElem? hvi
        exact (conforms_iff F t v it j hf hk (hv v hvm) (hget i v j hvi hi)).2 (hs v hvm)
  | .struct info ts =>
    cases v <;> simp only [HasTy] at hv
    rename_i vs
    cases sch with
    | obj props required closed => ?_
    | _ => simp only [fits, Bool.false_eq_true] at hf
    have hks : keysOks ts = true := by
      simp only [keysOk, Bool.and_eq_true] at hk
      exact hk.2
    exact struct_iff F info ts _ _ _ vs j hf hk hv h fun i t v sch j ht hvi hft hw =>
      conforms_all F ts i t ht v sch j hft (keysOks_get hks ht) (hasTys_get hv ht hvi) hw
  termination_by structural t
theorem conforms_all (F : FloatFmt) (ts : List Ty) (i : Nat) (t : Ty) (ht : ts[i]? = some t) (v : Val) (sch : JSchema) (j : JVal)
    (hf : fits t sch = true) (hk : keysOk t = true) (hv : HasTy t v) (h : wire F t v = .ok j) : Conforms sch j ↔ Sound t sch v := by
  match ts with
  | [] => simp at ht
  | t' :: ts =>
    match i with
    | 0 =>
      simp at ht
      subst ht
      exact conforms_iff F t' v sch j hf hk hv h
    | i + 1 => exact conforms_all F ts i t (by simpa using ht) v sch j hf hk hv h
  termination_by structural ts
end

/-- **C64** A message that is sent is valid against the schema file shipped for it exactly if its strings are allowed by the
schema's enumerations and lengths and none of the lists and objects that are written is nil: types, names, required and
further properties are always right. -/
theorem C64_conforms (F : FloatFmt) (m : MsgType) (v : Val) (hv : HasTy m.ty v) (text : Text) (h : marshal F m.ty v = .ok text) :
    ∃ j, JsonText j text ∧ (Conforms m.jschema j ↔ Sound m.ty m.jschema v) := by
  obtain ⟨ms, h1, -, h2⟩ := C01_readable F m v hv text h
  exact ⟨_, h1, conforms_iff F m.ty v m.jschema _ (fits_msg m) (keysOk_msg m) hv h2⟩

/-- A text stands for one value only, so "the message is invalid" can be said of any reading. -/
theorem not_conform (F : FloatFmt) (m : MsgType) (v : Val) (hv : HasTy m.ty v) (text : Text) (h : marshal F m.ty v = .ok text)
    (hs : ¬ Sound m.ty m.jschema v) : ∀ j, JsonText j text → ¬ Conforms m.jschema j := by
  intro j hj hc
  obtain ⟨j', h1, h2⟩ := C64_conforms F m v hv text h
  rw [jsonText_unique hj h1] at hc
  exact hs (h2.1 hc)

/-- **C64** A message with a (top-level, always written) string the schema does not allow — not in its enumeration, or too
long — is invalid.  This covers all optional enumerations that are left unset, since they are written as "". -/
theorem C64_bad_string (F : FloatFmt) (m : MsgType) (info : StructInfo) (ts : List Ty) (vs : List Val) (hty : m.ty = .struct info ts)
    (props : List (Text × JSchema)) (required : List Text) (closed : Bool) (hsch : m.jschema = .obj props required closed)
    (hv : HasTy m.ty (.struct vs)) (i : Nat) (f : FieldInfo) (s : Text) (en : Option (List Text)) (ml : Option Nat)
    (hf : info.fields[i]? = some f) (ht : ts[i]? = some .str) (hs : vs[i]? = some (.str s)) (hmode : fieldMode info f .str = .always)
    (hp : (f.json, .str en ml) ∈ props) (hbad : ¬ StrOk en ml s) (text : Text) (h : marshal F m.ty (.struct vs) = .ok text) :
    ∀ j, JsonText j text → ¬ Conforms m.jschema j := by
  refine not_conform F m _ hv text h ?_
  have hfit := fits_msg m
  rw [hty] at hv hfit ⊢
  rw [hsch] at hfit ⊢
  simp only [fits, Bool.and_eq_true, decide_eq_true_eq] at hfit
  simp only [HasTy] at hv
  simp only [Sound]
  rw [soundFields_iff (fitss_get hfit.2).1 (hasTys_length hv)]
  intro hall
  rcases hall i f .str _ hf ht hs with hlo | hso
  · rw [hmode] at hlo
    rcases hlo with ⟨h, -⟩ | ⟨h, -⟩ <;> cases h
  · have := hso _ hp
    simp only [Sound] at this
    exact hbad this

/-- **C64** A StopTransaction request whose optional reason is not set is sent with the reason "", which its schema does not
allow: whatever the other fields. -/
theorem C64_unset_reason (F : FloatFmt) (idTag meterStop ts data id : Val)
    (hv : HasTy cpreq.StopTransaction (.struct [idTag, meterStop, .str [], ts, data, id])) (text : Text)
    (h : marshal F cpreq.StopTransaction (.struct [idTag, meterStop, .str [], ts, data, id]) = .ok text) :
    ∀ j, JsonText j text → ¬ Conforms JSchemas.StopTransaction j :=
  C64_bad_string F (.req .cpreqStopTransaction) _ _ _ rfl _ _ _ rfl hv 2 _ [] _ _ rfl rfl rfl (by decide)
    (.tail _ (.tail _ (.tail _ (.tail _ (.head _))))) (fun hb => absurd (hb.1 _ rfl) (by decide)) text h

/-- **C64** Lengths are not checked before sending: an Authorize request can always be sent, and is valid exactly if its tag
has at most 20 characters. -/
theorem C64_tag_length (F : FloatFmt) (idTag : Text) :
    ∃ text j, marshal F cpreq.Authorize (.struct [.str idTag]) = .ok text ∧ JsonText j text ∧
      (Conforms JSchemas.Authorize j ↔ idTag.length ≤ 20) := by
  have hv : HasTy cpreq.Authorize (.struct [.str idTag]) := by simp [cpreq.Authorize, HasTy, HasTys]
  have hw : wire F cpreq.Authorize (.struct [.str idTag]) = .ok (.obj [("idTag".toList, .str idTag)]) := rfl
  have key : ∃ text, marshal F cpreq.Authorize (.struct [.str idTag]) = .ok text := by
    rcases C01_wellformed F (.req .cpreqAuthorize) _ hv with ⟨t, ms, h1, -⟩ | ⟨e, -, h2⟩ | ⟨e, -, h2⟩
    · exact ⟨t, h1⟩
    · have := hw.symm.trans h2; cases this
    · have := hw.symm.trans h2; cases this
  obtain ⟨text, ht⟩ := key
  obtain ⟨j, h1, h2⟩ := C64_conforms F (.req .cpreqAuthorize) _ hv text ht
  refine ⟨text, j, ht, h1, h2.trans ?_⟩
  show (SoundFields _ _ _ _ _) ↔ _
  constructor
  · rintro ⟨h, -⟩
    rcases h with h | h
    · exact absurd h (by rintro (⟨h, -⟩ | ⟨h, -⟩) <;> revert h <;> decide)
    · exact (h _ (.head _)).2 _ rfl
  · intro hl
    refine ⟨.inr ?_, trivial⟩
    intro sch hsch
    have : sch = .str none (some 20) := by
      have h := List.mem_singleton.1 hsch
      exact (Prod.mk.inj h).2
    subst this
    show StrOk _ _ _
    exact ⟨by simp, by simp; exact hl⟩

/-- The hypotheses of `C64_unset_reason` are met: such a request is encoded. -/
example (F : FloatFmt) : ∃ text, marshal F cpreq.StopTransaction (.struct [.str "tag".toList, .int 5, .str [], .time ⟨0, 0, 0⟩, .slice [], .int 1]) = .ok text := by
  have hv : HasTy cpreq.StopTransaction (.struct [.str "tag".toList, .int 5, .str [], .time ⟨0, 0, 0⟩, .slice [], .int 1]) := by
    simp [cpreq.StopTransaction, HasTy, HasTys]
  rcases C01_wellformed F (.req .cpreqStopTransaction) _ hv with ⟨t, ms, h1, -⟩ | ⟨e, -, h2⟩ | ⟨e, -, h2⟩
  · exact ⟨t, h1⟩
  · cases h2
  · cases h2

end Verif.Conf
