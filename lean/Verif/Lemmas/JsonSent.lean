import Verif.Spec.JsonSent
import Verif.Props.Conform
/-!
# The table of valid messages, row by row

The theorems from `row_cpreqAuthorize` on were written with a script.
-/
set_option linter.unusedSimpArgs false
set_option linter.unusedVariables false
namespace Verif.Conf

/-! ### The values of a type -/

theorem hasTys_cons {t : Ty} {ts : List Ty} {vs : List Val} (h : HasTys (t :: ts) vs) : ∃ v vs', vs = v :: vs' ∧ HasTy t v ∧ HasTys ts vs' := by
  cases vs with
  | nil => simp [HasTys] at h
  | cons v vs => exact ⟨v, vs, rfl, by simpa [HasTys] using h⟩
theorem hasTys_nil {vs : List Val} (h : HasTys [] vs) : vs = [] := by cases vs <;> simp [HasTys] at h ⊢
theorem hasTy_str {v : Val} (h : HasTy .str v) : ∃ s, v = .str s := by cases v <;> simp [HasTy] at h ⊢
theorem hasTy_int {b : Nat} {v : Val} (h : HasTy (.int b) v) : ∃ n, v = .int n := by cases v <;> simp [HasTy] at h ⊢
theorem hasTy_float {v : Val} (h : HasTy .float v) : ∃ n, v = .float n := by cases v <;> simp [HasTy] at h ⊢
theorem hasTy_bool {v : Val} (h : HasTy .bool v) : ∃ n, v = .bool n := by cases v <;> simp [HasTy] at h ⊢
theorem hasTy_time {v : Val} (h : HasTy .time v) : ∃ n, v = .time n := by cases v <;> simp [HasTy] at h ⊢

/-! ### Fields -/

/-- What `SoundFields` says of one field. -/
def FieldOk (info : StructInfo) (f : FieldInfo) (t : Ty) (props : List (Text × JSchema)) (v : Val) : Prop :=
  LeftOut (fieldMode info f t) v ∨ ∀ sch, (f.json, sch) ∈ props → Sound t sch v

section
variable {info : StructInfo} {f : FieldInfo} {fs : List FieldInfo} {t : Ty} {ts : List Ty} {props : List (Text × JSchema)} {v : Val} {vs : List Val}
  {A P : Prop}

theorem step_e : SoundFields info [] [] props [] ↔ True := by simp [SoundFields]
theorem step_c (h : FieldOk info f t props v ↔ A) (hr : SoundFields info fs ts props vs ↔ P) :
    SoundFields info (f :: fs) (t :: ts) props (v :: vs) ↔ A ∧ P := by
  simp only [SoundFields]; exact and_congr h hr
theorem step_t (h : FieldOk info f t props v ↔ True) (hr : SoundFields info fs ts props vs ↔ P) :
    SoundFields info (f :: fs) (t :: ts) props (v :: vs) ↔ P := (step_c h hr).trans (iff_of_eq (true_and _))
theorem step_l (h : FieldOk info f t props v ↔ A) (hr : SoundFields info fs ts props vs ↔ True) :
    SoundFields info (f :: fs) (t :: ts) props (v :: vs) ↔ A := (step_c h hr).trans (iff_of_eq (and_true _))

theorem f_mem {sch : JSchema} (hn : (props.map Prod.fst).Nodup) (hm : (f.json, sch) ∈ props) :
    FieldOk info f t props v ↔ LeftOut (fieldMode info f t) v ∨ Sound t sch v := by
  refine or_congr Iff.rfl ⟨fun h => h _ hm, fun h sch' hm' => ?_⟩
  have h1 := lookup_of_mem hn hm
  have h2 := lookup_of_mem hn hm'
  rw [h1] at h2
  cases h2
  exact h
theorem f_always {sch : JSchema} (hn : (props.map Prod.fst).Nodup) (hm : (f.json, sch) ∈ props)
    (ho : Mode.omits (fieldMode info f t) = false) (hS : Sound t sch v ↔ A) : FieldOk info f t props v ↔ A := by
  rw [f_mem hn hm, hS]
  refine ⟨fun h => h.elim ?_ id, .inr⟩
  rintro (⟨h, -⟩ | ⟨h, -⟩) <;> rw [h] at ho <;> cases ho
theorem f_nil {sch : JSchema} (hn : (props.map Prod.fst).Nodup) (hm : (f.json, sch) ∈ props)
    (ho : fieldMode info f t = .omitNil) (hS : Sound t sch v ↔ A) : FieldOk info f t props v ↔ v = .nil ∨ A := by
  rw [f_mem hn hm, hS, ho]
  refine or_congr ?_ Iff.rfl
  cases v <;> simp [LeftOut, Val.isNil]
theorem f_empty {sch : JSchema} (hv : HasTy (.ptr t) v) (hn : (props.map Prod.fst).Nodup) (hm : (f.json, sch) ∈ props)
    (ho : fieldMode info f (.ptr t) = .omitEmpty) (hS : Sound (.ptr t) sch v ↔ A) : FieldOk info f (.ptr t) props v ↔ v = .nil ∨ A := by
  rw [f_mem hn hm, hS, ho]
  refine or_congr ?_ Iff.rfl
  cases v <;> simp [LeftOut, Val.isEmpty, HasTy] at hv ⊢
/-- Types on which a schema demands nothing. -/
def plain : Ty → Bool
  | .int _ | .float | .bool | .time => true
  | _ => false
theorem sound_plain {t : Ty} (ht : plain t = true) (sch : JSchema) (v : Val) : Sound t sch v ↔ True := by
  cases t <;> simp [plain] at ht <;> simp [Sound]
theorem f_plain (ht : plain t = true) : FieldOk info f t props v ↔ True :=
  iff_true_intro (.inr fun sch _ => (sound_plain ht sch v).2 trivial)
theorem f_time (hv : HasTy (.ptr .time) v) (ho : fieldMode info f (.ptr .time) = .omitNil) : FieldOk info f (.ptr .time) props v ↔ True := by
  refine iff_true_intro ?_
  unfold FieldOk
  rw [ho]
  cases v <;> simp [HasTy] at hv <;> simp [LeftOut, Val.isNil, Sound]
theorem f_text {s : Text} (hn : (props.map Prod.fst).Nodup) (hm : (f.json, .str none none) ∈ props) : FieldOk info f .str props (.str s) ↔ True := by
  rw [f_mem hn hm]
  simp [Sound, StrOk]
theorem f_none (hm : f.json ∉ props.map Prod.fst) : FieldOk info f t props v ↔ True := by
  refine iff_true_intro (.inr fun sch h => ?_)
  exact absurd (List.mem_map_of_mem (f := Prod.fst) h) hm
end

/-! ### Strings, objects, lists -/

theorem s_len {n : Nat} {s : Text} : Sound .str (.str none (some n)) (.str s) ↔ UpTo n s := by simp [Sound, StrOk, UpTo]
theorem s_enum {l : List Text} {names : List String} {s : Text} (h : names.map String.toList = l) : Sound .str (.str (some l) none) (.str s) ↔ OneOf names s := by
  subst h
  simp [Sound, StrOk, OneOf]
theorem s_enumP {l : List Text} {names : List String} {s : Text} (h : (names.map String.toList).Perm l) : Sound .str (.str (some l) none) (.str s) ↔ OneOf names s := by
  simp only [Sound, StrOk, OneOf]
  have := h.mem_iff (a := s)
  simp at this
  simp [this]
theorem s_obj {info : StructInfo} {ts : List Ty} {props : List (Text × JSchema)} {required : List Text} {closed : Bool} {P : List Val → Prop} {v : Val}
    (hv : HasTy (.ptr (.struct info ts)) v) (h : ∀ vs, HasTys ts vs → (SoundFields info info.fields ts props vs ↔ P vs)) :
    Sound (.ptr (.struct info ts)) (.obj props required closed) v ↔ Object P v := by
  cases v <;> simp only [HasTy] at hv
  · simp [Sound, Object]
  · rename_i v
    cases v <;> simp only [HasTy] at hv
    simp [Sound, Object, h _ hv]
theorem s_list {t : Ty} {it : JSchema} {P : Val → Prop} {v : Val} (hv : HasTy (.slice t) v) (h : ∀ v, HasTy t v → (Sound t it v ↔ P v)) :
    Sound (.slice t) (.arr it) v ↔ Entries P v := by
  cases v <;> simp only [HasTy] at hv
  · simp [Sound, Entries]
  · rename_i vs
    simp only [Sound, Entries, Val.slice.injEq, exists_eq_left']
    exact forall₂_congr fun v hm => h v (hv v hm)
theorem s_strs {n : Nat} {v : Val} (hv : HasTy .str v) : Sound .str (.str none (some n)) v ↔ Str (UpTo n) v := by
  obtain ⟨s, rfl⟩ := hasTy_str hv
  rw [s_len]
  simp [Str]
theorem s_struct {info : StructInfo} {ts : List Ty} {props : List (Text × JSchema)} {required : List Text} {closed : Bool} {P : Prop} {vs : List Val}
    (h : SoundFields info info.fields ts props vs ↔ P) : Sound (.struct info ts) (.obj props required closed) (.struct vs) ↔ P := by
  simpa only [Sound] using h

/-! ### Rows -/


set_option maxRecDepth 8000 in
theorem row_cpreqAuthorize {vs : List Val} (h : HasTy (ReqType.cpreqAuthorize).ty (.struct vs)) : Sound (ReqType.cpreqAuthorize).ty (ReqType.cpreqAuthorize).jschema (.struct vs) ↔ JsonReqOk .cpreqAuthorize vs := by
  refine s_struct ?_
  have h0 : HasTys _ vs := h
  obtain ⟨v1_0, r1_0, rfl, g1_0, h1_0⟩ := hasTys_cons h0
  obtain ⟨x1_0, rfl⟩ := hasTy_str g1_0
  obtain rfl := hasTys_nil h1_0
  refine step_l (f_always (by decide) (.head _) (by decide) s_len) ?_
  exact step_e

set_option maxRecDepth 8000 in
theorem row_cpreqBootNotification {vs : List Val} (h : HasTy (ReqType.cpreqBootNotification).ty (.struct vs)) : Sound (ReqType.cpreqBootNotification).ty (ReqType.cpreqBootNotification).jschema (.struct vs) ↔ JsonReqOk .cpreqBootNotification vs := by
  refine s_struct ?_
  have h0 : HasTys _ vs := h
  obtain ⟨v2_0, r2_0, rfl, g2_0, h2_0⟩ := hasTys_cons h0
  obtain ⟨x2_0, rfl⟩ := hasTy_str g2_0
  obtain ⟨v2_1, r2_1, rfl, g2_1, h2_1⟩ := hasTys_cons h2_0
  obtain ⟨x2_1, rfl⟩ := hasTy_str g2_1
  obtain ⟨v2_2, r2_2, rfl, g2_2, h2_2⟩ := hasTys_cons h2_1
  obtain ⟨x2_2, rfl⟩ := hasTy_str g2_2
  obtain ⟨v2_3, r2_3, rfl, g2_3, h2_3⟩ := hasTys_cons h2_2
  obtain ⟨x2_3, rfl⟩ := hasTy_str g2_3
  obtain ⟨v2_4, r2_4, rfl, g2_4, h2_4⟩ := hasTys_cons h2_3
  obtain ⟨x2_4, rfl⟩ := hasTy_str g2_4
  obtain ⟨v2_5, r2_5, rfl, g2_5, h2_5⟩ := hasTys_cons h2_4
  obtain ⟨x2_5, rfl⟩ := hasTy_str g2_5
  obtain ⟨v2_6, r2_6, rfl, g2_6, h2_6⟩ := hasTys_cons h2_5
  obtain ⟨x2_6, rfl⟩ := hasTy_str g2_6
  obtain ⟨v2_7, r2_7, rfl, g2_7, h2_7⟩ := hasTys_cons h2_6
  obtain ⟨x2_7, rfl⟩ := hasTy_str g2_7
  obtain ⟨v2_8, r2_8, rfl, g2_8, h2_8⟩ := hasTys_cons h2_7
  obtain ⟨x2_8, rfl⟩ := hasTy_str g2_8
  obtain rfl := hasTys_nil h2_8
  refine step_c (f_always (by decide) (.tail _ (.tail _ (.tail _ (.head _)))) (by decide) s_len) ?_
  refine step_c (f_always (by decide) (.tail _ (.head _)) (by decide) s_len) ?_
  refine step_c (f_always (by decide) (.tail _ (.tail _ (.head _))) (by decide) s_len) ?_
  refine step_c (f_always (by decide) (.head _) (by decide) s_len) ?_
  refine step_c (f_always (by decide) (.tail _ (.tail _ (.tail _ (.tail _ (.head _))))) (by decide) s_len) ?_
  refine step_c (f_always (by decide) (.tail _ (.tail _ (.tail _ (.tail _ (.tail _ (.head _)))))) (by decide) s_len) ?_
  refine step_c (f_always (by decide) (.tail _ (.tail _ (.tail _ (.tail _ (.tail _ (.tail _ (.head _))))))) (by decide) s_len) ?_
  refine step_c (f_always (by decide) (.tail _ (.tail _ (.tail _ (.tail _ (.tail _ (.tail _ (.tail _ (.tail _ (.head _))))))))) (by decide) s_len) ?_
  refine step_l (f_always (by decide) (.tail _ (.tail _ (.tail _ (.tail _ (.tail _ (.tail _ (.tail _ (.head _)))))))) (by decide) s_len) ?_
  exact step_e

set_option maxRecDepth 8000 in
theorem row_cpreqDataTransfer {vs : List Val} (h : HasTy (ReqType.cpreqDataTransfer).ty (.struct vs)) : Sound (ReqType.cpreqDataTransfer).ty (ReqType.cpreqDataTransfer).jschema (.struct vs) ↔ JsonReqOk .cpreqDataTransfer vs := by
  refine s_struct ?_
  have h0 : HasTys _ vs := h
  obtain ⟨v3_0, r3_0, rfl, g3_0, h3_0⟩ := hasTys_cons h0
  obtain ⟨x3_0, rfl⟩ := hasTy_str g3_0
  obtain ⟨v3_1, r3_1, rfl, g3_1, h3_1⟩ := hasTys_cons h3_0
  obtain ⟨x3_1, rfl⟩ := hasTy_str g3_1
  obtain ⟨v3_2, r3_2, rfl, g3_2, h3_2⟩ := hasTys_cons h3_1
  obtain ⟨x3_2, rfl⟩ := hasTy_str g3_2
  obtain rfl := hasTys_nil h3_2
  refine step_t (f_text (by decide) (.tail _ (.tail _ (.head _)))) ?_
  refine step_c (f_always (by decide) (.tail _ (.head _)) (by decide) s_len) ?_
  refine step_l (f_always (by decide) (.head _) (by decide) s_len) ?_
  exact step_e

set_option maxRecDepth 8000 in
theorem row_cpreqDiagnosticsStatusNotification {vs : List Val} (h : HasTy (ReqType.cpreqDiagnosticsStatusNotification).ty (.struct vs)) : Sound (ReqType.cpreqDiagnosticsStatusNotification).ty (ReqType.cpreqDiagnosticsStatusNotification).jschema (.struct vs) ↔ JsonReqOk .cpreqDiagnosticsStatusNotification vs := by
  refine s_struct ?_
  have h0 : HasTys _ vs := h
  obtain ⟨v4_0, r4_0, rfl, g4_0, h4_0⟩ := hasTys_cons h0
  obtain ⟨x4_0, rfl⟩ := hasTy_str g4_0
  obtain rfl := hasTys_nil h4_0
  refine step_l (f_always (by decide) (.head _) (by decide) (s_enum rfl)) ?_
  exact step_e

set_option maxRecDepth 8000 in
theorem row_cpreqFirmwareStatusNotification {vs : List Val} (h : HasTy (ReqType.cpreqFirmwareStatusNotification).ty (.struct vs)) : Sound (ReqType.cpreqFirmwareStatusNotification).ty (ReqType.cpreqFirmwareStatusNotification).jschema (.struct vs) ↔ JsonReqOk .cpreqFirmwareStatusNotification vs := by
  refine s_struct ?_
  have h0 : HasTys _ vs := h
  obtain ⟨v5_0, r5_0, rfl, g5_0, h5_0⟩ := hasTys_cons h0
  obtain ⟨x5_0, rfl⟩ := hasTy_str g5_0
  obtain rfl := hasTys_nil h5_0
  refine step_l (f_always (by decide) (.head _) (by decide) (s_enum rfl)) ?_
  exact step_e

set_option maxRecDepth 8000 in
theorem row_cpreqHeartbeat {vs : List Val} (h : HasTy (ReqType.cpreqHeartbeat).ty (.struct vs)) : Sound (ReqType.cpreqHeartbeat).ty (ReqType.cpreqHeartbeat).jschema (.struct vs) ↔ JsonReqOk .cpreqHeartbeat vs := by
  refine s_struct ?_
  have h0 : HasTys _ vs := h
  obtain rfl := hasTys_nil h0
  exact step_e

set_option maxRecDepth 8000 in
theorem row_cpreqMeterValues {vs : List Val} (h : HasTy (ReqType.cpreqMeterValues).ty (.struct vs)) : Sound (ReqType.cpreqMeterValues).ty (ReqType.cpreqMeterValues).jschema (.struct vs) ↔ JsonReqOk .cpreqMeterValues vs := by
  refine s_struct ?_
  have h0 : HasTys _ vs := h
  obtain ⟨v7_0, r7_0, rfl, g7_0, h7_0⟩ := hasTys_cons h0
  obtain ⟨x7_0, rfl⟩ := hasTy_int g7_0
  obtain ⟨v7_1, r7_1, rfl, g7_1, h7_1⟩ := hasTys_cons h7_0
  obtain ⟨v7_2, r7_2, rfl, g7_2, h7_2⟩ := hasTys_cons h7_1
  obtain ⟨x7_2, rfl⟩ := hasTy_int g7_2
  obtain rfl := hasTys_nil h7_2
  refine step_t (f_plain rfl) ?_
  refine step_l (f_always (by decide) (.tail _ (.tail _ (.head _))) (by decide) (s_list g7_1 fun v8 k8 => s_obj k8 fun vs9 h9 => by
      obtain ⟨v10_0, r10_0, rfl, g10_0, h10_0⟩ := hasTys_cons h9
      obtain ⟨v10_1, r10_1, rfl, g10_1, h10_1⟩ := hasTys_cons h10_0
      obtain ⟨x10_1, rfl⟩ := hasTy_time g10_1
      obtain rfl := hasTys_nil h10_1
      refine step_l (f_always (by decide) (.tail _ (.head _)) (by decide) (s_list g10_0 fun v11 k11 => s_obj k11 fun vs12 h12 => by
          obtain ⟨v13_0, r13_0, rfl, g13_0, h13_0⟩ := hasTys_cons h12
          obtain ⟨x13_0, rfl⟩ := hasTy_str g13_0
          obtain ⟨v13_1, r13_1, rfl, g13_1, h13_1⟩ := hasTys_cons h13_0
          obtain ⟨x13_1, rfl⟩ := hasTy_str g13_1
          obtain ⟨v13_2, r13_2, rfl, g13_2, h13_2⟩ := hasTys_cons h13_1
          obtain ⟨x13_2, rfl⟩ := hasTy_str g13_2
          obtain ⟨v13_3, r13_3, rfl, g13_3, h13_3⟩ := hasTys_cons h13_2
          obtain ⟨x13_3, rfl⟩ := hasTy_str g13_3
          obtain ⟨v13_4, r13_4, rfl, g13_4, h13_4⟩ := hasTys_cons h13_3
          obtain ⟨x13_4, rfl⟩ := hasTy_str g13_4
          obtain ⟨v13_5, r13_5, rfl, g13_5, h13_5⟩ := hasTys_cons h13_4
          obtain ⟨x13_5, rfl⟩ := hasTy_str g13_5
          obtain ⟨v13_6, r13_6, rfl, g13_6, h13_6⟩ := hasTys_cons h13_5
          obtain ⟨x13_6, rfl⟩ := hasTy_str g13_6
          obtain rfl := hasTys_nil h13_6
          refine step_c (f_always (by decide) (.tail _ (.head _)) (by decide) (s_enum rfl)) ?_
          refine step_c (f_always (by decide) (.tail _ (.tail _ (.head _))) (by decide) (s_enum rfl)) ?_
          refine step_c (f_always (by decide) (.tail _ (.tail _ (.tail _ (.tail _ (.tail _ (.head _)))))) (by decide) (s_enum rfl)) ?_
          refine step_c (f_always (by decide) (.tail _ (.tail _ (.tail _ (.head _)))) (by decide) (s_enum rfl)) ?_
          refine step_c (f_always (by decide) (.tail _ (.tail _ (.tail _ (.tail _ (.head _))))) (by decide) (s_enum rfl)) ?_
          refine step_l (f_always (by decide) (.tail _ (.tail _ (.tail _ (.tail _ (.tail _ (.tail _ (.head _))))))) (by decide) (s_enum rfl)) ?_
          refine step_t (f_text (by decide) (.head _)) ?_
          exact step_e)) ?_
      refine step_t (f_plain rfl) ?_
      exact step_e)) ?_
  refine step_t (f_plain rfl) ?_
  exact step_e

set_option maxRecDepth 8000 in
theorem row_cpreqStartTransaction {vs : List Val} (h : HasTy (ReqType.cpreqStartTransaction).ty (.struct vs)) : Sound (ReqType.cpreqStartTransaction).ty (ReqType.cpreqStartTransaction).jschema (.struct vs) ↔ JsonReqOk .cpreqStartTransaction vs := by
  refine s_struct ?_
  have h0 : HasTys _ vs := h
  obtain ⟨v14_0, r14_0, rfl, g14_0, h14_0⟩ := hasTys_cons h0
  obtain ⟨x14_0, rfl⟩ := hasTy_int g14_0
  obtain ⟨v14_1, r14_1, rfl, g14_1, h14_1⟩ := hasTys_cons h14_0
  obtain ⟨x14_1, rfl⟩ := hasTy_str g14_1
  obtain ⟨v14_2, r14_2, rfl, g14_2, h14_2⟩ := hasTys_cons h14_1
  obtain ⟨x14_2, rfl⟩ := hasTy_int g14_2
  obtain ⟨v14_3, r14_3, rfl, g14_3, h14_3⟩ := hasTys_cons h14_2
  obtain ⟨x14_3, rfl⟩ := hasTy_int g14_3
  obtain ⟨v14_4, r14_4, rfl, g14_4, h14_4⟩ := hasTys_cons h14_3
  obtain ⟨x14_4, rfl⟩ := hasTy_time g14_4
  obtain rfl := hasTys_nil h14_4
  refine step_t (f_plain rfl) ?_
  refine step_l (f_always (by decide) (.tail _ (.head _)) (by decide) s_len) ?_
  refine step_t (f_plain rfl) ?_
  refine step_t (f_plain rfl) ?_
  refine step_t (f_plain rfl) ?_
  exact step_e

set_option maxRecDepth 8000 in
theorem row_cpreqStatusNotification {vs : List Val} (h : HasTy (ReqType.cpreqStatusNotification).ty (.struct vs)) : Sound (ReqType.cpreqStatusNotification).ty (ReqType.cpreqStatusNotification).jschema (.struct vs) ↔ JsonReqOk .cpreqStatusNotification vs := by
  refine s_struct ?_
  have h0 : HasTys _ vs := h
  obtain ⟨v15_0, r15_0, rfl, g15_0, h15_0⟩ := hasTys_cons h0
  obtain ⟨x15_0, rfl⟩ := hasTy_int g15_0
  obtain ⟨v15_1, r15_1, rfl, g15_1, h15_1⟩ := hasTys_cons h15_0
  obtain ⟨x15_1, rfl⟩ := hasTy_str g15_1
  obtain ⟨v15_2, r15_2, rfl, g15_2, h15_2⟩ := hasTys_cons h15_1
  obtain ⟨x15_2, rfl⟩ := hasTy_str g15_2
  obtain ⟨v15_3, r15_3, rfl, g15_3, h15_3⟩ := hasTys_cons h15_2
  obtain ⟨x15_3, rfl⟩ := hasTy_str g15_3
  obtain ⟨v15_4, r15_4, rfl, g15_4, h15_4⟩ := hasTys_cons h15_3
  obtain ⟨v15_5, r15_5, rfl, g15_5, h15_5⟩ := hasTys_cons h15_4
  obtain ⟨x15_5, rfl⟩ := hasTy_str g15_5
  obtain ⟨v15_6, r15_6, rfl, g15_6, h15_6⟩ := hasTys_cons h15_5
  obtain ⟨x15_6, rfl⟩ := hasTy_str g15_6
  obtain rfl := hasTys_nil h15_6
  refine step_t (f_plain rfl) ?_
  refine step_c (f_always (by decide) (.tail _ (.head _)) (by decide) (s_enumP (by decide))) ?_
  refine step_c (f_always (by decide) (.tail _ (.tail _ (.head _))) (by decide) s_len) ?_
  refine step_c (f_always (by decide) (.tail _ (.tail _ (.tail _ (.head _)))) (by decide) (s_enum rfl)) ?_
  refine step_t (f_time g15_4 (by decide)) ?_
  refine step_c (f_always (by decide) (.tail _ (.tail _ (.tail _ (.tail _ (.tail _ (.tail _ (.head _))))))) (by decide) s_len) ?_
  refine step_l (f_always (by decide) (.tail _ (.tail _ (.tail _ (.tail _ (.tail _ (.head _)))))) (by decide) s_len) ?_
  exact step_e

set_option maxRecDepth 8000 in
theorem row_cpreqStopTransaction {vs : List Val} (h : HasTy (ReqType.cpreqStopTransaction).ty (.struct vs)) : Sound (ReqType.cpreqStopTransaction).ty (ReqType.cpreqStopTransaction).jschema (.struct vs) ↔ JsonReqOk .cpreqStopTransaction vs := by
  refine s_struct ?_
  have h0 : HasTys _ vs := h
  obtain ⟨v16_0, r16_0, rfl, g16_0, h16_0⟩ := hasTys_cons h0
  obtain ⟨x16_0, rfl⟩ := hasTy_str g16_0
  obtain ⟨v16_1, r16_1, rfl, g16_1, h16_1⟩ := hasTys_cons h16_0
  obtain ⟨x16_1, rfl⟩ := hasTy_int g16_1
  obtain ⟨v16_2, r16_2, rfl, g16_2, h16_2⟩ := hasTys_cons h16_1
  obtain ⟨x16_2, rfl⟩ := hasTy_str g16_2
  obtain ⟨v16_3, r16_3, rfl, g16_3, h16_3⟩ := hasTys_cons h16_2
  obtain ⟨x16_3, rfl⟩ := hasTy_time g16_3
  obtain ⟨v16_4, r16_4, rfl, g16_4, h16_4⟩ := hasTys_cons h16_3
  obtain ⟨v16_5, r16_5, rfl, g16_5, h16_5⟩ := hasTys_cons h16_4
  obtain ⟨x16_5, rfl⟩ := hasTy_int g16_5
  obtain rfl := hasTys_nil h16_5
  refine step_c (f_always (by decide) (.head _) (by decide) s_len) ?_
  refine step_t (f_plain rfl) ?_
  refine step_c (f_always (by decide) (.tail _ (.tail _ (.tail _ (.tail _ (.head _))))) (by decide) (s_enum rfl)) ?_
  refine step_t (f_plain rfl) ?_
  refine step_l (f_always (by decide) (.tail _ (.tail _ (.tail _ (.tail _ (.tail _ (.head _)))))) (by decide) (s_list g16_4 fun v17 k17 => s_obj k17 fun vs18 h18 => by
      obtain ⟨v19_0, r19_0, rfl, g19_0, h19_0⟩ := hasTys_cons h18
      obtain ⟨v19_1, r19_1, rfl, g19_1, h19_1⟩ := hasTys_cons h19_0
      obtain ⟨x19_1, rfl⟩ := hasTy_time g19_1
      obtain rfl := hasTys_nil h19_1
      refine step_l (f_always (by decide) (.tail _ (.head _)) (by decide) (s_list g19_0 fun v20 k20 => s_obj k20 fun vs21 h21 => by
          obtain ⟨v22_0, r22_0, rfl, g22_0, h22_0⟩ := hasTys_cons h21
          obtain ⟨x22_0, rfl⟩ := hasTy_str g22_0
          obtain ⟨v22_1, r22_1, rfl, g22_1, h22_1⟩ := hasTys_cons h22_0
          obtain ⟨x22_1, rfl⟩ := hasTy_str g22_1
          obtain ⟨v22_2, r22_2, rfl, g22_2, h22_2⟩ := hasTys_cons h22_1
          obtain ⟨x22_2, rfl⟩ := hasTy_str g22_2
          obtain ⟨v22_3, r22_3, rfl, g22_3, h22_3⟩ := hasTys_cons h22_2
          obtain ⟨x22_3, rfl⟩ := hasTy_str g22_3
          obtain ⟨v22_4, r22_4, rfl, g22_4, h22_4⟩ := hasTys_cons h22_3
          obtain ⟨x22_4, rfl⟩ := hasTy_str g22_4
          obtain ⟨v22_5, r22_5, rfl, g22_5, h22_5⟩ := hasTys_cons h22_4
          obtain ⟨x22_5, rfl⟩ := hasTy_str g22_5
          obtain ⟨v22_6, r22_6, rfl, g22_6, h22_6⟩ := hasTys_cons h22_5
          obtain ⟨x22_6, rfl⟩ := hasTy_str g22_6
          obtain rfl := hasTys_nil h22_6
          refine step_c (f_always (by decide) (.tail _ (.head _)) (by decide) (s_enum rfl)) ?_
          refine step_c (f_always (by decide) (.tail _ (.tail _ (.head _))) (by decide) (s_enum rfl)) ?_
          refine step_c (f_always (by decide) (.tail _ (.tail _ (.tail _ (.tail _ (.tail _ (.head _)))))) (by decide) (s_enum rfl)) ?_
          refine step_c (f_always (by decide) (.tail _ (.tail _ (.tail _ (.head _)))) (by decide) (s_enum rfl)) ?_
          refine step_c (f_always (by decide) (.tail _ (.tail _ (.tail _ (.tail _ (.head _))))) (by decide) (s_enum rfl)) ?_
          refine step_l (f_always (by decide) (.tail _ (.tail _ (.tail _ (.tail _ (.tail _ (.tail _ (.head _))))))) (by decide) (s_enum rfl)) ?_
          refine step_t (f_text (by decide) (.head _)) ?_
          exact step_e)) ?_
      refine step_t (f_plain rfl) ?_
      exact step_e)) ?_
  refine step_t (f_plain rfl) ?_
  exact step_e

set_option maxRecDepth 8000 in
theorem row_csreqCancelReservation {vs : List Val} (h : HasTy (ReqType.csreqCancelReservation).ty (.struct vs)) : Sound (ReqType.csreqCancelReservation).ty (ReqType.csreqCancelReservation).jschema (.struct vs) ↔ JsonReqOk .csreqCancelReservation vs := by
  refine s_struct ?_
  have h0 : HasTys _ vs := h
  obtain ⟨v23_0, r23_0, rfl, g23_0, h23_0⟩ := hasTys_cons h0
  obtain ⟨x23_0, rfl⟩ := hasTy_int g23_0
  obtain rfl := hasTys_nil h23_0
  refine step_t (f_plain rfl) ?_
  exact step_e

set_option maxRecDepth 8000 in
theorem row_csreqChangeAvailability {vs : List Val} (h : HasTy (ReqType.csreqChangeAvailability).ty (.struct vs)) : Sound (ReqType.csreqChangeAvailability).ty (ReqType.csreqChangeAvailability).jschema (.struct vs) ↔ JsonReqOk .csreqChangeAvailability vs := by
  refine s_struct ?_
  have h0 : HasTys _ vs := h
  obtain ⟨v24_0, r24_0, rfl, g24_0, h24_0⟩ := hasTys_cons h0
  obtain ⟨x24_0, rfl⟩ := hasTy_int g24_0
  obtain ⟨v24_1, r24_1, rfl, g24_1, h24_1⟩ := hasTys_cons h24_0
  obtain ⟨x24_1, rfl⟩ := hasTy_str g24_1
  obtain rfl := hasTys_nil h24_1
  refine step_t (f_plain rfl) ?_
  refine step_l (f_always (by decide) (.tail _ (.head _)) (by decide) (s_enum rfl)) ?_
  exact step_e

set_option maxRecDepth 8000 in
theorem row_csreqChangeConfiguration {vs : List Val} (h : HasTy (ReqType.csreqChangeConfiguration).ty (.struct vs)) : Sound (ReqType.csreqChangeConfiguration).ty (ReqType.csreqChangeConfiguration).jschema (.struct vs) ↔ JsonReqOk .csreqChangeConfiguration vs := by
  refine s_struct ?_
  have h0 : HasTys _ vs := h
  obtain ⟨v25_0, r25_0, rfl, g25_0, h25_0⟩ := hasTys_cons h0
  obtain ⟨x25_0, rfl⟩ := hasTy_str g25_0
  obtain ⟨v25_1, r25_1, rfl, g25_1, h25_1⟩ := hasTys_cons h25_0
  obtain ⟨x25_1, rfl⟩ := hasTy_str g25_1
  obtain rfl := hasTys_nil h25_1
  refine step_c (f_always (by decide) (.head _) (by decide) s_len) ?_
  refine step_l (f_always (by decide) (.tail _ (.head _)) (by decide) s_len) ?_
  exact step_e

set_option maxRecDepth 8000 in
theorem row_csreqClearCache {vs : List Val} (h : HasTy (ReqType.csreqClearCache).ty (.struct vs)) : Sound (ReqType.csreqClearCache).ty (ReqType.csreqClearCache).jschema (.struct vs) ↔ JsonReqOk .csreqClearCache vs := by
  refine s_struct ?_
  have h0 : HasTys _ vs := h
  obtain rfl := hasTys_nil h0
  exact step_e

set_option maxRecDepth 8000 in
theorem row_csreqClearChargingProfile {vs : List Val} (h : HasTy (ReqType.csreqClearChargingProfile).ty (.struct vs)) : Sound (ReqType.csreqClearChargingProfile).ty (ReqType.csreqClearChargingProfile).jschema (.struct vs) ↔ JsonReqOk .csreqClearChargingProfile vs := by
  refine s_struct ?_
  have h0 : HasTys _ vs := h
  obtain ⟨v27_0, r27_0, rfl, g27_0, h27_0⟩ := hasTys_cons h0
  obtain ⟨x27_0, rfl⟩ := hasTy_str g27_0
  obtain ⟨v27_1, r27_1, rfl, g27_1, h27_1⟩ := hasTys_cons h27_0
  obtain ⟨x27_1, rfl⟩ := hasTy_int g27_1
  obtain ⟨v27_2, r27_2, rfl, g27_2, h27_2⟩ := hasTys_cons h27_1
  obtain ⟨x27_2, rfl⟩ := hasTy_int g27_2
  obtain ⟨v27_3, r27_3, rfl, g27_3, h27_3⟩ := hasTys_cons h27_2
  obtain ⟨x27_3, rfl⟩ := hasTy_int g27_3
  obtain rfl := hasTys_nil h27_3
  refine step_l (f_always (by decide) (.tail _ (.tail _ (.head _))) (by decide) (s_enum rfl)) ?_
  refine step_t (f_plain rfl) ?_
  refine step_t (f_plain rfl) ?_
  refine step_t (f_plain rfl) ?_
  exact step_e

set_option maxRecDepth 8000 in
theorem row_csreqDataTransfer {vs : List Val} (h : HasTy (ReqType.csreqDataTransfer).ty (.struct vs)) : Sound (ReqType.csreqDataTransfer).ty (ReqType.csreqDataTransfer).jschema (.struct vs) ↔ JsonReqOk .csreqDataTransfer vs := by
  refine s_struct ?_
  have h0 : HasTys _ vs := h
  obtain ⟨v28_0, r28_0, rfl, g28_0, h28_0⟩ := hasTys_cons h0
  obtain ⟨x28_0, rfl⟩ := hasTy_str g28_0
  obtain ⟨v28_1, r28_1, rfl, g28_1, h28_1⟩ := hasTys_cons h28_0
  obtain ⟨x28_1, rfl⟩ := hasTy_str g28_1
  obtain ⟨v28_2, r28_2, rfl, g28_2, h28_2⟩ := hasTys_cons h28_1
  obtain ⟨x28_2, rfl⟩ := hasTy_str g28_2
  obtain rfl := hasTys_nil h28_2
  refine step_t (f_text (by decide) (.tail _ (.tail _ (.head _)))) ?_
  refine step_c (f_always (by decide) (.tail _ (.head _)) (by decide) s_len) ?_
  refine step_l (f_always (by decide) (.head _) (by decide) s_len) ?_
  exact step_e

set_option maxRecDepth 8000 in
theorem row_csreqGetCompositeSchedule {vs : List Val} (h : HasTy (ReqType.csreqGetCompositeSchedule).ty (.struct vs)) : Sound (ReqType.csreqGetCompositeSchedule).ty (ReqType.csreqGetCompositeSchedule).jschema (.struct vs) ↔ JsonReqOk .csreqGetCompositeSchedule vs := by
  refine s_struct ?_
  have h0 : HasTys _ vs := h
  obtain ⟨v29_0, r29_0, rfl, g29_0, h29_0⟩ := hasTys_cons h0
  obtain ⟨x29_0, rfl⟩ := hasTy_str g29_0
  obtain ⟨v29_1, r29_1, rfl, g29_1, h29_1⟩ := hasTys_cons h29_0
  obtain ⟨x29_1, rfl⟩ := hasTy_int g29_1
  obtain ⟨v29_2, r29_2, rfl, g29_2, h29_2⟩ := hasTys_cons h29_1
  obtain ⟨x29_2, rfl⟩ := hasTy_int g29_2
  obtain rfl := hasTys_nil h29_2
  refine step_l (f_always (by decide) (.tail _ (.tail _ (.head _))) (by decide) (s_enum rfl)) ?_
  refine step_t (f_plain rfl) ?_
  refine step_t (f_plain rfl) ?_
  exact step_e

set_option maxRecDepth 8000 in
theorem row_csreqGetConfiguration {vs : List Val} (h : HasTy (ReqType.csreqGetConfiguration).ty (.struct vs)) : Sound (ReqType.csreqGetConfiguration).ty (ReqType.csreqGetConfiguration).jschema (.struct vs) ↔ JsonReqOk .csreqGetConfiguration vs := by
  refine s_struct ?_
  have h0 : HasTys _ vs := h
  obtain ⟨v30_0, r30_0, rfl, g30_0, h30_0⟩ := hasTys_cons h0
  obtain rfl := hasTys_nil h30_0
  refine step_l (f_nil (by decide) (.head _) (by decide) (s_list g30_0 fun _ hs => s_strs hs)) ?_
  exact step_e

set_option maxRecDepth 8000 in
theorem row_csreqGetDiagnostics {vs : List Val} (h : HasTy (ReqType.csreqGetDiagnostics).ty (.struct vs)) : Sound (ReqType.csreqGetDiagnostics).ty (ReqType.csreqGetDiagnostics).jschema (.struct vs) ↔ JsonReqOk .csreqGetDiagnostics vs := by
  refine s_struct ?_
  have h0 : HasTys _ vs := h
  obtain ⟨v32_0, r32_0, rfl, g32_0, h32_0⟩ := hasTys_cons h0
  obtain ⟨x32_0, rfl⟩ := hasTy_str g32_0
  obtain ⟨v32_1, r32_1, rfl, g32_1, h32_1⟩ := hasTys_cons h32_0
  obtain ⟨x32_1, rfl⟩ := hasTy_int g32_1
  obtain ⟨v32_2, r32_2, rfl, g32_2, h32_2⟩ := hasTys_cons h32_1
  obtain ⟨x32_2, rfl⟩ := hasTy_int g32_2
  obtain ⟨v32_3, r32_3, rfl, g32_3, h32_3⟩ := hasTys_cons h32_2
  obtain ⟨v32_4, r32_4, rfl, g32_4, h32_4⟩ := hasTys_cons h32_3
  obtain rfl := hasTys_nil h32_4
  refine step_t (f_text (by decide) (.head _)) ?_
  refine step_t (f_plain rfl) ?_
  refine step_t (f_plain rfl) ?_
  refine step_t (f_time g32_3 (by decide)) ?_
  refine step_t (f_time g32_4 (by decide)) ?_
  exact step_e

set_option maxRecDepth 8000 in
theorem row_csreqGetLocalListVersion {vs : List Val} (h : HasTy (ReqType.csreqGetLocalListVersion).ty (.struct vs)) : Sound (ReqType.csreqGetLocalListVersion).ty (ReqType.csreqGetLocalListVersion).jschema (.struct vs) ↔ JsonReqOk .csreqGetLocalListVersion vs := by
  refine s_struct ?_
  have h0 : HasTys _ vs := h
  obtain rfl := hasTys_nil h0
  exact step_e

set_option maxRecDepth 8000 in
theorem row_csreqRemoteStartTransaction {vs : List Val} (h : HasTy (ReqType.csreqRemoteStartTransaction).ty (.struct vs)) : Sound (ReqType.csreqRemoteStartTransaction).ty (ReqType.csreqRemoteStartTransaction).jschema (.struct vs) ↔ JsonReqOk .csreqRemoteStartTransaction vs := by
  refine s_struct ?_
  have h0 : HasTys _ vs := h
  obtain ⟨v34_0, r34_0, rfl, g34_0, h34_0⟩ := hasTys_cons h0
  obtain ⟨x34_0, rfl⟩ := hasTy_str g34_0
  obtain ⟨v34_1, r34_1, rfl, g34_1, h34_1⟩ := hasTys_cons h34_0
  obtain ⟨v34_2, r34_2, rfl, g34_2, h34_2⟩ := hasTys_cons h34_1
  obtain ⟨x34_2, rfl⟩ := hasTy_int g34_2
  obtain rfl := hasTys_nil h34_2
  refine step_c (f_always (by decide) (.tail _ (.head _)) (by decide) s_len) ?_
  refine step_l (f_empty g34_1 (by decide) (.tail _ (.tail _ (.head _))) (by decide) (s_obj g34_1 fun vs35 h35 => by
      obtain ⟨v36_0, r36_0, rfl, g36_0, h36_0⟩ := hasTys_cons h35
      obtain ⟨x36_0, rfl⟩ := hasTy_int g36_0
      obtain ⟨v36_1, r36_1, rfl, g36_1, h36_1⟩ := hasTys_cons h36_0
      obtain ⟨x36_1, rfl⟩ := hasTy_str g36_1
      obtain ⟨v36_2, r36_2, rfl, g36_2, h36_2⟩ := hasTys_cons h36_1
      obtain ⟨x36_2, rfl⟩ := hasTy_str g36_2
      obtain ⟨v36_3, r36_3, rfl, g36_3, h36_3⟩ := hasTys_cons h36_2
      obtain ⟨v36_4, r36_4, rfl, g36_4, h36_4⟩ := hasTys_cons h36_3
      obtain ⟨x36_4, rfl⟩ := hasTy_str g36_4
      obtain ⟨v36_5, r36_5, rfl, g36_5, h36_5⟩ := hasTys_cons h36_4
      obtain ⟨x36_5, rfl⟩ := hasTy_int g36_5
      obtain ⟨v36_6, r36_6, rfl, g36_6, h36_6⟩ := hasTys_cons h36_5
      obtain ⟨x36_6, rfl⟩ := hasTy_int g36_6
      obtain ⟨v36_7, r36_7, rfl, g36_7, h36_7⟩ := hasTys_cons h36_6
      obtain ⟨v36_8, r36_8, rfl, g36_8, h36_8⟩ := hasTys_cons h36_7
      obtain rfl := hasTys_nil h36_8
      refine step_t (f_plain rfl) ?_
      refine step_c (f_always (by decide) (.tail _ (.tail _ (.tail _ (.tail _ (.head _))))) (by decide) (s_enum rfl)) ?_
      refine step_c (f_always (by decide) (.tail _ (.tail _ (.tail _ (.head _)))) (by decide) (s_enum rfl)) ?_
      refine step_c (f_always (by decide) (.tail _ (.tail _ (.tail _ (.tail _ (.tail _ (.tail _ (.tail _ (.tail _ (.head _))))))))) (by decide) (s_obj g36_3 fun vs37 h37 => by
          obtain ⟨v38_0, r38_0, rfl, g38_0, h38_0⟩ := hasTys_cons h37
          obtain ⟨x38_0, rfl⟩ := hasTy_str g38_0
          obtain ⟨v38_1, r38_1, rfl, g38_1, h38_1⟩ := hasTys_cons h38_0
          obtain ⟨v38_2, r38_2, rfl, g38_2, h38_2⟩ := hasTys_cons h38_1
          obtain ⟨x38_2, rfl⟩ := hasTy_int g38_2
          obtain ⟨v38_3, r38_3, rfl, g38_3, h38_3⟩ := hasTys_cons h38_2
          obtain ⟨x38_3, rfl⟩ := hasTy_float g38_3
          obtain ⟨v38_4, r38_4, rfl, g38_4, h38_4⟩ := hasTys_cons h38_3
          obtain rfl := hasTys_nil h38_4
          refine step_c (f_always (by decide) (.tail _ (.tail _ (.head _))) (by decide) (s_enum rfl)) ?_
          refine step_l (f_always (by decide) (.tail _ (.tail _ (.tail _ (.head _)))) (by decide) (s_list g38_1 fun v39 k39 => s_obj k39 fun vs40 h40 => by
              obtain ⟨v41_0, r41_0, rfl, g41_0, h41_0⟩ := hasTys_cons h40
              obtain ⟨x41_0, rfl⟩ := hasTy_float g41_0
              obtain ⟨v41_1, r41_1, rfl, g41_1, h41_1⟩ := hasTys_cons h41_0
              obtain ⟨x41_1, rfl⟩ := hasTy_int g41_1
              obtain ⟨v41_2, r41_2, rfl, g41_2, h41_2⟩ := hasTys_cons h41_1
              obtain ⟨x41_2, rfl⟩ := hasTy_int g41_2
              obtain rfl := hasTys_nil h41_2
              refine step_t (f_plain rfl) ?_
              refine step_t (f_plain rfl) ?_
              refine step_t (f_plain rfl) ?_
              exact step_e)) ?_
          refine step_t (f_plain rfl) ?_
          refine step_t (f_plain rfl) ?_
          refine step_t (f_time g38_4 (by decide)) ?_
          exact step_e)) ?_
      refine step_l (f_always (by decide) (.tail _ (.tail _ (.tail _ (.tail _ (.tail _ (.head _)))))) (by decide) (s_enum rfl)) ?_
      refine step_t (f_plain rfl) ?_
      refine step_t (f_plain rfl) ?_
      refine step_t (f_time g36_7 (by decide)) ?_
      refine step_t (f_time g36_8 (by decide)) ?_
      exact step_e)) ?_
  refine step_t (f_plain rfl) ?_
  exact step_e

set_option maxRecDepth 8000 in
theorem row_csreqRemoteStopTransaction {vs : List Val} (h : HasTy (ReqType.csreqRemoteStopTransaction).ty (.struct vs)) : Sound (ReqType.csreqRemoteStopTransaction).ty (ReqType.csreqRemoteStopTransaction).jschema (.struct vs) ↔ JsonReqOk .csreqRemoteStopTransaction vs := by
  refine s_struct ?_
  have h0 : HasTys _ vs := h
  obtain ⟨v42_0, r42_0, rfl, g42_0, h42_0⟩ := hasTys_cons h0
  obtain ⟨x42_0, rfl⟩ := hasTy_int g42_0
  obtain rfl := hasTys_nil h42_0
  refine step_t (f_plain rfl) ?_
  exact step_e

set_option maxRecDepth 8000 in
theorem row_csreqReserveNow {vs : List Val} (h : HasTy (ReqType.csreqReserveNow).ty (.struct vs)) : Sound (ReqType.csreqReserveNow).ty (ReqType.csreqReserveNow).jschema (.struct vs) ↔ JsonReqOk .csreqReserveNow vs := by
  refine s_struct ?_
  have h0 : HasTys _ vs := h
  obtain ⟨v43_0, r43_0, rfl, g43_0, h43_0⟩ := hasTys_cons h0
  obtain ⟨x43_0, rfl⟩ := hasTy_int g43_0
  obtain ⟨v43_1, r43_1, rfl, g43_1, h43_1⟩ := hasTys_cons h43_0
  obtain ⟨x43_1, rfl⟩ := hasTy_time g43_1
  obtain ⟨v43_2, r43_2, rfl, g43_2, h43_2⟩ := hasTys_cons h43_1
  obtain ⟨x43_2, rfl⟩ := hasTy_str g43_2
  obtain ⟨v43_3, r43_3, rfl, g43_3, h43_3⟩ := hasTys_cons h43_2
  obtain ⟨x43_3, rfl⟩ := hasTy_str g43_3
  obtain ⟨v43_4, r43_4, rfl, g43_4, h43_4⟩ := hasTys_cons h43_3
  obtain ⟨x43_4, rfl⟩ := hasTy_int g43_4
  obtain rfl := hasTys_nil h43_4
  refine step_t (f_plain rfl) ?_
  refine step_t (f_plain rfl) ?_
  refine step_c (f_always (by decide) (.tail _ (.tail _ (.head _))) (by decide) s_len) ?_
  refine step_l (f_always (by decide) (.tail _ (.tail _ (.tail _ (.head _)))) (by decide) s_len) ?_
  refine step_t (f_plain rfl) ?_
  exact step_e

set_option maxRecDepth 8000 in
theorem row_csreqReset {vs : List Val} (h : HasTy (ReqType.csreqReset).ty (.struct vs)) : Sound (ReqType.csreqReset).ty (ReqType.csreqReset).jschema (.struct vs) ↔ JsonReqOk .csreqReset vs := by
  refine s_struct ?_
  have h0 : HasTys _ vs := h
  obtain ⟨v44_0, r44_0, rfl, g44_0, h44_0⟩ := hasTys_cons h0
  obtain ⟨x44_0, rfl⟩ := hasTy_str g44_0
  obtain rfl := hasTys_nil h44_0
  refine step_l (f_always (by decide) (.head _) (by decide) (s_enum rfl)) ?_
  exact step_e

set_option maxRecDepth 8000 in
theorem row_csreqSendLocalList {vs : List Val} (h : HasTy (ReqType.csreqSendLocalList).ty (.struct vs)) : Sound (ReqType.csreqSendLocalList).ty (ReqType.csreqSendLocalList).jschema (.struct vs) ↔ JsonReqOk .csreqSendLocalList vs := by
  refine s_struct ?_
  have h0 : HasTys _ vs := h
  obtain ⟨v45_0, r45_0, rfl, g45_0, h45_0⟩ := hasTys_cons h0
  obtain ⟨x45_0, rfl⟩ := hasTy_int g45_0
  obtain ⟨v45_1, r45_1, rfl, g45_1, h45_1⟩ := hasTys_cons h45_0
  obtain ⟨v45_2, r45_2, rfl, g45_2, h45_2⟩ := hasTys_cons h45_1
  obtain ⟨x45_2, rfl⟩ := hasTy_str g45_2
  obtain rfl := hasTys_nil h45_2
  refine step_t (f_plain rfl) ?_
  refine step_c (f_always (by decide) (.tail _ (.head _)) (by decide) (s_list g45_1 fun v46 k46 => s_obj k46 fun vs47 h47 => by
      obtain ⟨v48_0, r48_0, rfl, g48_0, h48_0⟩ := hasTys_cons h47
      obtain ⟨x48_0, rfl⟩ := hasTy_str g48_0
      obtain ⟨v48_1, r48_1, rfl, g48_1, h48_1⟩ := hasTys_cons h48_0
      obtain rfl := hasTys_nil h48_1
      refine step_c (f_always (by decide) (.head _) (by decide) s_len) ?_
      refine step_l (f_always (by decide) (.tail _ (.head _)) (by decide) (s_obj g48_1 fun vs49 h49 => by
          obtain ⟨v50_0, r50_0, rfl, g50_0, h50_0⟩ := hasTys_cons h49
          obtain ⟨v50_1, r50_1, rfl, g50_1, h50_1⟩ := hasTys_cons h50_0
          obtain ⟨x50_1, rfl⟩ := hasTy_str g50_1
          obtain ⟨v50_2, r50_2, rfl, g50_2, h50_2⟩ := hasTys_cons h50_1
          obtain ⟨x50_2, rfl⟩ := hasTy_str g50_2
          obtain rfl := hasTys_nil h50_2
          refine step_t (f_none (by decide)) ?_
          refine step_t (f_none (by decide)) ?_
          refine step_l (f_always (by decide) (.head _) (by decide) (s_enum rfl)) ?_
          exact step_e)) ?_
      exact step_e)) ?_
  refine step_l (f_always (by decide) (.tail _ (.tail _ (.head _))) (by decide) (s_enum rfl)) ?_
  exact step_e

set_option maxRecDepth 8000 in
theorem row_csreqTriggerMessage {vs : List Val} (h : HasTy (ReqType.csreqTriggerMessage).ty (.struct vs)) : Sound (ReqType.csreqTriggerMessage).ty (ReqType.csreqTriggerMessage).jschema (.struct vs) ↔ JsonReqOk .csreqTriggerMessage vs := by
  refine s_struct ?_
  have h0 : HasTys _ vs := h
  obtain ⟨v51_0, r51_0, rfl, g51_0, h51_0⟩ := hasTys_cons h0
  obtain ⟨x51_0, rfl⟩ := hasTy_int g51_0
  obtain ⟨v51_1, r51_1, rfl, g51_1, h51_1⟩ := hasTys_cons h51_0
  obtain ⟨x51_1, rfl⟩ := hasTy_str g51_1
  obtain rfl := hasTys_nil h51_1
  refine step_t (f_plain rfl) ?_
  refine step_l (f_always (by decide) (.head _) (by decide) (s_enum rfl)) ?_
  exact step_e

set_option maxRecDepth 8000 in
theorem row_csreqUnlockConnector {vs : List Val} (h : HasTy (ReqType.csreqUnlockConnector).ty (.struct vs)) : Sound (ReqType.csreqUnlockConnector).ty (ReqType.csreqUnlockConnector).jschema (.struct vs) ↔ JsonReqOk .csreqUnlockConnector vs := by
  refine s_struct ?_
  have h0 : HasTys _ vs := h
  obtain ⟨v52_0, r52_0, rfl, g52_0, h52_0⟩ := hasTys_cons h0
  obtain ⟨x52_0, rfl⟩ := hasTy_int g52_0
  obtain rfl := hasTys_nil h52_0
  refine step_t (f_plain rfl) ?_
  exact step_e

set_option maxRecDepth 8000 in
theorem row_csreqUpdateFirmware {vs : List Val} (h : HasTy (ReqType.csreqUpdateFirmware).ty (.struct vs)) : Sound (ReqType.csreqUpdateFirmware).ty (ReqType.csreqUpdateFirmware).jschema (.struct vs) ↔ JsonReqOk .csreqUpdateFirmware vs := by
  refine s_struct ?_
  have h0 : HasTys _ vs := h
  obtain ⟨v53_0, r53_0, rfl, g53_0, h53_0⟩ := hasTys_cons h0
  obtain ⟨x53_0, rfl⟩ := hasTy_str g53_0
  obtain ⟨v53_1, r53_1, rfl, g53_1, h53_1⟩ := hasTys_cons h53_0
  obtain ⟨x53_1, rfl⟩ := hasTy_float g53_1
  obtain ⟨v53_2, r53_2, rfl, g53_2, h53_2⟩ := hasTys_cons h53_1
  obtain ⟨x53_2, rfl⟩ := hasTy_time g53_2
  obtain ⟨v53_3, r53_3, rfl, g53_3, h53_3⟩ := hasTys_cons h53_2
  obtain ⟨x53_3, rfl⟩ := hasTy_float g53_3
  obtain rfl := hasTys_nil h53_3
  refine step_t (f_text (by decide) (.head _)) ?_
  refine step_t (f_plain rfl) ?_
  refine step_t (f_plain rfl) ?_
  refine step_t (f_plain rfl) ?_
  exact step_e

set_option maxRecDepth 8000 in
theorem row_csreqSetChargingProfile {vs : List Val} (h : HasTy (ReqType.csreqSetChargingProfile).ty (.struct vs)) : Sound (ReqType.csreqSetChargingProfile).ty (ReqType.csreqSetChargingProfile).jschema (.struct vs) ↔ JsonReqOk .csreqSetChargingProfile vs := by
  refine s_struct ?_
  have h0 : HasTys _ vs := h
  obtain ⟨v54_0, r54_0, rfl, g54_0, h54_0⟩ := hasTys_cons h0
  obtain ⟨x54_0, rfl⟩ := hasTy_int g54_0
  obtain ⟨v54_1, r54_1, rfl, g54_1, h54_1⟩ := hasTys_cons h54_0
  obtain rfl := hasTys_nil h54_1
  refine step_t (f_plain rfl) ?_
  refine step_l (f_always (by decide) (.tail _ (.head _)) (by decide) (s_obj g54_1 fun vs55 h55 => by
      obtain ⟨v56_0, r56_0, rfl, g56_0, h56_0⟩ := hasTys_cons h55
      obtain ⟨x56_0, rfl⟩ := hasTy_int g56_0
      obtain ⟨v56_1, r56_1, rfl, g56_1, h56_1⟩ := hasTys_cons h56_0
      obtain ⟨x56_1, rfl⟩ := hasTy_str g56_1
      obtain ⟨v56_2, r56_2, rfl, g56_2, h56_2⟩ := hasTys_cons h56_1
      obtain ⟨x56_2, rfl⟩ := hasTy_str g56_2
      obtain ⟨v56_3, r56_3, rfl, g56_3, h56_3⟩ := hasTys_cons h56_2
      obtain ⟨v56_4, r56_4, rfl, g56_4, h56_4⟩ := hasTys_cons h56_3
      obtain ⟨x56_4, rfl⟩ := hasTy_str g56_4
      obtain ⟨v56_5, r56_5, rfl, g56_5, h56_5⟩ := hasTys_cons h56_4
      obtain ⟨x56_5, rfl⟩ := hasTy_int g56_5
      obtain ⟨v56_6, r56_6, rfl, g56_6, h56_6⟩ := hasTys_cons h56_5
      obtain ⟨x56_6, rfl⟩ := hasTy_int g56_6
      obtain ⟨v56_7, r56_7, rfl, g56_7, h56_7⟩ := hasTys_cons h56_6
      obtain ⟨x56_7, rfl⟩ := hasTy_time g56_7
      obtain ⟨v56_8, r56_8, rfl, g56_8, h56_8⟩ := hasTys_cons h56_7
      obtain ⟨x56_8, rfl⟩ := hasTy_time g56_8
      obtain rfl := hasTys_nil h56_8
      refine step_t (f_plain rfl) ?_
      refine step_c (f_always (by decide) (.tail _ (.tail _ (.tail _ (.tail _ (.head _))))) (by decide) (s_enum rfl)) ?_
      refine step_c (f_always (by decide) (.tail _ (.tail _ (.tail _ (.head _)))) (by decide) (s_enum rfl)) ?_
      refine step_c (f_always (by decide) (.tail _ (.tail _ (.tail _ (.tail _ (.tail _ (.tail _ (.tail _ (.tail _ (.head _))))))))) (by decide) (s_obj g56_3 fun vs57 h57 => by
          obtain ⟨v58_0, r58_0, rfl, g58_0, h58_0⟩ := hasTys_cons h57
          obtain ⟨x58_0, rfl⟩ := hasTy_str g58_0
          obtain ⟨v58_1, r58_1, rfl, g58_1, h58_1⟩ := hasTys_cons h58_0
          obtain ⟨v58_2, r58_2, rfl, g58_2, h58_2⟩ := hasTys_cons h58_1
          obtain ⟨x58_2, rfl⟩ := hasTy_int g58_2
          obtain ⟨v58_3, r58_3, rfl, g58_3, h58_3⟩ := hasTys_cons h58_2
          obtain ⟨x58_3, rfl⟩ := hasTy_float g58_3
          obtain ⟨v58_4, r58_4, rfl, g58_4, h58_4⟩ := hasTys_cons h58_3
          obtain rfl := hasTys_nil h58_4
          refine step_c (f_always (by decide) (.tail _ (.tail _ (.head _))) (by decide) (s_enum rfl)) ?_
          refine step_l (f_always (by decide) (.tail _ (.tail _ (.tail _ (.head _)))) (by decide) (s_list g58_1 fun v59 k59 => s_obj k59 fun vs60 h60 => by
              obtain ⟨v61_0, r61_0, rfl, g61_0, h61_0⟩ := hasTys_cons h60
              obtain ⟨x61_0, rfl⟩ := hasTy_float g61_0
              obtain ⟨v61_1, r61_1, rfl, g61_1, h61_1⟩ := hasTys_cons h61_0
              obtain ⟨x61_1, rfl⟩ := hasTy_int g61_1
              obtain ⟨v61_2, r61_2, rfl, g61_2, h61_2⟩ := hasTys_cons h61_1
              obtain ⟨x61_2, rfl⟩ := hasTy_int g61_2
              obtain rfl := hasTys_nil h61_2
              refine step_t (f_plain rfl) ?_
              refine step_t (f_plain rfl) ?_
              refine step_t (f_plain rfl) ?_
              exact step_e)) ?_
          refine step_t (f_plain rfl) ?_
          refine step_t (f_plain rfl) ?_
          refine step_t (f_time g58_4 (by decide)) ?_
          exact step_e)) ?_
      refine step_l (f_always (by decide) (.tail _ (.tail _ (.tail _ (.tail _ (.tail _ (.head _)))))) (by decide) (s_enum rfl)) ?_
      refine step_t (f_plain rfl) ?_
      refine step_t (f_plain rfl) ?_
      refine step_t (f_plain rfl) ?_
      refine step_t (f_plain rfl) ?_
      exact step_e)) ?_
  exact step_e

set_option maxRecDepth 8000 in
theorem row_cprespAuthorize {vs : List Val} (h : HasTy (RespType.cprespAuthorize).ty (.struct vs)) : Sound (RespType.cprespAuthorize).ty (RespType.cprespAuthorize).jschema (.struct vs) ↔ JsonRespOk .cprespAuthorize vs := by
  refine s_struct ?_
  have h0 : HasTys _ vs := h
  obtain ⟨v62_0, r62_0, rfl, g62_0, h62_0⟩ := hasTys_cons h0
  obtain rfl := hasTys_nil h62_0
  refine step_l (f_always (by decide) (.head _) (by decide) (s_obj g62_0 fun vs63 h63 => by
      obtain ⟨v64_0, r64_0, rfl, g64_0, h64_0⟩ := hasTys_cons h63
      obtain ⟨v64_1, r64_1, rfl, g64_1, h64_1⟩ := hasTys_cons h64_0
      obtain ⟨x64_1, rfl⟩ := hasTy_str g64_1
      obtain ⟨v64_2, r64_2, rfl, g64_2, h64_2⟩ := hasTys_cons h64_1
      obtain ⟨x64_2, rfl⟩ := hasTy_str g64_2
      obtain rfl := hasTys_nil h64_2
      refine step_t (f_time g64_0 (by decide)) ?_
      refine step_c (f_always (by decide) (.tail _ (.tail _ (.head _))) (by decide) s_len) ?_
      refine step_l (f_always (by decide) (.head _) (by decide) (s_enum rfl)) ?_
      exact step_e)) ?_
  exact step_e

set_option maxRecDepth 8000 in
theorem row_cprespBootNotification {vs : List Val} (h : HasTy (RespType.cprespBootNotification).ty (.struct vs)) : Sound (RespType.cprespBootNotification).ty (RespType.cprespBootNotification).jschema (.struct vs) ↔ JsonRespOk .cprespBootNotification vs := by
  refine s_struct ?_
  have h0 : HasTys _ vs := h
  obtain ⟨v65_0, r65_0, rfl, g65_0, h65_0⟩ := hasTys_cons h0
  obtain ⟨x65_0, rfl⟩ := hasTy_str g65_0
  obtain ⟨v65_1, r65_1, rfl, g65_1, h65_1⟩ := hasTys_cons h65_0
  obtain ⟨x65_1, rfl⟩ := hasTy_time g65_1
  obtain ⟨v65_2, r65_2, rfl, g65_2, h65_2⟩ := hasTys_cons h65_1
  obtain ⟨x65_2, rfl⟩ := hasTy_float g65_2
  obtain rfl := hasTys_nil h65_2
  refine step_l (f_always (by decide) (.head _) (by decide) (s_enum rfl)) ?_
  refine step_t (f_plain rfl) ?_
  refine step_t (f_plain rfl) ?_
  exact step_e

set_option maxRecDepth 8000 in
theorem row_cprespDataTransfer {vs : List Val} (h : HasTy (RespType.cprespDataTransfer).ty (.struct vs)) : Sound (RespType.cprespDataTransfer).ty (RespType.cprespDataTransfer).jschema (.struct vs) ↔ JsonRespOk .cprespDataTransfer vs := by
  refine s_struct ?_
  have h0 : HasTys _ vs := h
  obtain ⟨v66_0, r66_0, rfl, g66_0, h66_0⟩ := hasTys_cons h0
  obtain ⟨x66_0, rfl⟩ := hasTy_str g66_0
  obtain ⟨v66_1, r66_1, rfl, g66_1, h66_1⟩ := hasTys_cons h66_0
  obtain ⟨x66_1, rfl⟩ := hasTy_str g66_1
  obtain rfl := hasTys_nil h66_1
  refine step_t (f_text (by decide) (.tail _ (.head _))) ?_
  refine step_l (f_always (by decide) (.head _) (by decide) (s_enum rfl)) ?_
  exact step_e

set_option maxRecDepth 8000 in
theorem row_cprespDiagnosticsStatusNotification {vs : List Val} (h : HasTy (RespType.cprespDiagnosticsStatusNotification).ty (.struct vs)) : Sound (RespType.cprespDiagnosticsStatusNotification).ty (RespType.cprespDiagnosticsStatusNotification).jschema (.struct vs) ↔ JsonRespOk .cprespDiagnosticsStatusNotification vs := by
  refine s_struct ?_
  have h0 : HasTys _ vs := h
  obtain rfl := hasTys_nil h0
  exact step_e

set_option maxRecDepth 8000 in
theorem row_cprespFirmwareStatusNotification {vs : List Val} (h : HasTy (RespType.cprespFirmwareStatusNotification).ty (.struct vs)) : Sound (RespType.cprespFirmwareStatusNotification).ty (RespType.cprespFirmwareStatusNotification).jschema (.struct vs) ↔ JsonRespOk .cprespFirmwareStatusNotification vs := by
  refine s_struct ?_
  have h0 : HasTys _ vs := h
  obtain rfl := hasTys_nil h0
  exact step_e

set_option maxRecDepth 8000 in
theorem row_cprespHeartbeat {vs : List Val} (h : HasTy (RespType.cprespHeartbeat).ty (.struct vs)) : Sound (RespType.cprespHeartbeat).ty (RespType.cprespHeartbeat).jschema (.struct vs) ↔ JsonRespOk .cprespHeartbeat vs := by
  refine s_struct ?_
  have h0 : HasTys _ vs := h
  obtain ⟨v69_0, r69_0, rfl, g69_0, h69_0⟩ := hasTys_cons h0
  obtain ⟨x69_0, rfl⟩ := hasTy_time g69_0
  obtain rfl := hasTys_nil h69_0
  refine step_t (f_plain rfl) ?_
  exact step_e

set_option maxRecDepth 8000 in
theorem row_cprespMeterValues {vs : List Val} (h : HasTy (RespType.cprespMeterValues).ty (.struct vs)) : Sound (RespType.cprespMeterValues).ty (RespType.cprespMeterValues).jschema (.struct vs) ↔ JsonRespOk .cprespMeterValues vs := by
  refine s_struct ?_
  have h0 : HasTys _ vs := h
  obtain rfl := hasTys_nil h0
  exact step_e

set_option maxRecDepth 8000 in
theorem row_cprespStartTransaction {vs : List Val} (h : HasTy (RespType.cprespStartTransaction).ty (.struct vs)) : Sound (RespType.cprespStartTransaction).ty (RespType.cprespStartTransaction).jschema (.struct vs) ↔ JsonRespOk .cprespStartTransaction vs := by
  refine s_struct ?_
  have h0 : HasTys _ vs := h
  obtain ⟨v71_0, r71_0, rfl, g71_0, h71_0⟩ := hasTys_cons h0
  obtain ⟨v71_1, r71_1, rfl, g71_1, h71_1⟩ := hasTys_cons h71_0
  obtain ⟨x71_1, rfl⟩ := hasTy_int g71_1
  obtain rfl := hasTys_nil h71_1
  refine step_l (f_always (by decide) (.head _) (by decide) (s_obj g71_0 fun vs72 h72 => by
      obtain ⟨v73_0, r73_0, rfl, g73_0, h73_0⟩ := hasTys_cons h72
      obtain ⟨v73_1, r73_1, rfl, g73_1, h73_1⟩ := hasTys_cons h73_0
      obtain ⟨x73_1, rfl⟩ := hasTy_str g73_1
      obtain ⟨v73_2, r73_2, rfl, g73_2, h73_2⟩ := hasTys_cons h73_1
      obtain ⟨x73_2, rfl⟩ := hasTy_str g73_2
      obtain rfl := hasTys_nil h73_2
      refine step_t (f_time g73_0 (by decide)) ?_
      refine step_c (f_always (by decide) (.tail _ (.head _)) (by decide) s_len) ?_
      refine step_l (f_always (by decide) (.tail _ (.tail _ (.head _))) (by decide) (s_enum rfl)) ?_
      exact step_e)) ?_
  refine step_t (f_plain rfl) ?_
  exact step_e

set_option maxRecDepth 8000 in
theorem row_cprespStatusNotification {vs : List Val} (h : HasTy (RespType.cprespStatusNotification).ty (.struct vs)) : Sound (RespType.cprespStatusNotification).ty (RespType.cprespStatusNotification).jschema (.struct vs) ↔ JsonRespOk .cprespStatusNotification vs := by
  refine s_struct ?_
  have h0 : HasTys _ vs := h
  obtain rfl := hasTys_nil h0
  exact step_e

set_option maxRecDepth 8000 in
theorem row_cprespStopTransaction {vs : List Val} (h : HasTy (RespType.cprespStopTransaction).ty (.struct vs)) : Sound (RespType.cprespStopTransaction).ty (RespType.cprespStopTransaction).jschema (.struct vs) ↔ JsonRespOk .cprespStopTransaction vs := by
  refine s_struct ?_
  have h0 : HasTys _ vs := h
  obtain ⟨v75_0, r75_0, rfl, g75_0, h75_0⟩ := hasTys_cons h0
  obtain rfl := hasTys_nil h75_0
  refine step_l (f_always (by decide) (.head _) (by decide) (s_obj g75_0 fun vs76 h76 => by
      obtain ⟨v77_0, r77_0, rfl, g77_0, h77_0⟩ := hasTys_cons h76
      obtain ⟨v77_1, r77_1, rfl, g77_1, h77_1⟩ := hasTys_cons h77_0
      obtain ⟨x77_1, rfl⟩ := hasTy_str g77_1
      obtain ⟨v77_2, r77_2, rfl, g77_2, h77_2⟩ := hasTys_cons h77_1
      obtain ⟨x77_2, rfl⟩ := hasTy_str g77_2
      obtain rfl := hasTys_nil h77_2
      refine step_t (f_time g77_0 (by decide)) ?_
      refine step_c (f_always (by decide) (.tail _ (.head _)) (by decide) s_len) ?_
      refine step_l (f_always (by decide) (.tail _ (.tail _ (.head _))) (by decide) (s_enum rfl)) ?_
      exact step_e)) ?_
  exact step_e

set_option maxRecDepth 8000 in
theorem row_csrespCancelReservation {vs : List Val} (h : HasTy (RespType.csrespCancelReservation).ty (.struct vs)) : Sound (RespType.csrespCancelReservation).ty (RespType.csrespCancelReservation).jschema (.struct vs) ↔ JsonRespOk .csrespCancelReservation vs := by
  refine s_struct ?_
  have h0 : HasTys _ vs := h
  obtain ⟨v78_0, r78_0, rfl, g78_0, h78_0⟩ := hasTys_cons h0
  obtain ⟨x78_0, rfl⟩ := hasTy_str g78_0
  obtain rfl := hasTys_nil h78_0
  refine step_l (f_always (by decide) (.head _) (by decide) (s_enum rfl)) ?_
  exact step_e

set_option maxRecDepth 8000 in
theorem row_csrespChangeAvailability {vs : List Val} (h : HasTy (RespType.csrespChangeAvailability).ty (.struct vs)) : Sound (RespType.csrespChangeAvailability).ty (RespType.csrespChangeAvailability).jschema (.struct vs) ↔ JsonRespOk .csrespChangeAvailability vs := by
  refine s_struct ?_
  have h0 : HasTys _ vs := h
  obtain ⟨v79_0, r79_0, rfl, g79_0, h79_0⟩ := hasTys_cons h0
  obtain ⟨x79_0, rfl⟩ := hasTy_str g79_0
  obtain rfl := hasTys_nil h79_0
  refine step_l (f_always (by decide) (.head _) (by decide) (s_enum rfl)) ?_
  exact step_e

set_option maxRecDepth 8000 in
theorem row_csrespChangeConfiguration {vs : List Val} (h : HasTy (RespType.csrespChangeConfiguration).ty (.struct vs)) : Sound (RespType.csrespChangeConfiguration).ty (RespType.csrespChangeConfiguration).jschema (.struct vs) ↔ JsonRespOk .csrespChangeConfiguration vs := by
  refine s_struct ?_
  have h0 : HasTys _ vs := h
  obtain ⟨v80_0, r80_0, rfl, g80_0, h80_0⟩ := hasTys_cons h0
  obtain ⟨x80_0, rfl⟩ := hasTy_str g80_0
  obtain rfl := hasTys_nil h80_0
  refine step_l (f_always (by decide) (.head _) (by decide) (s_enum rfl)) ?_
  exact step_e

set_option maxRecDepth 8000 in
theorem row_csrespClearCache {vs : List Val} (h : HasTy (RespType.csrespClearCache).ty (.struct vs)) : Sound (RespType.csrespClearCache).ty (RespType.csrespClearCache).jschema (.struct vs) ↔ JsonRespOk .csrespClearCache vs := by
  refine s_struct ?_
  have h0 : HasTys _ vs := h
  obtain ⟨v81_0, r81_0, rfl, g81_0, h81_0⟩ := hasTys_cons h0
  obtain ⟨x81_0, rfl⟩ := hasTy_str g81_0
  obtain rfl := hasTys_nil h81_0
  refine step_l (f_always (by decide) (.head _) (by decide) (s_enum rfl)) ?_
  exact step_e

set_option maxRecDepth 8000 in
theorem row_csrespClearChargingProfile {vs : List Val} (h : HasTy (RespType.csrespClearChargingProfile).ty (.struct vs)) : Sound (RespType.csrespClearChargingProfile).ty (RespType.csrespClearChargingProfile).jschema (.struct vs) ↔ JsonRespOk .csrespClearChargingProfile vs := by
  refine s_struct ?_
  have h0 : HasTys _ vs := h
  obtain ⟨v82_0, r82_0, rfl, g82_0, h82_0⟩ := hasTys_cons h0
  obtain ⟨x82_0, rfl⟩ := hasTy_str g82_0
  obtain rfl := hasTys_nil h82_0
  refine step_l (f_always (by decide) (.head _) (by decide) (s_enum rfl)) ?_
  exact step_e

set_option maxRecDepth 8000 in
theorem row_csrespDataTransfer {vs : List Val} (h : HasTy (RespType.csrespDataTransfer).ty (.struct vs)) : Sound (RespType.csrespDataTransfer).ty (RespType.csrespDataTransfer).jschema (.struct vs) ↔ JsonRespOk .csrespDataTransfer vs := by
  refine s_struct ?_
  have h0 : HasTys _ vs := h
  obtain ⟨v83_0, r83_0, rfl, g83_0, h83_0⟩ := hasTys_cons h0
  obtain ⟨x83_0, rfl⟩ := hasTy_str g83_0
  obtain ⟨v83_1, r83_1, rfl, g83_1, h83_1⟩ := hasTys_cons h83_0
  obtain ⟨x83_1, rfl⟩ := hasTy_str g83_1
  obtain rfl := hasTys_nil h83_1
  refine step_t (f_text (by decide) (.tail _ (.head _))) ?_
  refine step_l (f_always (by decide) (.head _) (by decide) (s_enum rfl)) ?_
  exact step_e

set_option maxRecDepth 8000 in
theorem row_csrespGetCompositeSchedule {vs : List Val} (h : HasTy (RespType.csrespGetCompositeSchedule).ty (.struct vs)) : Sound (RespType.csrespGetCompositeSchedule).ty (RespType.csrespGetCompositeSchedule).jschema (.struct vs) ↔ JsonRespOk .csrespGetCompositeSchedule vs := by
  refine s_struct ?_
  have h0 : HasTys _ vs := h
  obtain ⟨v84_0, r84_0, rfl, g84_0, h84_0⟩ := hasTys_cons h0
  obtain ⟨v84_1, r84_1, rfl, g84_1, h84_1⟩ := hasTys_cons h84_0
  obtain ⟨x84_1, rfl⟩ := hasTy_int g84_1
  obtain ⟨v84_2, r84_2, rfl, g84_2, h84_2⟩ := hasTys_cons h84_1
  obtain ⟨v84_3, r84_3, rfl, g84_3, h84_3⟩ := hasTys_cons h84_2
  obtain ⟨x84_3, rfl⟩ := hasTy_str g84_3
  obtain rfl := hasTys_nil h84_3
  refine step_c (f_always (by decide) (.tail _ (.tail _ (.tail _ (.head _)))) (by decide) (s_obj g84_0 fun vs85 h85 => by
      obtain ⟨v86_0, r86_0, rfl, g86_0, h86_0⟩ := hasTys_cons h85
      obtain ⟨x86_0, rfl⟩ := hasTy_str g86_0
      obtain ⟨v86_1, r86_1, rfl, g86_1, h86_1⟩ := hasTys_cons h86_0
      obtain ⟨v86_2, r86_2, rfl, g86_2, h86_2⟩ := hasTys_cons h86_1
      obtain ⟨x86_2, rfl⟩ := hasTy_int g86_2
      obtain ⟨v86_3, r86_3, rfl, g86_3, h86_3⟩ := hasTys_cons h86_2
      obtain ⟨x86_3, rfl⟩ := hasTy_float g86_3
      obtain ⟨v86_4, r86_4, rfl, g86_4, h86_4⟩ := hasTys_cons h86_3
      obtain rfl := hasTys_nil h86_4
      refine step_c (f_always (by decide) (.tail _ (.tail _ (.head _))) (by decide) (s_enum rfl)) ?_
      refine step_l (f_always (by decide) (.tail _ (.tail _ (.tail _ (.head _)))) (by decide) (s_list g86_1 fun v87 k87 => s_obj k87 fun vs88 h88 => by
          obtain ⟨v89_0, r89_0, rfl, g89_0, h89_0⟩ := hasTys_cons h88
          obtain ⟨x89_0, rfl⟩ := hasTy_float g89_0
          obtain ⟨v89_1, r89_1, rfl, g89_1, h89_1⟩ := hasTys_cons h89_0
          obtain ⟨x89_1, rfl⟩ := hasTy_int g89_1
          obtain ⟨v89_2, r89_2, rfl, g89_2, h89_2⟩ := hasTys_cons h89_1
          obtain ⟨x89_2, rfl⟩ := hasTy_int g89_2
          obtain rfl := hasTys_nil h89_2
          refine step_t (f_plain rfl) ?_
          refine step_t (f_plain rfl) ?_
          refine step_t (f_plain rfl) ?_
          exact step_e)) ?_
      refine step_t (f_plain rfl) ?_
      refine step_t (f_plain rfl) ?_
      refine step_t (f_time g86_4 (by decide)) ?_
      exact step_e)) ?_
  refine step_t (f_plain rfl) ?_
  refine step_t (f_time g84_2 (by decide)) ?_
  refine step_l (f_always (by decide) (.head _) (by decide) (s_enum rfl)) ?_
  exact step_e

set_option maxRecDepth 8000 in
theorem row_csrespGetConfiguration {vs : List Val} (h : HasTy (RespType.csrespGetConfiguration).ty (.struct vs)) : Sound (RespType.csrespGetConfiguration).ty (RespType.csrespGetConfiguration).jschema (.struct vs) ↔ JsonRespOk .csrespGetConfiguration vs := by
  refine s_struct ?_
  have h0 : HasTys _ vs := h
  obtain ⟨v90_0, r90_0, rfl, g90_0, h90_0⟩ := hasTys_cons h0
  obtain ⟨v90_1, r90_1, rfl, g90_1, h90_1⟩ := hasTys_cons h90_0
  obtain rfl := hasTys_nil h90_1
  refine step_c (f_always (by decide) (.head _) (by decide) (s_list g90_0 fun v91 k91 => s_obj k91 fun vs92 h92 => by
      obtain ⟨v93_0, r93_0, rfl, g93_0, h93_0⟩ := hasTys_cons h92
      obtain ⟨x93_0, rfl⟩ := hasTy_str g93_0
      obtain ⟨v93_1, r93_1, rfl, g93_1, h93_1⟩ := hasTys_cons h93_0
      obtain ⟨x93_1, rfl⟩ := hasTy_bool g93_1
      obtain ⟨v93_2, r93_2, rfl, g93_2, h93_2⟩ := hasTys_cons h93_1
      obtain ⟨x93_2, rfl⟩ := hasTy_str g93_2
      obtain rfl := hasTys_nil h93_2
      refine step_c (f_always (by decide) (.head _) (by decide) s_len) ?_
      refine step_t (f_plain rfl) ?_
      refine step_l (f_always (by decide) (.tail _ (.tail _ (.head _))) (by decide) s_len) ?_
      exact step_e)) ?_
  refine step_l (f_always (by decide) (.tail _ (.head _)) (by decide) (s_list g90_1 fun _ hs => s_strs hs)) ?_
  exact step_e

set_option maxRecDepth 8000 in
theorem row_csrespGetDiagnostics {vs : List Val} (h : HasTy (RespType.csrespGetDiagnostics).ty (.struct vs)) : Sound (RespType.csrespGetDiagnostics).ty (RespType.csrespGetDiagnostics).jschema (.struct vs) ↔ JsonRespOk .csrespGetDiagnostics vs := by
  refine s_struct ?_
  have h0 : HasTys _ vs := h
  obtain ⟨v95_0, r95_0, rfl, g95_0, h95_0⟩ := hasTys_cons h0
  obtain ⟨x95_0, rfl⟩ := hasTy_str g95_0
  obtain rfl := hasTys_nil h95_0
  refine step_l (f_always (by decide) (.head _) (by decide) s_len) ?_
  exact step_e

set_option maxRecDepth 8000 in
theorem row_csrespGetLocalListVersion {vs : List Val} (h : HasTy (RespType.csrespGetLocalListVersion).ty (.struct vs)) : Sound (RespType.csrespGetLocalListVersion).ty (RespType.csrespGetLocalListVersion).jschema (.struct vs) ↔ JsonRespOk .csrespGetLocalListVersion vs := by
  refine s_struct ?_
  have h0 : HasTys _ vs := h
  obtain ⟨v96_0, r96_0, rfl, g96_0, h96_0⟩ := hasTys_cons h0
  obtain ⟨x96_0, rfl⟩ := hasTy_int g96_0
  obtain rfl := hasTys_nil h96_0
  refine step_t (f_plain rfl) ?_
  exact step_e

set_option maxRecDepth 8000 in
theorem row_csrespRemoteStartTransaction {vs : List Val} (h : HasTy (RespType.csrespRemoteStartTransaction).ty (.struct vs)) : Sound (RespType.csrespRemoteStartTransaction).ty (RespType.csrespRemoteStartTransaction).jschema (.struct vs) ↔ JsonRespOk .csrespRemoteStartTransaction vs := by
  refine s_struct ?_
  have h0 : HasTys _ vs := h
  obtain ⟨v97_0, r97_0, rfl, g97_0, h97_0⟩ := hasTys_cons h0
  obtain ⟨x97_0, rfl⟩ := hasTy_str g97_0
  obtain rfl := hasTys_nil h97_0
  refine step_l (f_always (by decide) (.head _) (by decide) (s_enum rfl)) ?_
  exact step_e

set_option maxRecDepth 8000 in
theorem row_csrespRemoteStopTransaction {vs : List Val} (h : HasTy (RespType.csrespRemoteStopTransaction).ty (.struct vs)) : Sound (RespType.csrespRemoteStopTransaction).ty (RespType.csrespRemoteStopTransaction).jschema (.struct vs) ↔ JsonRespOk .csrespRemoteStopTransaction vs := by
  refine s_struct ?_
  have h0 : HasTys _ vs := h
  obtain ⟨v98_0, r98_0, rfl, g98_0, h98_0⟩ := hasTys_cons h0
  obtain ⟨x98_0, rfl⟩ := hasTy_str g98_0
  obtain rfl := hasTys_nil h98_0
  refine step_l (f_always (by decide) (.head _) (by decide) (s_enum rfl)) ?_
  exact step_e

set_option maxRecDepth 8000 in
theorem row_csrespReserveNow {vs : List Val} (h : HasTy (RespType.csrespReserveNow).ty (.struct vs)) : Sound (RespType.csrespReserveNow).ty (RespType.csrespReserveNow).jschema (.struct vs) ↔ JsonRespOk .csrespReserveNow vs := by
  refine s_struct ?_
  have h0 : HasTys _ vs := h
  obtain ⟨v99_0, r99_0, rfl, g99_0, h99_0⟩ := hasTys_cons h0
  obtain ⟨x99_0, rfl⟩ := hasTy_str g99_0
  obtain rfl := hasTys_nil h99_0
  refine step_l (f_always (by decide) (.head _) (by decide) (s_enum rfl)) ?_
  exact step_e

set_option maxRecDepth 8000 in
theorem row_csrespReset {vs : List Val} (h : HasTy (RespType.csrespReset).ty (.struct vs)) : Sound (RespType.csrespReset).ty (RespType.csrespReset).jschema (.struct vs) ↔ JsonRespOk .csrespReset vs := by
  refine s_struct ?_
  have h0 : HasTys _ vs := h
  obtain ⟨v100_0, r100_0, rfl, g100_0, h100_0⟩ := hasTys_cons h0
  obtain ⟨x100_0, rfl⟩ := hasTy_str g100_0
  obtain rfl := hasTys_nil h100_0
  refine step_l (f_always (by decide) (.head _) (by decide) (s_enum rfl)) ?_
  exact step_e

set_option maxRecDepth 8000 in
theorem row_csrespSendLocalList {vs : List Val} (h : HasTy (RespType.csrespSendLocalList).ty (.struct vs)) : Sound (RespType.csrespSendLocalList).ty (RespType.csrespSendLocalList).jschema (.struct vs) ↔ JsonRespOk .csrespSendLocalList vs := by
  refine s_struct ?_
  have h0 : HasTys _ vs := h
  obtain ⟨v101_0, r101_0, rfl, g101_0, h101_0⟩ := hasTys_cons h0
  obtain ⟨x101_0, rfl⟩ := hasTy_str g101_0
  obtain rfl := hasTys_nil h101_0
  refine step_l (f_always (by decide) (.head _) (by decide) (s_enum rfl)) ?_
  exact step_e

set_option maxRecDepth 8000 in
theorem row_csrespTriggerMessage {vs : List Val} (h : HasTy (RespType.csrespTriggerMessage).ty (.struct vs)) : Sound (RespType.csrespTriggerMessage).ty (RespType.csrespTriggerMessage).jschema (.struct vs) ↔ JsonRespOk .csrespTriggerMessage vs := by
  refine s_struct ?_
  have h0 : HasTys _ vs := h
  obtain ⟨v102_0, r102_0, rfl, g102_0, h102_0⟩ := hasTys_cons h0
  obtain ⟨x102_0, rfl⟩ := hasTy_str g102_0
  obtain rfl := hasTys_nil h102_0
  refine step_l (f_always (by decide) (.head _) (by decide) (s_enum rfl)) ?_
  exact step_e

set_option maxRecDepth 8000 in
theorem row_csrespUnlockConnector {vs : List Val} (h : HasTy (RespType.csrespUnlockConnector).ty (.struct vs)) : Sound (RespType.csrespUnlockConnector).ty (RespType.csrespUnlockConnector).jschema (.struct vs) ↔ JsonRespOk .csrespUnlockConnector vs := by
  refine s_struct ?_
  have h0 : HasTys _ vs := h
  obtain ⟨v103_0, r103_0, rfl, g103_0, h103_0⟩ := hasTys_cons h0
  obtain ⟨x103_0, rfl⟩ := hasTy_str g103_0
  obtain rfl := hasTys_nil h103_0
  refine step_l (f_always (by decide) (.head _) (by decide) (s_enum rfl)) ?_
  exact step_e

set_option maxRecDepth 8000 in
theorem row_csrespUpdateFirmware {vs : List Val} (h : HasTy (RespType.csrespUpdateFirmware).ty (.struct vs)) : Sound (RespType.csrespUpdateFirmware).ty (RespType.csrespUpdateFirmware).jschema (.struct vs) ↔ JsonRespOk .csrespUpdateFirmware vs := by
  refine s_struct ?_
  have h0 : HasTys _ vs := h
  obtain rfl := hasTys_nil h0
  exact step_e

set_option maxRecDepth 8000 in
theorem row_csrespSetChargingProfile {vs : List Val} (h : HasTy (RespType.csrespSetChargingProfile).ty (.struct vs)) : Sound (RespType.csrespSetChargingProfile).ty (RespType.csrespSetChargingProfile).jschema (.struct vs) ↔ JsonRespOk .csrespSetChargingProfile vs := by
  refine s_struct ?_
  have h0 : HasTys _ vs := h
  obtain ⟨v105_0, r105_0, rfl, g105_0, h105_0⟩ := hasTys_cons h0
  obtain ⟨x105_0, rfl⟩ := hasTy_str g105_0
  obtain rfl := hasTys_nil h105_0
  refine step_l (f_always (by decide) (.head _) (by decide) (s_enum rfl)) ?_
  exact step_e

/-- The table is right. -/
theorem sound_iff (m : MsgType) (v : Val) (hv : HasTy m.ty v) : Sound m.ty m.jschema v ↔ JsonOk m v := by
  cases m with
  | req r =>
    cases v with
    | struct vs => cases r with
      | cpreqAuthorize => exact row_cpreqAuthorize hv
      | cpreqBootNotification => exact row_cpreqBootNotification hv
      | cpreqDataTransfer => exact row_cpreqDataTransfer hv
      | cpreqDiagnosticsStatusNotification => exact row_cpreqDiagnosticsStatusNotification hv
      | cpreqFirmwareStatusNotification => exact row_cpreqFirmwareStatusNotification hv
      | cpreqHeartbeat => exact row_cpreqHeartbeat hv
      | cpreqMeterValues => exact row_cpreqMeterValues hv
      | cpreqStartTransaction => exact row_cpreqStartTransaction hv
      | cpreqStatusNotification => exact row_cpreqStatusNotification hv
      | cpreqStopTransaction => exact row_cpreqStopTransaction hv
      | csreqCancelReservation => exact row_csreqCancelReservation hv
      | csreqChangeAvailability => exact row_csreqChangeAvailability hv
      | csreqChangeConfiguration => exact row_csreqChangeConfiguration hv
      | csreqClearCache => exact row_csreqClearCache hv
      | csreqClearChargingProfile => exact row_csreqClearChargingProfile hv
      | csreqDataTransfer => exact row_csreqDataTransfer hv
      | csreqGetCompositeSchedule => exact row_csreqGetCompositeSchedule hv
      | csreqGetConfiguration => exact row_csreqGetConfiguration hv
      | csreqGetDiagnostics => exact row_csreqGetDiagnostics hv
      | csreqGetLocalListVersion => exact row_csreqGetLocalListVersion hv
      | csreqRemoteStartTransaction => exact row_csreqRemoteStartTransaction hv
      | csreqRemoteStopTransaction => exact row_csreqRemoteStopTransaction hv
      | csreqReserveNow => exact row_csreqReserveNow hv
      | csreqReset => exact row_csreqReset hv
      | csreqSendLocalList => exact row_csreqSendLocalList hv
      | csreqTriggerMessage => exact row_csreqTriggerMessage hv
      | csreqUnlockConnector => exact row_csreqUnlockConnector hv
      | csreqUpdateFirmware => exact row_csreqUpdateFirmware hv
      | csreqSetChargingProfile => exact row_csreqSetChargingProfile hv
    | _ => cases r <;> exact hv.elim
  | resp r =>
    cases v with
    | struct vs => cases r with
      | cprespAuthorize => exact row_cprespAuthorize hv
      | cprespBootNotification => exact row_cprespBootNotification hv
      | cprespDataTransfer => exact row_cprespDataTransfer hv
      | cprespDiagnosticsStatusNotification => exact row_cprespDiagnosticsStatusNotification hv
      | cprespFirmwareStatusNotification => exact row_cprespFirmwareStatusNotification hv
      | cprespHeartbeat => exact row_cprespHeartbeat hv
      | cprespMeterValues => exact row_cprespMeterValues hv
      | cprespStartTransaction => exact row_cprespStartTransaction hv
      | cprespStatusNotification => exact row_cprespStatusNotification hv
      | cprespStopTransaction => exact row_cprespStopTransaction hv
      | csrespCancelReservation => exact row_csrespCancelReservation hv
      | csrespChangeAvailability => exact row_csrespChangeAvailability hv
      | csrespChangeConfiguration => exact row_csrespChangeConfiguration hv
      | csrespClearCache => exact row_csrespClearCache hv
      | csrespClearChargingProfile => exact row_csrespClearChargingProfile hv
      | csrespDataTransfer => exact row_csrespDataTransfer hv
      | csrespGetCompositeSchedule => exact row_csrespGetCompositeSchedule hv
      | csrespGetConfiguration => exact row_csrespGetConfiguration hv
      | csrespGetDiagnostics => exact row_csrespGetDiagnostics hv
      | csrespGetLocalListVersion => exact row_csrespGetLocalListVersion hv
      | csrespRemoteStartTransaction => exact row_csrespRemoteStartTransaction hv
      | csrespRemoteStopTransaction => exact row_csrespRemoteStopTransaction hv
      | csrespReserveNow => exact row_csrespReserveNow hv
      | csrespReset => exact row_csrespReset hv
      | csrespSendLocalList => exact row_csrespSendLocalList hv
      | csrespTriggerMessage => exact row_csrespTriggerMessage hv
      | csrespUnlockConnector => exact row_csrespUnlockConnector hv
      | csrespUpdateFirmware => exact row_csrespUpdateFirmware hv
      | csrespSetChargingProfile => exact row_csrespSetChargingProfile hv
    | _ => cases r <;> exact hv.elim

end Verif.Conf
