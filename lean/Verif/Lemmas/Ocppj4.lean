import Verif.Lemmas.Ocppj3
import Verif.Props.Decode
import Verif.Lemmas.Num
set_option linter.unusedSimpArgs false
set_option linter.unnecessarySeqFocus false
/-!
# Untyped values are read back; payloads keep the content of messages
-/
namespace Verif.Ocppj
open Json Codec Decode Encode Trip

/-! ### Untyped values -/

mutual
/-- Values that came out of the JSON decoder: numbers are float64s, maps are in order. -/
def Fin : GoAny → Prop
  | .num q => IsF64 q
  | .arr vs => Fins vs
  | .obj ms => Asc ms ∧ FinE ms
  | _ => True
def Fins : List GoAny → Prop
  | [] => True
  | v :: vs => Fin v ∧ Fins vs
def FinE : List (Text × GoAny) → Prop
  | [] => True
  | (_, v) :: ms => Fin v ∧ FinE ms
end

theorem mapPut_last {α : Type} {k : Text} {v : α} {m : List (Text × α)} (h : ∀ x ∈ m, keyLt x.1 k = true) :
    mapPut k v m = m ++ [(k, v)] := by
  induction m with
  | nil => rfl
  | cons x m ih =>
    obtain ⟨k', v'⟩ := x
    have h1 := h (k', v') (by simp)
    simp only at h1
    have hne : k ≠ k' := by rintro rfl; rw [keyLt_irrefl] at h1; cases h1
    have hn : keyLt k k' = false := by
      cases hc : keyLt k k' with
      | false => rfl
      | true => have := keyLt_trans h1 hc; rw [keyLt_irrefl] at this; cases this
    simp only [mapPut, hne, if_false, hn, Bool.false_eq_true, List.cons_append]
    rw [ih fun x hx => h x (by simp [hx])]

theorem mapPut_perm {α : Type} {k : Text} {v : α} {m : List (Text × α)} (h : k ∉ m.map Prod.fst) :
    (mapPut k v m).Perm ((k, v) :: m) := by
  induction m with
  | nil => exact List.Perm.refl _
  | cons x m ih =>
    obtain ⟨k', v'⟩ := x
    simp only [List.map_cons, List.mem_cons, not_or] at h
    simp only [mapPut, h.1, if_false]
    split
    · exact List.Perm.refl _
    · exact ((ih h.2).cons _).trans (List.Perm.swap _ _ _)

mutual
theorem toAny_jsonOf (F : FloatFmt) (a : GoAny) (h : Fin a) : toAny (jsonOf F a) = some a := by
  match a with
  | .nil => rfl
  | .bool b => rfl
  | .str s => rfl
  | .num q =>
    simp only [Fin] at h
    simp only [jsonOf, toAny, F.roundtrip q h]; rfl
  | .arr vs =>
    simp only [Fin] at h
    simp only [jsonOf, toAny, toAnys_jsonOf F vs h]; rfl
  | .obj ms =>
    simp only [Fin] at h
    simp only [jsonOf, toAny, toEntries_jsonOf F ms h.2 [] (by simpa using h.1), List.nil_append]; rfl
theorem toAnys_jsonOf (F : FloatFmt) (vs : List GoAny) (h : Fins vs) : toAnys (jsonOfs F vs) = some vs := by
  match vs with
  | [] => rfl
  | v :: vs =>
    simp only [Fins] at h
    simp only [jsonOfs, toAnys, toAny_jsonOf F v h.1, toAnys_jsonOf F vs h.2]
theorem toEntries_jsonOf (F : FloatFmt) (ms : List (Text × GoAny)) (h : FinE ms) (p : Payload) (ha : Asc (p ++ ms)) :
    toEntries (jsonOfEntries F ms) p = some (p ++ ms) := by
  match ms with
  | [] => simp [jsonOfEntries, toEntries]
  | (k, v) :: ms =>
    simp only [FinE] at h
    simp only [jsonOfEntries, toEntries, toAny_jsonOf F v h.1]
    have hl : ∀ x ∈ p, keyLt x.1 k = true := by
      intro x hx
      unfold Asc at ha
      simp only [List.map_append, List.pairwise_append] at ha
      exact ha.2.2 _ (List.mem_map_of_mem hx) _ (by simp)
    rw [mapPut_last hl, toEntries_jsonOf F ms h.2 (p ++ [(k, v)]) (by simpa using ha)]
    simp
end

theorem finE_mem {ms : Payload} : FinE ms ↔ ∀ x ∈ ms, Fin x.2 := by
  induction ms with
  | nil => simp [FinE]
  | cons x ms ih =>
    obtain ⟨k, v⟩ := x
    simp only [FinE, ih, List.mem_cons, forall_eq_or_imp]

mutual
theorem toAny_fin (j : JVal) (a : GoAny) (h : toAny j = some a) : Fin a := by
  match j with
  | .null => simp [toAny] at h; subst h; exact True.intro
  | .bool b => simp [toAny] at h; subst h; exact True.intro
  | .str s => simp [toAny] at h; subst h; exact True.intro
  | .num l =>
    simp only [toAny, Option.map_eq_some_iff] at h
    obtain ⟨q, h, rfl⟩ := h
    exact fl64_isF64 h
  | .arr vs =>
    simp only [toAny, Option.map_eq_some_iff] at h
    obtain ⟨as, h, rfl⟩ := h
    exact toAnys_fin vs as h
  | .obj ms =>
    simp only [toAny, Option.map_eq_some_iff] at h
    obtain ⟨p, h, rfl⟩ := h
    exact toEntries_fin ms [] p h Asc.nil True.intro
theorem toAnys_fin (vs : List JVal) (as : List GoAny) (h : toAnys vs = some as) : Fins as := by
  match vs with
  | [] => simp [toAnys] at h; subst h; exact True.intro
  | v :: vs =>
    simp only [toAnys] at h
    split at h
    · rename_i a as' h1 h2
      cases h
      exact ⟨toAny_fin v a h1, toAnys_fin vs as' h2⟩
    · cases h
theorem toEntries_fin (ms : List (Text × JVal)) (m p : Payload) (h : toEntries ms m = some p) (ha : Asc m) (hm : FinE m) :
    Asc p ∧ FinE p := by
  match ms with
  | [] => simp [toEntries] at h; subst h; exact ⟨ha, hm⟩
  | (k, v) :: ms =>
    simp only [toEntries] at h
    split at h
    · rename_i a h1
      refine toEntries_fin ms _ p h (asc_mapPut k a ha) ?_
      rw [finE_mem] at hm ⊢
      intro x hx
      rcases mapPut_mem hx with rfl | hx
      · exact toAny_fin v a h1
      · exact hm x hx
    · cases h
end

/-- What is written for an untyped value means this value. -/
theorem holds_jsonOf {F : FloatFmt} {j : JVal} {a : GoAny} (h : Holds j a) : Holds (jsonOf F a) a :=
  (toAny_iff _ _).1 (toAny_jsonOf F a (toAny_fin j a ((toAny_iff _ _).2 h)))

/-! ### Canonical JSON values -/

/-- Unchanged by going through an untyped value. -/
def Canon (F : FloatFmt) (j : JVal) : Prop := ∃ a, toAny j = some a ∧ jsonOf F a = j

theorem canon_int (F : FloatFmt) {n : Int} (h : |n| ≤ 2 ^ 53) : Canon F (.num (.ofInt n)) := by
  refine ⟨.num n, ?_, ?_⟩
  · have := isF64_int h
    unfold IsF64 at this
    simp only [toAny, value_ofInt, this]; rfl
  · simp only [jsonOf, F.int n h]

theorem canon_float (F : FloatFmt) {q : ℚ} (h : IsF64 q) : Canon F (.num (F.fmt q)) :=
  ⟨.num q, by simp only [toAny, F.roundtrip q h]; rfl, rfl⟩

theorem canon_arr {F : FloatFmt} {js : List JVal} (h : ∀ j ∈ js, Canon F j) : Canon F (.arr js) := by
  have : ∃ as, toAnys js = some as ∧ jsonOfs F as = js := by
    induction js with
    | nil => exact ⟨[], rfl, rfl⟩
    | cons j js ih =>
      obtain ⟨a, h1, h2⟩ := h j (by simp)
      obtain ⟨as, h3, h4⟩ := ih fun j hj => h j (by simp [hj])
      exact ⟨a :: as, by simp [toAnys, h1, h3], by simp [jsonOfs, h2, h4]⟩
  obtain ⟨as, h1, h2⟩ := this
  exact ⟨.arr as, by simp [toAny, h1], by simp [jsonOf, h2]⟩

theorem canon_entries {F : FloatFmt} {ms : List (Text × JVal)} (h : ∀ m ∈ ms, Canon F m.2) (hn : (ms.map Prod.fst).Nodup)
    (p : Payload) (hp : ∀ k ∈ ms.map Prod.fst, k ∉ p.map Prod.fst) :
    ∃ p', toEntries ms p = some p' ∧ (jsonOfEntries F p').Perm (jsonOfEntries F p ++ ms) := by
  induction ms generalizing p with
  | nil => exact ⟨p, rfl, by simp⟩
  | cons m ms ih =>
    obtain ⟨k, j⟩ := m
    simp only [List.map_cons, List.nodup_cons, List.mem_cons, forall_eq_or_imp] at h hn hp
    obtain ⟨a, h1, h2⟩ := h.1
    have hperm := mapPut_perm (v := a) hp.1
    obtain ⟨p', h3, h4⟩ := ih h.2 hn.2 (mapPut k a p) (by
      intro k' hk' hm
      rw [(hperm.map Prod.fst).mem_iff, List.map_cons, List.mem_cons] at hm
      rcases hm with rfl | hm
      · exact hn.1 hk'
      · exact hp.2 k' hk' hm)
    refine ⟨p', by simp only [toEntries, h1]; exact h3, h4.trans ?_⟩
    have hmap : ∀ l : Payload, jsonOfEntries F l = l.map fun x => (x.1, jsonOf F x.2) := by
      intro l
      induction l with
      | nil => rfl
      | cons x l ih => obtain ⟨k, v⟩ := x; simp [jsonOfEntries, ih]
    rw [hmap, hmap]
    refine ((hperm.map _).append_right ms).trans ?_
    simp only [List.map_cons, h2, List.cons_append]
    exact List.perm_middle.symm

theorem canon_obj {F : FloatFmt} {ms : List (Text × JVal)} (h : ∀ m ∈ ms, Canon F m.2) (ha : Asc ms) : Canon F (.obj ms) := by
  have : ∀ p : Payload, Asc (p.map (fun x => (x.1, jsonOf F x.2)) ++ ms) →
      ∃ p', toEntries ms p = some p' ∧ jsonOfEntries F p' = jsonOfEntries F p ++ ms := by
    have hmap : ∀ l : Payload, jsonOfEntries F l = l.map fun x => (x.1, jsonOf F x.2) := by
      intro l
      induction l with
      | nil => rfl
      | cons x l ih => obtain ⟨k, v⟩ := x; simp [jsonOfEntries, ih]
    clear ha
    induction ms with
    | nil => exact fun p _ => ⟨p, rfl, by simp⟩
    | cons m ms ih =>
      intro p hp
      obtain ⟨k, j⟩ := m
      obtain ⟨a, h1, h2⟩ := h (k, j) (by simp)
      have hl : ∀ x ∈ p, keyLt x.1 k = true := by
        intro x hx
        unfold Asc at hp
        simp only [List.map_append, List.pairwise_append, List.map_map] at hp
        exact hp.2.2 _ (List.mem_map_of_mem hx) _ (by simp)
      obtain ⟨p', h3, h4⟩ := ih (fun m hm => h m (by simp [hm])) (p ++ [(k, a)]) (by simpa [h2] using hp)
      refine ⟨p', by simp only [toEntries, h1, mapPut_last hl]; exact h3, ?_⟩
      rw [h4, hmap, hmap]
      simp [h2]
  obtain ⟨p, h1, h2⟩ := this [] (by simpa using ha)
  exact ⟨.obj p, by simp only [toAny, h1]; rfl, by simp only [jsonOf, h2, jsonOfEntries, List.nil_append]⟩

/-! ### The JSON form of messages is canonical, but for the order of the members at top level -/

/-- Names in strictly ascending order. -/
def ascKeys : List Text → Bool
  | [] => true
  | k :: ks => ks.all (fun k' => keyLt k k') && ascKeys ks

theorem ascKeys_pairwise {ks : List Text} (h : ascKeys ks = true) : ks.Pairwise fun a b => keyLt a b = true := by
  induction ks with
  | nil => exact .nil
  | cons k ks ih =>
    simp only [ascKeys, Bool.and_eq_true, List.all_eq_true] at h
    exact List.Pairwise.cons h.1 (ih h.2)

mutual
/-- The members of all structs in the type are written in ascending order. -/
def ascTy : Ty → Bool
  | .ptr t => ascTy t
  | .slice t => ascTy t
  | .struct info ts => ascKeys ((slots info ts).map Slot.key) && ascTys ts
  | _ => true
def ascTys : List Ty → Bool
  | [] => true
  | t :: ts => ascTy t && ascTys ts
end

/-- The members of all structs but the message itself. -/
def ascFields : Ty → Bool
  | .struct _ ts => ascTys ts
  | _ => false

set_option maxRecDepth 8000 in
theorem ascFields_req : ∀ r : ReqType, ascFields r.ty = true := by intro r; cases r <;> decide
set_option maxRecDepth 8000 in
theorem ascFields_resp : ∀ r : RespType, ascFields r.ty = true := by intro r; cases r <;> decide

theorem slotMembers_all {P : JVal → Prop} {vs : List Val} {ws : List (GoRes JVal)} (hw : ∀ (i : Nat) j, ws[i]? = some (.ok j) → P j)
    {ss : List Slot} {ms : List (Text × JVal)} (h : slotMembers vs ws ss = .ok ms) : ∀ m ∈ ms, P m.2 := by
  induction ss generalizing ms with
  | nil => simp [slotMembers] at h; subst h; simp
  | cons s ss ih =>
    simp only [slotMembers] at h
    rw [GoRes.bind_eq_ok] at h
    obtain ⟨m, h1, h⟩ := h
    rw [GoRes.bind_eq_ok] at h
    obtain ⟨ms', h2, h⟩ := h
    simp only [GoRes.ok.injEq] at h
    subst h
    intro x hx
    rcases List.mem_append.1 hx with hx | hx
    · rcases slotMember_ok h1 with rfl | ⟨j, hj, rfl⟩
      · simp at hx
      · simp only [List.mem_singleton] at hx
        subst hx
        refine hw s.idx j ?_
        simp only [List.getD] at hj
        cases hc : ws[s.idx]? <;> simp_all
    · exact ih h2 x hx

/-- Integers that float64 can carry. -/
abbrev Small (n : Int) : Prop := |n| ≤ 2 ^ 53

theorem intsAlls_mem {P : Int → Prop} {vs : List Val} (h : Val.IntsAlls P vs) : ∀ v ∈ vs, v.IntsAll P := by
  induction vs with
  | nil => simp
  | cons v vs ih =>
    simp only [Val.IntsAlls] at h
    simp only [List.mem_cons, forall_eq_or_imp]
    exact ⟨h.1, ih h.2⟩

mutual
theorem wire_canon (F : FloatFmt) (t : Ty) (v : Val) (j : JVal) (ht : ascTy t = true) (hv : HasTy t v) (hi : v.IntsAll Small)
    (h : wire F t v = .ok j) : Canon F j := by
  match t, v with
  | .str, .str s => simp [wire] at h; subst h; exact ⟨_, rfl, rfl⟩
  | .int _, .int n => simp [wire] at h; subst h; exact canon_int F hi
  | .float, .float (.fin q) => simp [wire] at h; subst h; exact canon_float F hv
  | .bool, .bool b => simp [wire] at h; subst h; exact ⟨_, rfl, rfl⟩
  | .time, .time b => simp [wire] at h; subst h; exact ⟨_, rfl, rfl⟩
  | .ptr _, .nil => simp [wire] at h; subst h; exact ⟨_, rfl, rfl⟩
  | .ptr t, .ptr v =>
    simp only [wire] at h
    exact wire_canon F t v j (by simpa [ascTy] using ht) hv hi h
  | .slice _, .nil => simp [wire] at h; subst h; exact ⟨_, rfl, rfl⟩
  | .slice t, .slice vs =>
    simp only [wire] at h
    rw [GoRes.bind_eq_ok] at h
    obtain ⟨js, h1, h2⟩ := h
    cases h2
    simp only [HasTy] at hv
    simp only [Val.IntsAll] at hi
    apply canon_arr
    intro j hj
    have h3 : (GoRes.ok j) ∈ vs.map (wire F t) := by
      rw [allOk_mem h1]; exact List.mem_map_of_mem hj
    obtain ⟨v, hm, hw⟩ := List.mem_map.1 h3
    exact wire_canon F t v j (by simpa [ascTy] using ht) (hv v hm) (intsAlls_mem hi v hm) hw
  | .struct info ts, .struct vs =>
    simp only [wire] at h
    rw [GoRes.bind_eq_ok] at h
    obtain ⟨ms, h1, h2⟩ := h
    cases h2
    simp only [ascTy, Bool.and_eq_true] at ht
    simp only [HasTy] at hv
    simp only [Val.IntsAll] at hi
    exact canon_obj (slotMembers_all (fun i j => wires_canon F ts vs ht.2 hv hi i j) h1)
      ((ascKeys_pairwise ht.1).sublist (slotMembers_keys h1))
  termination_by structural t
theorem wires_canon (F : FloatFmt) (ts : List Ty) (vs : List Val) (ht : ascTys ts = true) (hv : HasTys ts vs)
    (hi : Val.IntsAlls Small vs) (i : Nat) (j : JVal) (h : (wireAll F ts vs)[i]? = some (.ok j)) : Canon F j := by
  match ts, vs, i with
  | [], _, _ => simp [wireAll] at h
  | t' :: ts, [], _ => simp [wireAll] at h
  | t' :: ts, v' :: vs, 0 =>
    simp only [ascTys, Bool.and_eq_true] at ht
    exact wire_canon F t' v' j ht.1 hv.1 hi.1 (by simpa [wireAll] using h)
  | t' :: ts, v' :: vs, i + 1 =>
    simp only [ascTys, Bool.and_eq_true] at ht
    exact wires_canon F ts vs ht.2 hv.2 hi.2 i j (by simpa [wireAll] using h)
  termination_by structural ts
end

/-- The payload of a message has its members, in another order. -/
theorem payload_perm (F : FloatFmt) (m : MsgType) (v : Val) (hv : HasTy m.ty v) (hi : v.IntsAll Small) (ms : List (Text × JVal))
    (h : wire F m.ty v = .ok (.obj ms)) : ∃ p, toEntries ms [] = some p ∧ (jsonOfEntries F p).Perm ms := by
  have hd := wire_distinct F _ _ _ (keysOk_msg m) h
  have ha : ascFields m.ty = true := by
    cases m with
    | req r => exact ascFields_req r
    | resp r => exact ascFields_resp r
  obtain ⟨info, ts, _, _, ht, _⟩ := msg_struct m
  rw [ht] at h hv ha
  cases v <;> simp only [HasTy] at hv
  rename_i vs
  simp only [Val.IntsAll] at hi
  simp only [wire] at h
  rw [GoRes.bind_eq_ok] at h
  obtain ⟨ms', h1, h2⟩ := h
  cases h2
  obtain ⟨p, h3, h4⟩ := canon_entries (F := F) (slotMembers_all (fun i j => wires_canon F ts vs ha hv hi i j) h1) hd.1 [] (by simp)
  exact ⟨p, h3, by simpa [jsonOfEntries] using h4⟩

/-- The order of the members at top level does not matter for decoding what was encoded. -/
theorem read_perm (F : FloatFmt) (m : MsgType) (v : Val) (hv : HasTy m.ty v) (hp : v.TimesAll GoTime.Plain)
    (ms ms' : List (Text × JVal)) (h : wire F m.ty v = .ok (.obj ms)) (hperm : ms'.Perm ms) :
    m.read (.obj ms') = some (trip m.ty m.schema v) := by
  have hd := okDec_msg m
  have ht := okTrip_msg m
  have hk := keysOk_msg m
  unfold MsgType.read
  obtain ⟨info, ts, props, required, hty, hs, _⟩ := msg_struct m
  rw [hty, hs] at hd ht
  rw [hty] at hk h hv
  rw [hty, hs]
  obtain ⟨hnd, hl⟩ := fields_nodup hd
  simp only [okDec, okTrip, Bool.and_eq_true] at hd ht
  have hk' := hk
  simp only [keysOk, Bool.and_eq_true] at hk
  cases v <;> simp only [HasTy] at hv
  rename_i vs
  simp only [Val.TimesAll] at hp
  have ih := read_wires F ts info.fields props (reflective info) hd.2 ht.2 hk.2 vs hv hp
  simp only [read, zeroVal, trip]
  exact struct_trip hnd hl hk' ht.1 hv ih h hperm

end Verif.Ocppj
