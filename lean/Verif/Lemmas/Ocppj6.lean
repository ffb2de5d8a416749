import Verif.Lemmas.Ocppj4
import Verif.Lemmas.Num2
/-! # Integers of any size on their way through an untyped payload -/
set_option linter.unusedSimpArgs false
namespace Verif.Ocppj
open Json Codec Decode Encode Trip

/-- `j'` is what is written for the untyped value that is read from `j`. -/
def Conv (F : FloatFmt) (j j' : JVal) : Prop := ∃ a, toAny j = some a ∧ jsonOf F a = j'

/-- The same for members. -/
abbrev ConvM (F : FloatFmt) (ms ms' : List (Text × JVal)) : Prop := List.Forall₂ (fun x y => x.1 = y.1 ∧ Conv F x.2 y.2) ms ms'

theorem conv_of_canon {F : FloatFmt} {j : JVal} (h : Canon F j) : Conv F j j := h

theorem conv_int (F : FloatFmt) {n : Int} (h : |n| ≤ 2 ^ 63) : Conv F (.num (.ofInt n)) (.num (.ofInt (onWire F n))) := by
  refine ⟨.num (roundF64 n), ?_, ?_⟩
  · simp only [toAny, value_ofInt, fl64_intCast n h]; rfl
  · simp only [jsonOf, (onWire_spec F n h).1]

theorem conv_arr {F : FloatFmt} {js js' : List JVal} (h : List.Forall₂ (Conv F) js js') : Conv F (.arr js) (.arr js') := by
  have : ∃ as, toAnys js = some as ∧ jsonOfs F as = js' := by
    induction h with
    | nil => exact ⟨[], rfl, rfl⟩
    | cons h1 _ ih =>
      obtain ⟨a, h1, h2⟩ := h1
      obtain ⟨as, h3, h4⟩ := ih
      exact ⟨a :: as, by simp [toAnys, h1, h3], by simp [jsonOfs, h2, h4]⟩
  obtain ⟨as, h1, h2⟩ := this
  exact ⟨.arr as, by simp [toAny, h1], by simp [jsonOf, h2]⟩

theorem jsonOfEntries_map (F : FloatFmt) (l : Payload) : jsonOfEntries F l = l.map fun x => (x.1, jsonOf F x.2) := by
  induction l with
  | nil => rfl
  | cons x l ih => obtain ⟨k, v⟩ := x; simp [jsonOfEntries, ih]

theorem convM_keys {F : FloatFmt} {ms ms' : List (Text × JVal)} (h : ConvM F ms ms') : ms.map Prod.fst = ms'.map Prod.fst := by
  induction h with
  | nil => rfl
  | cons h _ ih => simp [h.1, ih]

theorem conv_entries {F : FloatFmt} {ms ms' : List (Text × JVal)} (h : ConvM F ms ms') (hn : (ms.map Prod.fst).Nodup)
    (p : Payload) (hp : ∀ k ∈ ms.map Prod.fst, k ∉ p.map Prod.fst) :
    ∃ p', toEntries ms p = some p' ∧ (jsonOfEntries F p').Perm (jsonOfEntries F p ++ ms') := by
  induction h generalizing p with
  | nil => exact ⟨p, rfl, by simp⟩
  | @cons x y ms ms' hxy hr ih =>
    obtain ⟨k, j⟩ := x
    obtain ⟨k', j'⟩ := y
    obtain ⟨rfl, a, h1, rfl⟩ := hxy
    simp only [List.map_cons, List.nodup_cons, List.mem_cons, forall_eq_or_imp] at hn hp
    have hperm := mapPut_perm (v := a) hp.1
    obtain ⟨p', h3, h4⟩ := ih hn.2 (mapPut k a p) (by
      intro k' hk' hm
      rw [(hperm.map Prod.fst).mem_iff, List.map_cons, List.mem_cons] at hm
      rcases hm with rfl | hm
      · exact hn.1 hk'
      · exact hp.2 k' hk' hm)
    have h1' : toAny j = some a := h1
    refine ⟨p', by simp only [toEntries, h1']; exact h3, h4.trans ?_⟩
    rw [jsonOfEntries_map, jsonOfEntries_map]
    refine ((hperm.map _).append_right ms').trans ?_
    simp only [List.map_cons, List.cons_append]
    exact List.perm_middle.symm

theorem conv_obj {F : FloatFmt} {ms ms' : List (Text × JVal)} (h : ConvM F ms ms') (ha : Asc ms) : Conv F (.obj ms) (.obj ms') := by
  have : ∀ p : Payload, Asc (p.map (fun x => (x.1, jsonOf F x.2)) ++ ms') →
      ∃ p', toEntries ms p = some p' ∧ jsonOfEntries F p' = jsonOfEntries F p ++ ms' := by
    clear ha
    induction h with
    | nil => exact fun p _ => ⟨p, rfl, by simp⟩
    | @cons x y ms ms' hxy hr ih =>
      intro p hp
      obtain ⟨k, j⟩ := x
      obtain ⟨k', j'⟩ := y
      obtain ⟨rfl, a, h1, rfl⟩ := hxy
      have hl : ∀ x ∈ p, keyLt x.1 k = true := by
        intro x hx
        unfold Asc at hp
        simp only [List.map_append, List.pairwise_append, List.map_map] at hp
        exact hp.2.2 _ (List.mem_map_of_mem hx) _ (by simp)
      have h1' : toAny j = some a := h1
      obtain ⟨p', h3, h4⟩ := ih (p ++ [(k, a)]) (by simpa using hp)
      refine ⟨p', by simp only [toEntries, h1', mapPut_last hl]; exact h3, ?_⟩
      rw [h4, jsonOfEntries_map, jsonOfEntries_map]
      simp
  have ha' : Asc ms' := by unfold Asc at *; rw [← convM_keys h]; exact ha
  obtain ⟨p, h1, h2⟩ := this [] (by simpa using ha')
  exact ⟨.obj p, by simp only [toAny, h1]; rfl, by simp only [jsonOf, h2, jsonOfEntries, List.nil_append]⟩

theorem mapIntss_eq (f : Int → Int) (vs : List Val) : Val.mapIntss f vs = vs.map (Val.mapInts f) := by
  induction vs with
  | nil => rfl
  | cons v vs ih => simp [Val.mapIntss, ih]

theorem isNil_mapInts (f : Int → Int) (v : Val) : (v.mapInts f).isNil = v.isNil := by
  cases v <;> simp [Val.mapInts, Val.isNil]

theorem isEmpty_mapInts {f : Int → Int} {v : Val} (h : v.IntsAll fun n => f n = 0 ↔ n = 0) : (v.mapInts f).isEmpty = v.isEmpty := by
  cases v with
  | int n =>
    simp only [Val.IntsAll] at h
    simp only [Val.mapInts, Val.isEmpty]
    by_cases h0 : n = 0
    · rw [h.2 h0, h0]
    · have := mt h.1 h0
      simp [h0, this]
  | float q => cases q <;> simp [Val.mapInts, Val.isEmpty]
  | slice vs => simp [Val.mapInts, Val.isEmpty, mapIntss_eq]
  | _ => simp [Val.mapInts, Val.isEmpty]

theorem slotMember_conv {F : FloatFmt} {s : Slot} {v v' : Val} {w w' : GoRes JVal} (hn : v'.isNil = v.isNil) (he : v'.isEmpty = v.isEmpty)
    (hw : ∀ j, w = .ok j → ∃ j', w' = .ok j' ∧ Conv F j j') {ms : List (Text × JVal)} (h : slotMember s v w = .ok ms) :
    ∃ ms', slotMember s v' w' = .ok ms' ∧ ConvM F ms ms' := by
  have key : ∀ ms, (w.bind fun j => GoRes.ok [(s.key, j)]) = .ok ms → ∃ ms', (w'.bind fun j => GoRes.ok [(s.key, j)]) = .ok ms' ∧ ConvM F ms ms' := by
    intro ms hb
    rw [GoRes.bind_eq_ok] at hb
    obtain ⟨j, h1, h2⟩ := hb
    simp only [GoRes.ok.injEq] at h2
    subst h2
    obtain ⟨j', h3, h4⟩ := hw j h1
    exact ⟨[(s.key, j')], by rw [h3]; rfl, .cons ⟨rfl, h4⟩ .nil⟩
  unfold slotMember at h ⊢
  rw [hn, he]
  cases hmode : s.mode <;> rw [hmode] at h <;> simp only at h ⊢
  · exact key _ h
  · split at h
    · rename_i hc
      simp only [GoRes.ok.injEq] at h
      exact ⟨[], by rw [if_pos hc], by rw [← h]; exact .nil⟩
    · rename_i hc; rw [if_neg hc]; exact key _ h
  · split at h
    · cases h
    · rename_i hc; rw [if_neg hc]; exact key _ h
  · split at h
    · cases h
    · rename_i hc; rw [if_neg hc]; exact key _ h
  · split at h
    · rename_i hc
      simp only [GoRes.ok.injEq] at h
      exact ⟨[], by rw [if_pos hc], by rw [← h]; exact .nil⟩
    · rename_i hc; rw [if_neg hc]; exact key _ h

theorem slotMembers_conv {F : FloatFmt} {vs vs' : List Val} {ws ws' : List (GoRes JVal)}
    (hn : ∀ i : Nat, (vs'.getD i .nil).isNil = (vs.getD i .nil).isNil) (he : ∀ i : Nat, (vs'.getD i .nil).isEmpty = (vs.getD i .nil).isEmpty)
    (hw : ∀ (i : Nat) j, ws[i]? = some (.ok j) → ∃ j', ws'[i]? = some (.ok j') ∧ Conv F j j')
    {ss : List Slot} {ms : List (Text × JVal)} (h : slotMembers vs ws ss = .ok ms) :
    ∃ ms', slotMembers vs' ws' ss = .ok ms' ∧ ConvM F ms ms' := by
  induction ss generalizing ms with
  | nil => simp [slotMembers] at h; subst h; exact ⟨[], rfl, .nil⟩
  | cons s ss ih =>
    simp only [slotMembers] at h ⊢
    rw [GoRes.bind_eq_ok] at h
    obtain ⟨m, h1, h⟩ := h
    rw [GoRes.bind_eq_ok] at h
    obtain ⟨ms', h2, h⟩ := h
    simp only [GoRes.ok.injEq] at h
    subst h
    obtain ⟨m', h3, h4⟩ := slotMember_conv (hn s.idx) (he s.idx) (w' := ws'.getD s.idx (.panic "no such field")) (by
      intro j hj
      have : ws[s.idx]? = some (.ok j) := by
        simp only [List.getD] at hj
        cases hc : ws[s.idx]? <;> simp_all
      obtain ⟨j', h5, h6⟩ := hw s.idx j this
      exact ⟨j', by simp [List.getD, h5], h6⟩) h1
    obtain ⟨ms'', h5, h6⟩ := ih h2
    exact ⟨m' ++ ms'', by rw [h3]; simp only [GoRes.bind]; rw [h5], List.rel_append h4 h6⟩

/-- Integers of Go's types. -/
abbrev Wide (n : Int) : Prop := |n| ≤ 2 ^ 63

mutual
/-- Integer types have at most 64 bits. -/
def okInts : Ty → Bool
  | .int b => decide (b ≤ 64)
  | .ptr t => okInts t
  | .slice t => okInts t
  | .struct _ ts => okIntss ts
  | _ => true
/-- The same for a list. -/
def okIntss : List Ty → Bool
  | [] => true
  | t :: ts => okInts t && okIntss ts
end

theorem okInts_msg (m : MsgType) : okInts m.ty = true := by
  cases m with
  | req r => cases r <;> decide
  | resp r => cases r <;> decide

mutual
theorem intsAll_mono {P Q : Int → Prop} (h : ∀ n, P n → Q n) (v : Val) (hv : v.IntsAll P) : v.IntsAll Q := by
  match v with
  | .int n => exact h n hv
  | .ptr v => exact intsAll_mono h v hv
  | .slice vs => exact intsAlls_mono h vs hv
  | .struct vs => exact intsAlls_mono h vs hv
  | .str _ => trivial
  | .float _ => trivial
  | .bool _ => trivial
  | .time _ => trivial
  | .nil => trivial
theorem intsAlls_mono {P Q : Int → Prop} (h : ∀ n, P n → Q n) (vs : List Val) (hv : Val.IntsAlls P vs) : Val.IntsAlls Q vs := by
  match vs with
  | [] => trivial
  | v :: vs => exact ⟨intsAll_mono h v hv.1, intsAlls_mono h vs hv.2⟩
end

mutual
theorem wide_of_hasTy (t : Ty) (v : Val) (h : HasTy t v) (ht : okInts t = true) : v.IntsAll Wide := by
  match t, v with
  | .int b, .int n =>
    simp only [HasTy] at h
    simp only [okInts, decide_eq_true_eq] at ht
    have : (2 : Int) ^ (b - 1) ≤ 2 ^ 63 := pow_le_pow_right₀ (by norm_num) (by omega)
    exact abs_le.2 ⟨by omega, by omega⟩
  | .ptr t, .ptr v => exact wide_of_hasTy t v h (by simpa [okInts] using ht)
  | .slice t, .slice vs =>
    simp only [HasTy] at h
    simp only [okInts] at ht
    simp only [Val.IntsAll]
    have : ∀ ws : List Val, (∀ v ∈ ws, HasTy t v) → Val.IntsAlls Wide ws := by
      intro ws hw
      induction ws with
      | nil => trivial
      | cons w ws ih =>
        exact ⟨wide_of_hasTy t w (hw w (by simp)) ht, ih fun v hv => hw v (by simp [hv])⟩
    exact this vs h
  | .struct _ ts, .struct vs =>
    simp only [HasTy] at h
    simp only [okInts] at ht
    simp only [Val.IntsAll]
    exact wides_of_hasTy ts vs h ht
  | .str, .str _ => trivial
  | .float, .float _ => trivial
  | .bool, .bool _ => trivial
  | .time, .time _ => trivial
  | .ptr _, .nil => trivial
  | .slice _, .nil => trivial
  termination_by structural t
theorem wides_of_hasTy (ts : List Ty) (vs : List Val) (h : HasTys ts vs) (ht : okIntss ts = true) : Val.IntsAlls Wide vs := by
  match ts, vs with
  | [], [] => trivial
  | t :: ts, v :: vs =>
    simp only [okIntss, Bool.and_eq_true] at ht
    exact ⟨wide_of_hasTy t v h.1 ht.1, wides_of_hasTy ts vs h.2 ht.2⟩
  termination_by structural ts
end

theorem getD_mapInts {P : Int → Prop} {f : Int → Int} (vs : List Val) (hi : Val.IntsAlls P vs) (hf : ∀ n, P n → (f n = 0 ↔ n = 0)) (i : Nat) :
    ((Val.mapIntss f vs).getD i .nil).isNil = (vs.getD i .nil).isNil ∧
    ((Val.mapIntss f vs).getD i .nil).isEmpty = (vs.getD i .nil).isEmpty := by
  rw [mapIntss_eq]
  simp only [List.getD, List.getElem?_map]
  cases h : vs[i]? with
  | none => simp
  | some v =>
    simp only [Option.map_some, Option.getD_some]
    have := intsAll_mono hf v (intsAlls_mem hi v (List.mem_of_getElem? h))
    exact ⟨isNil_mapInts f v, isEmpty_mapInts this⟩

mutual
theorem wire_conv (F : FloatFmt) (t : Ty) (v : Val) (j : JVal) (ht : ascTy t = true) (hv : HasTy t v) (hi : v.IntsAll Wide)
    (h : wire F t v = .ok j) : ∃ j', wire F t (v.mapInts (onWire F)) = .ok j' ∧ Conv F j j' := by
  match t, v with
  | .str, .str s => simp [wire] at h; subst h; exact ⟨_, rfl, _, rfl, rfl⟩
  | .int _, .int n => simp [wire] at h; subst h; exact ⟨_, rfl, conv_int F hi⟩
  | .float, .float (.fin q) => simp [wire] at h; subst h; exact ⟨_, rfl, canon_float F hv⟩
  | .bool, .bool b => simp [wire] at h; subst h; exact ⟨_, rfl, _, rfl, rfl⟩
  | .time, .time b => simp [wire] at h; subst h; exact ⟨_, rfl, _, rfl, rfl⟩
  | .ptr _, .nil => simp [wire] at h; subst h; exact ⟨_, rfl, _, rfl, rfl⟩
  | .ptr t, .ptr v =>
    simp only [wire] at h
    simp only [Val.mapInts, wire]
    exact wire_conv F t v j (by simpa [ascTy] using ht) hv hi h
  | .slice _, .nil => simp [wire] at h; subst h; exact ⟨_, rfl, _, rfl, rfl⟩
  | .slice t, .slice vs =>
    simp only [wire] at h
    rw [GoRes.bind_eq_ok] at h
    obtain ⟨js, h1, h2⟩ := h
    cases h2
    simp only [HasTy] at hv
    simp only [Val.IntsAll] at hi
    simp only [Val.mapInts, wire]
    have : ∀ (vs : List Val) (js : List JVal), allOk (vs.map (wire F t)) = .ok js → (∀ v ∈ vs, HasTy t v) → Val.IntsAlls Wide vs →
        ∃ js', allOk ((Val.mapIntss (onWire F) vs).map (wire F t)) = .ok js' ∧ List.Forall₂ (Conv F) js js' := by
      intro vs
      induction vs with
      | nil => intro js h _ _; simp [allOk] at h; subst h; exact ⟨[], rfl, .nil⟩
      | cons v vs ih =>
        intro js h hv hi
        simp only [List.map_cons, allOk] at h
        rw [GoRes.bind_eq_ok] at h
        obtain ⟨j, h1, h⟩ := h
        rw [GoRes.bind_eq_ok] at h
        obtain ⟨js', h2, h⟩ := h
        simp only [GoRes.ok.injEq] at h
        subst h
        obtain ⟨j', h3, h4⟩ := wire_conv F t v j (by simpa [ascTy] using ht) (hv v (by simp)) hi.1 h1
        obtain ⟨js'', h5, h6⟩ := ih js' h2 (fun v hm => hv v (by simp [hm])) hi.2
        refine ⟨j' :: js'', ?_, .cons h4 h6⟩
        simp only [Val.mapIntss, List.map_cons, allOk, h3, GoRes.bind, h5]
    obtain ⟨js', h3, h4⟩ := this vs js h1 hv hi
    exact ⟨.arr js', by rw [h3]; rfl, conv_arr h4⟩
  | .struct info ts, .struct vs =>
    simp only [wire] at h
    rw [GoRes.bind_eq_ok] at h
    obtain ⟨ms, h1, h2⟩ := h
    cases h2
    simp only [ascTy, Bool.and_eq_true] at ht
    simp only [HasTy] at hv
    simp only [Val.IntsAll] at hi
    simp only [Val.mapInts, wire]
    have hg := getD_mapInts vs hi (fun n hn => (onWire_spec F n hn).2.2.1)
    obtain ⟨ms', h3, h4⟩ := slotMembers_conv (F := F) (fun i => (hg i).1) (fun i => (hg i).2)
      (fun i j => wires_conv F ts vs ht.2 hv hi i j) h1
    exact ⟨.obj ms', by rw [h3]; rfl, conv_obj h4 ((ascKeys_pairwise ht.1).sublist (slotMembers_keys h1))⟩
  termination_by structural t
theorem wires_conv (F : FloatFmt) (ts : List Ty) (vs : List Val) (ht : ascTys ts = true) (hv : HasTys ts vs)
    (hi : Val.IntsAlls Wide vs) (i : Nat) (j : JVal) (h : (wireAll F ts vs)[i]? = some (.ok j)) :
    ∃ j', (wireAll F ts (Val.mapIntss (onWire F) vs))[i]? = some (.ok j') ∧ Conv F j j' := by
  match ts, vs, i with
  | [], _, _ => simp [wireAll] at h
  | t' :: ts, [], _ => simp [wireAll] at h
  | t' :: ts, v' :: vs, 0 =>
    simp only [ascTys, Bool.and_eq_true] at ht
    obtain ⟨j', h1, h2⟩ := wire_conv F t' v' j ht.1 hv.1 hi.1 (by simpa [wireAll] using h)
    exact ⟨j', by simp [Val.mapIntss, wireAll, h1], h2⟩
  | t' :: ts, v' :: vs, i + 1 =>
    simp only [ascTys, Bool.and_eq_true] at ht
    obtain ⟨j', h1, h2⟩ := wires_conv F ts vs ht.2 hv.2 hi.2 i j (by simpa [wireAll] using h)
    exact ⟨j', by simpa [Val.mapIntss, wireAll] using h1, h2⟩
  termination_by structural ts
end

/-- The payload of a message has the members of the message with its integers replaced, in another order. -/
theorem payload_conv (F : FloatFmt) (m : MsgType) (v : Val) (hv : HasTy m.ty v) (ms : List (Text × JVal))
    (h : wire F m.ty v = .ok (.obj ms)) :
    ∃ p ms', toEntries ms [] = some p ∧ wire F m.ty (v.mapInts (onWire F)) = .ok (.obj ms') ∧ (jsonOfEntries F p).Perm ms' := by
  have hd := wire_distinct F _ _ _ (keysOk_msg m) h
  have ha : ascFields m.ty = true := by
    cases m with
    | req r => exact ascFields_req r
    | resp r => exact ascFields_resp r
  have hi := wide_of_hasTy _ _ hv (okInts_msg m)
  obtain ⟨info, ts, _, _, ht, _⟩ := msg_struct m
  rw [ht] at h hv ha
  rw [ht]
  cases v <;> simp only [HasTy] at hv
  rename_i vs
  simp only [Val.IntsAll] at hi
  simp only [wire] at h
  rw [GoRes.bind_eq_ok] at h
  obtain ⟨ms', h1, h2⟩ := h
  cases h2
  have hg := getD_mapInts vs hi (fun n hn => (onWire_spec F n hn).2.2.1)
  obtain ⟨ms', h3, h4⟩ := slotMembers_conv (F := F) (fun i => (hg i).1) (fun i => (hg i).2)
    (fun i j => wires_conv F ts vs ha hv hi i j) h1
  obtain ⟨p, h5, h6⟩ := conv_entries h4 hd.1 [] (by simp)
  exact ⟨p, ms', h5, by simp only [Val.mapInts, wire, h3]; rfl, by simpa [jsonOfEntries] using h6⟩

end Verif.Ocppj
