import Verif.Lemmas.Encode
set_option linter.unusedSimpArgs false
/-!
# Consequences for all message types: distinct names, panics, errors
-/
namespace Verif
namespace Encode
open Json Codec

set_option maxRecDepth 4000 in
theorem okTy_req : ∀ r : ReqType, okTy r.ty = true := by
  intro r; cases r <;> decide

set_option maxRecDepth 4000 in
theorem okTy_resp : ∀ r : RespType, okTy r.ty = true := by
  intro r; cases r <;> decide

theorem okTy_msg (m : MsgType) : okTy m.ty = true := by
  cases m with
  | req r => exact okTy_req r
  | resp r => exact okTy_resp r

/-! ### Distinct names -/

mutual
/-- All struct types inside a type have pairwise distinct property names. -/
def keysOk : Ty → Bool
  | .ptr t => keysOk t
  | .slice t => keysOk t
  | .struct info ts => decide ((slots info ts).map Slot.key).Nodup && keysOks ts
  | _ => true
def keysOks : List Ty → Bool
  | [] => true
  | t :: ts => keysOk t && keysOks ts
end

set_option maxRecDepth 4000 in
theorem keysOk_req : ∀ r : ReqType, keysOk r.ty = true := by
  intro r; cases r <;> decide

set_option maxRecDepth 4000 in
theorem keysOk_resp : ∀ r : RespType, keysOk r.ty = true := by
  intro r; cases r <;> decide

theorem keysOk_msg (m : MsgType) : keysOk m.ty = true := by
  cases m with
  | req r => exact keysOk_req r
  | resp r => exact keysOk_resp r

theorem slotMember_ok {s : Slot} {v : Val} {w : GoRes JVal} {m : List (Text × JVal)} (h : slotMember s v w = .ok m) :
    m = [] ∨ ∃ j, w = .ok j ∧ m = [(s.key, j)] := by
  unfold slotMember at h
  split at h
  · rw [GoRes.bind_eq_ok] at h
    obtain ⟨j, h1, h2⟩ := h
    cases h2
    exact Or.inr ⟨j, h1, rfl⟩
  all_goals
    split at h
    · simp_all
    · rw [GoRes.bind_eq_ok] at h
      obtain ⟨j, h1, h2⟩ := h
      cases h2
      exact Or.inr ⟨j, h1, rfl⟩

theorem slotMembers_keys {vs : List Val} {ws : List (GoRes JVal)} {ss : List Slot} {ms : List (Text × JVal)}
    (h : slotMembers vs ws ss = .ok ms) : (ms.map Prod.fst).Sublist (ss.map Slot.key) := by
  induction ss generalizing ms with
  | nil => simp [slotMembers] at h; simp [h]
  | cons s ss ih =>
    simp only [slotMembers] at h
    rw [GoRes.bind_eq_ok] at h
    obtain ⟨m, h1, h⟩ := h
    rw [GoRes.bind_eq_ok] at h
    obtain ⟨ms', h2, h⟩ := h
    simp only [GoRes.ok.injEq] at h
    subst h
    rcases slotMember_ok h1 with rfl | ⟨j, _, rfl⟩
    · exact (ih h2).cons _
    · exact (ih h2).cons_cons _

theorem distinctMembers_append {a b : List (Text × JVal)} (ha : DistinctMembers a) (hb : DistinctMembers b) :
    DistinctMembers (a ++ b) := by
  induction a with
  | nil => exact hb
  | cons x a ih =>
    obtain ⟨k, v⟩ := x
    simp only [DistinctMembers, List.cons_append] at ha ⊢
    exact ⟨ha.1, ih ha.2⟩

theorem slotMembers_distinct {vs : List Val} {ws : List (GoRes JVal)} (hw : ∀ (i : Nat) j, ws[i]? = some (.ok j) → DistinctNames j)
    {ss : List Slot} {ms : List (Text × JVal)}
    (h : slotMembers vs ws ss = .ok ms) : DistinctMembers ms := by
  induction ss generalizing ms with
  | nil => simp [slotMembers] at h; subst h; simp [DistinctMembers]
  | cons s ss ih =>
    simp only [slotMembers] at h
    rw [GoRes.bind_eq_ok] at h
    obtain ⟨m, h1, h⟩ := h
    rw [GoRes.bind_eq_ok] at h
    obtain ⟨ms', h2, h⟩ := h
    simp only [GoRes.ok.injEq] at h
    subst h
    refine distinctMembers_append ?_ (ih h2)
    rcases slotMember_ok h1 with rfl | ⟨j, hj, rfl⟩
    · exact True.intro
    · refine ⟨hw s.idx j ?_, True.intro⟩
      simp only [List.getD] at hj
      cases hc : ws[s.idx]? <;> simp_all

theorem allOk_mem {α : Type} {xs : List (GoRes α)} {as : List α} (h : allOk xs = .ok as) : xs = as.map .ok := by
  induction xs generalizing as with
  | nil => simp [allOk] at h; simp [← h]
  | cons x xs ih =>
    simp only [allOk] at h
    rw [GoRes.bind_eq_ok] at h
    obtain ⟨a, h1, h⟩ := h
    rw [GoRes.bind_eq_ok] at h
    obtain ⟨as', h2, h⟩ := h
    simp only [GoRes.ok.injEq] at h
    subst h h1
    simp [ih h2]

theorem distinctAll_iff {vs : List JVal} : DistinctAll vs ↔ ∀ v ∈ vs, DistinctNames v := by
  induction vs with
  | nil => simp [DistinctAll]
  | cons v vs ih => simp [DistinctAll, ih]

mutual
theorem wire_distinct (F : FloatFmt) (t : Ty) (v : Val) (j : JVal) (ht : keysOk t = true) (h : wire F t v = .ok j) :
    DistinctNames j := by
  match t, v with
  | .str, .str s => simp [wire] at h; subst h; simp [DistinctNames]
  | .int _, .int n => simp [wire] at h; subst h; simp [DistinctNames]
  | .float, .float (.fin q) => simp [wire] at h; subst h; simp [DistinctNames]
  | .bool, .bool b => simp [wire] at h; subst h; simp [DistinctNames]
  | .time, .time b => simp [wire] at h; subst h; simp [DistinctNames]
  | .ptr _, .nil => simp [wire] at h; subst h; simp [DistinctNames]
  | .ptr t, .ptr v =>
    simp only [wire] at h
    exact wire_distinct F t v j (by simpa [keysOk] using ht) h
  | .slice _, .nil => simp [wire] at h; subst h; simp [DistinctNames]
  | .slice t, .slice vs =>
    simp only [wire] at h
    rw [GoRes.bind_eq_ok] at h
    obtain ⟨js, h1, h2⟩ := h
    cases h2
    simp only [DistinctNames]
    rw [distinctAll_iff]
    intro j hj
    have h3 : (GoRes.ok j) ∈ vs.map (wire F t) := by
      rw [allOk_mem h1]; exact List.mem_map_of_mem hj
    obtain ⟨v, _, hv⟩ := List.mem_map.1 h3
    exact wire_distinct F t v j (by simpa [keysOk] using ht) hv
  | .struct info ts, .struct vs =>
    simp only [wire] at h
    rw [GoRes.bind_eq_ok] at h
    obtain ⟨ms, h1, h2⟩ := h
    cases h2
    simp only [keysOk, Bool.and_eq_true, decide_eq_true_eq] at ht
    exact ⟨ht.1.sublist (slotMembers_keys h1), slotMembers_distinct (wires_distinct F ts vs ht.2) h1⟩
  termination_by structural t
theorem wires_distinct (F : FloatFmt) (ts : List Ty) (vs : List Val) (ht : keysOks ts = true)
    (i : Nat) (j : JVal) (h : (wireAll F ts vs)[i]? = some (.ok j)) : DistinctNames j := by
  match ts, vs, i with
  | [], _, _ => simp [wireAll] at h
  | t' :: ts, [], _ => simp [wireAll] at h
  | t' :: ts, v' :: vs, 0 =>
    simp only [keysOks, Bool.and_eq_true] at ht
    exact wire_distinct F t' v' j ht.1 (by simpa [wireAll] using h)
  | t' :: ts, v' :: vs, i + 1 =>
    simp only [keysOks, Bool.and_eq_true] at ht
    exact wires_distinct F ts vs ht.2 i j (by simpa [wireAll] using h)
  termination_by structural ts
end

/-! ### Panics -/

mutual
/-- No field inside the type is dereferenced without a nil check. -/
def noDeref : Ty → Bool
  | .ptr t => noDeref t
  | .slice t => noDeref t
  | .struct info ts => (slots info ts).all (fun s => decide (s.mode ≠ .deref) && decide (s.idx < ts.length)) && noDerefs ts
  | _ => true
def noDerefs : List Ty → Bool
  | [] => true
  | t :: ts => noDeref t && noDerefs ts
end

theorem allOk_panic {α : Type} {xs : List (GoRes α)} {m : String} (h : allOk xs = .panic m) : .panic m ∈ xs := by
  induction xs with
  | nil => simp [allOk] at h
  | cons x xs ih =>
    simp only [allOk] at h
    rw [GoRes.bind_eq_panic] at h
    rcases h with rfl | ⟨a, _, h⟩
    · simp
    · rw [GoRes.bind_eq_panic] at h
      rcases h with h | ⟨as, _, h⟩
      · simp [ih h]
      · simp at h

theorem slotMembers_panic {vs : List Val} {ws : List (GoRes JVal)} {ss : List Slot} {e : String}
    (h : slotMembers vs ws ss = .panic e) : ∃ s ∈ ss, (s.mode = .deref ∨ ws.getD s.idx (.panic "no such field") = .panic e) := by
  induction ss with
  | nil => simp [slotMembers] at h
  | cons s ss ih =>
    simp only [slotMembers] at h
    rw [GoRes.bind_eq_panic] at h
    rcases h with h | ⟨m, h1, h⟩
    · refine ⟨s, by simp, ?_⟩
      unfold slotMember at h
      split at h
      · rw [GoRes.bind_eq_panic] at h; simp_all
      · split at h
        · simp at h
        · rw [GoRes.bind_eq_panic] at h; simp_all
      · split at h
        · simp at h
        · rw [GoRes.bind_eq_panic] at h; simp_all
      · left; assumption
      · split at h
        · simp at h
        · rw [GoRes.bind_eq_panic] at h; simp_all
    · rw [GoRes.bind_eq_panic] at h
      rcases h with h | ⟨ms, _, h⟩
      · obtain ⟨s, hs, h⟩ := ih h
        exact ⟨s, by simp [hs], h⟩
      · simp at h

mutual
theorem wire_noPanic (F : FloatFmt) (t : Ty) (v : Val) (ht : noDeref t = true) (hv : HasTy t v) (e : String) :
    wire F t v ≠ .panic e := by
  match t, v, hv with
  | .str, .str s, _ => simp [wire]
  | .int _, .int n, _ => simp [wire]
  | .float, .float (.fin q), _ => simp [wire]
  | .float, .float .nan, _ => simp [wire]
  | .float, .float (.inf _), _ => simp [wire]
  | .bool, .bool b, _ => simp [wire]
  | .time, .time b, _ => simp [wire]
  | .ptr _, .nil, _ => simp [wire]
  | .ptr t, .ptr v, hv =>
    simp only [wire]
    exact wire_noPanic F t v (by simpa [noDeref] using ht) (by simpa [HasTy] using hv) e
  | .slice _, .nil, _ => simp [wire]
  | .slice t, .slice vs, hv =>
    intro h
    simp only [wire] at h
    rw [GoRes.bind_eq_panic] at h
    rcases h with h | ⟨_, _, h⟩
    · obtain ⟨v, hm, hw⟩ := List.mem_map.1 (allOk_panic h)
      exact wire_noPanic F t v (by simpa [noDeref] using ht) ((by simpa [HasTy] using hv : ∀ v ∈ vs, HasTy t v) v hm) e hw
    · simp at h
  | .struct info ts, .struct vs, hv =>
    intro h
    simp only [wire] at h
    simp only [noDeref, Bool.and_eq_true, List.all_eq_true, decide_eq_true_eq] at ht
    rw [GoRes.bind_eq_panic] at h
    rcases h with h | ⟨_, _, h⟩
    · obtain ⟨s, hs, h⟩ := slotMembers_panic h
      rcases h with h | h
      · exact (ht.1 s hs).1 h
      · have hl := (ht.1 s hs).2
        have hg : ts[s.idx]? = some ts[s.idx] := List.getElem?_eq_getElem hl
        obtain ⟨v, hv', _⟩ := hasTys_get (by simpa [HasTy] using hv) hg
        rw [getD_some (wireAll_get hg hv')] at h
        exact wires_noPanic F ts vs ht.2 (by simpa [HasTy] using hv) s.idx e
          (by rw [wireAll_get hg hv', h])
    · simp at h
  termination_by structural t
theorem wires_noPanic (F : FloatFmt) (ts : List Ty) (vs : List Val) (ht : noDerefs ts = true) (hv : HasTys ts vs)
    (i : Nat) (e : String) : (wireAll F ts vs)[i]? ≠ some (.panic e) := by
  match ts, vs, i, hv with
  | [], _, _, _ => simp [wireAll]
  | t' :: ts, [], _, _ => simp [wireAll]
  | t' :: ts, v' :: vs, 0, hv =>
    simp only [noDerefs, Bool.and_eq_true] at ht
    simp only [HasTys] at hv
    have := wire_noPanic F t' v' ht.1 hv.1 e
    simpa [wireAll] using this
  | t' :: ts, v' :: vs, i + 1, hv =>
    simp only [noDerefs, Bool.and_eq_true] at ht
    simp only [HasTys] at hv
    have := wires_noPanic F ts vs ht.2 hv.2 i e
    simpa [wireAll] using this
  termination_by structural ts
end

set_option maxRecDepth 4000 in
theorem noDeref_req : ∀ r : ReqType, r ≠ .csreqSendLocalList → noDeref r.ty = true := by
  intro r; cases r <;> first | decide | (intro h; exact absurd rfl h)

set_option maxRecDepth 4000 in
theorem noDeref_resp : ∀ r : RespType, noDeref r.ty = true := by
  intro r; cases r <;> decide

end Encode
end Verif
