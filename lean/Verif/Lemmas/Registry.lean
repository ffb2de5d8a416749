import Mathlib.Tactic.ByContra
import Verif.Model.Registry
set_option linter.unusedSimpArgs false
namespace Verif.Registry

/-- The connection belongs to `id` and has not been cleaned up. -/
def CState.openFor (id : String) (c : CState) : Bool := c.cp == id && c.phase != .cleaned

/-- Connections of `id` not cleaned up. -/
def St.openCount (s : St) (id : String) : Nat := s.table.countP (CState.openFor id)

/-- The registry invariant. -/
structure Inv (s : St) : Prop where
  wf : s.conns.WF
  cnt : ∀ id, s.count id = (s.openCount id : Int)
  con : ∀ id, s.connected id = true ↔ 0 < s.openCount id
  reg : ∀ id, (∃ n, s.conns.get id = some n) ↔ 0 < s.openCount id
  last : ∀ (id : String) (n : Nat), s.conns.get id = some n →
    (∃ c, s.table[n]? = some c ∧ c.cp = id) ∧
    ∀ (m : Nat) (c : CState), s.table[m]? = some c → c.cp = id → m ≤ n
  up : ∀ id, s.connected id = true → ∃ c, s.chans id = some c ∧ s.chanClosed[c]? = some true
  down : ∀ (id : String) (c : Nat), s.connected id = false → s.chans id = some c → s.chanClosed[c]? = some false
  inj : ∀ (id id' : String) (c : Nat), s.chans id = some c → s.chans id' = some c → id = id'
  bnd : ∀ (id : String) (c : Nat), s.chans id = some c → c < s.chanClosed.length
  ok : s.panicked = false

theorem inv_init : Inv init := by
  constructor <;> simp [init, GoMap.get, GoMap.WF, St.openCount]

theorem countP_set {l : List CState} {k : Nat} {p q : CState} {id : String} (hk : l[k]? = some p) :
    (l.set k q).countP (CState.openFor id) + (if p.openFor id then 1 else 0)
      = l.countP (CState.openFor id) + (if q.openFor id then 1 else 0) := by
  induction l generalizing k with
  | nil => simp at hk
  | cons a l ih =>
    cases k with
    | zero =>
      simp at hk; subst hk
      simp [List.countP_cons]; omega
    | succ k =>
      simp at hk
      have := ih hk
      simp only [List.set_cons_succ, List.countP_cons]; omega

/-- Changing the table without touching charge point ids and openness. -/
theorem inv_table {s : St} (h : Inv s) {n : Nat} {c c' : CState} (hc : s.table[n]? = some c)
    (hcp : c'.cp = c.cp) (ho : c.phase = .cleaned ↔ c'.phase = .cleaned) :
    Inv { s with table := s.table.set n c' } := by
  obtain ⟨h1, h2, h3, h4, h5, h6, h7, h8, h9, h10⟩ := h
  have hlt : n < s.table.length := (List.getElem?_eq_some_iff.1 hc).1
  have hcount : ∀ id, (s.table.set n c').countP (CState.openFor id) = s.openCount id := by
    intro id
    have := countP_set (q := c') (id := id) hc
    have he : c'.openFor id = c.openFor id := by
      unfold CState.openFor
      rw [hcp]
      by_cases hx : c.phase = .cleaned
      · rw [hx, ho.1 hx]
      · have hy : ¬ c'.phase = .cleaned := fun h => hx (ho.2 h)
        have b1 : (c.phase != .cleaned) = true := by simpa using hx
        have b2 : (c'.phase != .cleaned) = true := by simpa using hy
        rw [b1, b2]
    rw [he] at this; unfold St.openCount; omega
  constructor
  · exact h1
  · intro id; simp only [St.openCount, hcount]; exact h2 id
  · intro id; simp only [St.openCount, hcount]; exact h3 id
  · intro id; simp only [St.openCount, hcount]; exact h4 id
  · intro id m hm
    obtain ⟨⟨d, hd, hd'⟩, hmax⟩ := h5 id m hm
    refine ⟨?_, ?_⟩
    · simp only [List.getElem?_set]
      by_cases hnm : n = m
      · subst hnm; rw [hc] at hd; cases hd
        exact ⟨c', by simp [hlt], by rw [hcp]; exact hd'⟩
      · exact ⟨d, by simp [hnm, hd], hd'⟩
    · intro k e hk hke
      simp only [List.getElem?_set] at hk
      by_cases hnk : n = k
      · subst hnk; simp [hlt] at hk; subst hk
        exact hmax n c hc (by rw [← hcp]; exact hke)
      · simp [hnk] at hk; exact hmax k e hk hke
  all_goals assumption

theorem inv_ensureChan {s : St} (h : Inv s) (id : String) : Inv (s.ensureChan id) := by
  unfold St.ensureChan
  split
  · exact h
  · rename_i hnone
    obtain ⟨h1, h2, h3, h4, h5, h6, h7, h8, h9, h10⟩ := h
    constructor
    · exact h1
    · exact h2
    · exact h3
    · exact h4
    · exact h5
    · intro id' hc
      obtain ⟨c, hc1, hc2⟩ := h6 id' hc
      have := h9 _ _ hc1
      refine ⟨c, ?_, ?_⟩
      · simp only [upd]; rw [if_neg]; exact hc1
        rintro rfl; rw [hnone] at hc1; simp at hc1
      · rw [List.getElem?_append_left this]; exact hc2
    · intro id' c hc hch
      simp only [upd] at hch
      split at hch
      · simp at hch; subst hch; simp
      · have := h9 _ _ hch
        rw [List.getElem?_append_left this]; exact h7 _ _ hc hch
    · intro a b c ha hb
      simp only [upd] at ha hb
      split at ha <;> split at hb
      · simp_all
      · simp at ha; subst ha; have := h9 _ _ hb; omega
      · simp at hb; subst hb; have := h9 _ _ ha; omega
      · exact h8 _ _ _ ha hb
    · intro a c ha
      simp only [upd] at ha
      simp only [List.length_append, List.length_singleton]
      split at ha
      · simp at ha; omega
      · have := h9 _ _ ha; omega
    · exact h10

theorem ensureChan_same (s : St) (id : String) :
    (s.ensureChan id).conns = s.conns ∧ (s.ensureChan id).count = s.count ∧
    (s.ensureChan id).connected = s.connected ∧ (s.ensureChan id).table = s.table ∧
    (s.ensureChan id).panicked = s.panicked := by
  unfold St.ensureChan; split <;> simp

theorem ensureChan_some (s : St) (id : String) : ∃ c, (s.ensureChan id).chans id = some c := by
  unfold St.ensureChan; split
  · exact ⟨_, by assumption⟩
  · simp [upd]

/-- The channel part of `register`, given the invariant. -/
theorem inv_register {s : St} (h : Inv s) (id : String) : Inv (s.register id) := by
  have he := inv_ensureChan h id
  obtain ⟨e1, e2, e3, e4, e5⟩ := ensureChan_same s id
  obtain ⟨ch, hch⟩ := ensureChan_some s id
  -- the state before the channel is closed
  have hreg : s.register id =
      let t := s.ensureChan id
      { conns := s.conns.put id s.table.length
        count := upd s.count id (s.count id + 1)
        chans := t.chans
        connected := upd s.connected id true
        table := s.table ++ [CState.mk id .registered false false false]
        chanClosed := if s.connected id then t.chanClosed else t.chanClosed.set ch true
        panicked := false } := by
    have hp : s.panicked = false := h.ok
    unfold St.register
    by_cases hc : s.connected id = true
    · obtain ⟨c, hc1, hc2⟩ := h.up id hc
      simp [St.ensureChan, hc1, hc, hp]
    · have hc' : s.connected id = false := by simpa using hc
      have hopen := he.down id ch (by rw [e3]; exact hc') hch
      unfold St.ensureChan at hch hopen ⊢
      cases hn : s.chans id with
      | none =>
        simp [hn] at hch hopen ⊢
        simp [upd] at hch; subst hch
        simp [hc', St.closeChan, upd, hp]
      | some c =>
        simp [hn] at hch hopen ⊢
        subst hch
        simp [hc', St.closeChan, hn, hopen, hp]
  rw [hreg]
  have hbnd := he.bnd id ch hch
  have hcount : ∀ id', (s.table ++ [CState.mk id .registered false false false]).countP (CState.openFor id') =
      s.openCount id' + if id' = id then 1 else 0 := by
    intro id'
    rw [List.countP_append]
    simp only [St.openCount, List.countP_cons, List.countP_nil, CState.openFor]
    by_cases hid : id' = id
    · simp [hid]
    · have : ¬ id = id' := fun h => hid h.symm
      simp [hid, this]
  constructor
  · exact h.wf.put _ _
  · intro id'
    simp only [St.openCount, hcount, upd]
    by_cases hid : id' = id
    · subst hid; simp [h.cnt, St.openCount]
    · simp [hid, h.cnt, St.openCount]
  · intro id'
    simp only [St.openCount, hcount, upd]
    by_cases hid : id' = id
    · simp [hid]
    · simp only [hid, if_false, Nat.add_zero]; exact h.con id'
  · intro id'
    simp only [St.openCount, hcount, GoMap.get_put]
    by_cases hid : id' = id
    · simp [hid]
    · simp only [hid, if_false, Nat.add_zero]; exact h.reg id'
  · intro id' n hn
    simp only [GoMap.get_put] at hn
    by_cases hid : id' = id
    · subst hid
      simp at hn; subst hn
      refine ⟨⟨CState.mk id' .registered false false false, by simp, rfl⟩, ?_⟩
      intro m c hm _
      have := (List.getElem?_eq_some_iff.1 hm).1
      simp at this; omega
    · simp [hid] at hn
      obtain ⟨⟨c, hc1, hc2⟩, hmax⟩ := h.last id' n hn
      have hlt := (List.getElem?_eq_some_iff.1 hc1).1
      refine ⟨⟨c, by rw [List.getElem?_append_left hlt]; exact hc1, hc2⟩, ?_⟩
      intro m d hm hd
      rw [List.getElem?_append] at hm
      split at hm
      · exact hmax m d hm hd
      · have : d = CState.mk id .registered false false false := by
          cases hx : m - s.table.length with
          | zero => rw [hx] at hm; simpa using hm.symm
          | succ k => rw [hx] at hm; simp at hm
        subst this; exact absurd hd.symm hid
  · intro id' hc
    simp only [upd] at hc
    by_cases hid : id' = id
    · subst hid
      refine ⟨ch, hch, ?_⟩
      by_cases hcon : s.connected id' = true
      · obtain ⟨c, hc1, hc2⟩ := he.up id' (by rw [e3]; exact hcon)
        rw [hch] at hc1; cases hc1; simp [hcon, hc2]
      · simp [hcon, hbnd]
    · simp [hid] at hc
      obtain ⟨c, hc1, hc2⟩ := he.up id' (by rw [e3]; exact hc)
      refine ⟨c, hc1, ?_⟩
      split
      · exact hc2
      · have : ch ≠ c := by rintro rfl; exact hid (he.inj _ _ _ hc1 hch)
        simp [List.getElem?_set, this, hc2]
  · intro id' c hc hcc
    simp only [upd] at hc
    by_cases hid : id' = id
    · simp [hid] at hc
    · simp [hid] at hc
      have hc2 := he.down id' c (by rw [e3]; exact hc) hcc
      split
      · exact hc2
      · have : ch ≠ c := by rintro rfl; exact hid (he.inj _ _ _ hcc hch)
        simp [List.getElem?_set, this, hc2]
  · exact he.inj
  · intro a c ha
    have := he.bnd a c ha
    split
    · exact this
    · simpa using this
  · rfl

theorem inv_cleanup {s : St} (h : Inv s) {n : Nat} {c : CState} (hc : s.table[n]? = some c)
    (hp : c.phase = .leaving) : Inv (s.cleanup n c) := by
  have hlt : n < s.table.length := (List.getElem?_eq_some_iff.1 hc).1
  have hcount : ∀ id, (s.table.set n { c with phase := .cleaned }).countP (CState.openFor id)
      + (if id = c.cp then 1 else 0) = s.openCount id := by
    intro id
    have := countP_set (q := { c with phase := .cleaned }) (id := id) hc
    unfold St.openCount
    by_cases hid : id = c.cp
    · subst hid
      have ho : c.openFor c.cp = true := by simp [CState.openFor, hp]
      have ho' : ({ c with phase := .cleaned } : CState).openFor c.cp = false := by
        simp [CState.openFor]
      rw [ho, ho'] at this; simp at this ⊢; omega
    · have hid' : ¬ c.cp = id := fun h => hid h.symm
      have ho : c.openFor id = false := by simp [CState.openFor, hid']
      have ho' : ({ c with phase := .cleaned } : CState).openFor id = false := by
        simp [CState.openFor]
      rw [ho, ho'] at this; simp [hid] at this ⊢; omega
  have hlast : ∀ (id : String) (m : Nat), s.conns.get id = some m →
      (∃ d, (s.table.set n { c with phase := .cleaned })[m]? = some d ∧ d.cp = id) ∧
      ∀ (k : Nat) (e : CState), (s.table.set n { c with phase := .cleaned })[k]? = some e →
        e.cp = id → k ≤ m := by
    intro id m hm
    obtain ⟨⟨d, hd, hd'⟩, hmax⟩ := h.last id m hm
    refine ⟨?_, ?_⟩
    · simp only [List.getElem?_set]
      by_cases hnm : n = m
      · subst hnm; rw [hc] at hd; cases hd
        exact ⟨{ c with phase := .cleaned }, by simp [hlt], hd'⟩
      · exact ⟨d, by simp [hnm, hd], hd'⟩
    · intro k e hk hke
      simp only [List.getElem?_set] at hk
      by_cases hnk : n = k
      · subst hnk; simp [hlt] at hk; subst hk
        exact hmax n c hc hke
      · simp [hnk] at hk; exact hmax k e hk hke
  have hcnt : ∀ id, upd s.count c.cp (s.count c.cp - 1) id =
      ((s.table.set n { c with phase := .cleaned }).countP (CState.openFor id) : Int) := by
    intro id
    have h1 := hcount id
    have h2 := h.cnt id
    unfold upd
    by_cases hid : id = c.cp
    · subst hid; simp at h1 ⊢; omega
    · simp [hid] at h1 ⊢; omega
  unfold St.cleanup
  simp only
  split
  · rename_i hz
    rw [hcnt] at hz
    have hz' : (s.table.set n { c with phase := .cleaned }).countP (CState.openFor c.cp) = 0 := by
      omega
    constructor
    · exact h.wf.del _
    · exact hcnt
    · intro id
      simp only [St.openCount, upd]
      by_cases hid : id = c.cp
      · subst hid; simp only [if_true, hz']; simp
      · have := hcount id
        simp only [hid, if_false, Nat.add_zero] at this ⊢
        rw [this]; exact h.con id
    · intro id
      simp only [St.openCount, GoMap.get_del]
      by_cases hid : id = c.cp
      · subst hid; simp only [if_true, hz']; simp
      · have := hcount id
        simp only [hid, if_false, Nat.add_zero] at this ⊢
        rw [this]; exact h.reg id
    · intro id m hm
      simp only [GoMap.get_del] at hm
      split at hm
      · simp at hm
      · exact hlast id m hm
    · intro id hcon
      simp only [upd] at hcon ⊢
      by_cases hid : id = c.cp
      · simp [hid] at hcon
      · simp only [hid, if_false] at hcon ⊢
        obtain ⟨d, hd1, hd2⟩ := h.up id hcon
        have := h.bnd _ _ hd1
        exact ⟨d, hd1, by rw [List.getElem?_append_left this]; exact hd2⟩
    · intro id d hcon hd
      simp only [upd] at hcon hd
      by_cases hid : id = c.cp
      · simp only [hid, if_true, Option.some.injEq] at hd; subst hd; simp
      · simp only [hid, if_false] at hcon hd
        have := h.bnd _ _ hd
        rw [List.getElem?_append_left this]; exact h.down id d hcon hd
    · intro a b d ha hb
      simp only [upd] at ha hb
      split at ha <;> split at hb
      · simp_all
      · simp at ha; subst ha; have := h.bnd _ _ hb; omega
      · simp at hb; subst hb; have := h.bnd _ _ ha; omega
      · exact h.inj _ _ _ ha hb
    · intro a d ha
      simp only [upd] at ha
      simp only [List.length_append, List.length_singleton]
      split at ha
      · simp at ha; omega
      · have := h.bnd _ _ ha; omega
    · exact h.ok
  · rename_i hz
    rw [hcnt] at hz
    have hpos : 0 < (s.table.set n { c with phase := .cleaned }).countP (CState.openFor c.cp) := by
      omega
    have hiff : ∀ id, 0 < (s.table.set n { c with phase := .cleaned }).countP (CState.openFor id) ↔
        0 < s.openCount id := by
      intro id
      have := hcount id
      by_cases hid : id = c.cp
      · subst hid; simp at this; omega
      · simp [hid] at this; omega
    constructor
    · exact h.wf
    · exact hcnt
    · intro id; simp only [St.openCount, hiff]; exact h.con id
    · intro id; simp only [St.openCount, hiff]; exact h.reg id
    · exact hlast
    · exact h.up
    · exact h.down
    · exact h.inj
    · exact h.bnd
    · exact h.ok

theorem inv_step {s s' : St} {e : Ev} (h : Inv s) (hs : Step s e s') : Inv s' := by
  cases hs with
  | handshake id => exact inv_register h id
  | notify hc hp => exact inv_table h hc rfl (by simp [hp])
  | drop hc => exact inv_table h hc rfl (by simp)
  | connected hc _ _ => exact inv_table h hc rfl (by simp)
  | disconnected hc _ _ => exact inv_table h hc rfl (by simp)
  | leave hc hp _ => exact inv_table h hc rfl (by simp [hp])
  | cleanup hc hp => exact inv_cleanup h hc hp
  | waitConnect _ => exact inv_ensureChan h _

theorem Exec.inv {tr : List Ev} {s : St} (h : Exec tr s) : Inv s := by
  induction h with
  | nil => exact inv_init
  | snoc _ hs ih => exact inv_step ih hs

theorem Run.inv {tr : List Ev} {s s' : St} (hi : Inv s) (h : Run s tr s') : Inv s' := by
  induction h with
  | nil => exact hi
  | snoc _ hs ih => exact inv_step ih hs

end Verif.Registry
