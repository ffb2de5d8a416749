import Verif.Lemmas.Registry
import Verif.Spec.Registry
set_option linter.unusedSimpArgs false
namespace Verif.Registry

/-- Phase of a connection as numbers, to compare. -/
def Phase.ord : Phase → Nat
  | .registered => 0 | .serving => 1 | .leaving => 2 | .cleaned => 3

/-- How the history shows in the table. -/
structure Hist (tr : List Ev) (s : St) : Prop where
  made : ∀ (n : Nat) (id : String), Ev.handshake n id ∈ tr ↔ ∃ c, s.table[n]? = some c ∧ c.cp = id
  notif : ∀ (n : Nat) (id : String), Ev.notify n id ∈ tr ↔
    ∃ c, s.table[n]? = some c ∧ c.cp = id ∧ 1 ≤ c.phase.ord
  left : ∀ (n : Nat) (id : String), Ev.leave n id ∈ tr ↔
    ∃ c, s.table[n]? = some c ∧ c.cp = id ∧ 2 ≤ c.phase.ord
  cleaned : ∀ (n : Nat), Ev.cleanup n ∈ tr ↔ ∃ c, s.table[n]? = some c ∧ c.phase = .cleaned
  closed : ∀ (n : Nat), Ev.drop n ∈ tr ↔ ∃ c, s.table[n]? = some c ∧ c.closed = true
  up : ∀ (n : Nat) (id : String), Ev.connected n id ∈ tr ↔
    ∃ c, s.table[n]? = some c ∧ c.cp = id ∧ c.upCalled = true
  down : ∀ (n : Nat) (id : String), Ev.disconnected n id ∈ tr ↔
    ∃ c, s.table[n]? = some c ∧ c.cp = id ∧ c.downCalled = true
  upOrd : ∀ (n : Nat) (c : CState), s.table[n]? = some c → c.upCalled = true → 1 ≤ c.phase.ord
  downOrd : ∀ (n : Nat) (c : CState), s.table[n]? = some c → c.downCalled = true → 2 ≤ c.phase.ord
  order : ∀ (n : Nat) (c : CState), s.table[n]? = some c → 2 ≤ c.phase.ord → c.closed = true

theorem register_table (s : St) (id : String) :
    (s.register id).table = s.table ++ [CState.mk id .registered false false false] := by
  unfold St.register
  simp only
  split
  · simp [(ensureChan_same _ id).2.2.2.1]
  · simp only [St.closeChan]
    split
    · simp [(ensureChan_same _ id).2.2.2.1]
    · split <;> simp [(ensureChan_same _ id).2.2.2.1]

theorem cleanup_table (s : St) (n : Nat) (c : CState) :
    (s.cleanup n c).table = s.table.set n { c with phase := .cleaned } := by
  unfold St.cleanup; simp only; split <;> rfl

theorem snoc_getElem? {α : Type} (l : List α) (x : α) (n : Nat) (c : α) :
    (l ++ [x])[n]? = some c ↔ l[n]? = some c ∨ (n = l.length ∧ c = x) := by
  rw [List.getElem?_append]
  split
  · have : n ≠ l.length := by omega
    simp [this]
  · rename_i h
    have : l[n]? = none := by rw [List.getElem?_eq_none_iff]; omega
    rw [this]
    cases hx : n - l.length with
    | zero => have : n = l.length := by omega
              simp [this, eq_comm]
    | succ k => have : n ≠ l.length := by omega
                simp [this]

theorem hist_step {tr : List Ev} {s s' : St} {e : Ev} (h : Hist tr s) (hs : Step s e s') :
    Hist (tr ++ [e]) s' := by
  obtain ⟨h1, h2, h3, h4, h5, h7, h8, h9, h10, h6⟩ := h
  cases hs with
  | handshake id =>
    have ht := register_table s id
    have hno : ∀ c, s.table[s.table.length]? ≠ some c := by simp
    constructor <;> simp only [ht, List.mem_append, List.mem_singleton, snoc_getElem?] at * <;>
      grind [Phase.ord]
  | notify hc hp =>
    constructor <;> simp only [List.mem_append, List.mem_singleton, List.getElem?_set] at * <;>
      grind [Phase.ord]
  | @connected n c hc hp hu =>
    have ho : 1 ≤ c.phase.ord := by revert hp; cases c.phase <;> simp [Phase.ord]
    constructor <;> simp only [List.mem_append, List.mem_singleton, List.getElem?_set] at * <;>
      grind [Phase.ord]
  | @disconnected n c hc hp hu =>
    have ho : 2 ≤ c.phase.ord := by revert hp; cases c.phase <;> simp [Phase.ord]
    constructor <;> simp only [List.mem_append, List.mem_singleton, List.getElem?_set] at * <;>
      grind [Phase.ord]
  | drop hc =>
    constructor <;> simp only [List.mem_append, List.mem_singleton, List.getElem?_set] at * <;>
      grind [Phase.ord]
  | leave hc hp hcl =>
    constructor <;> simp only [List.mem_append, List.mem_singleton, List.getElem?_set] at * <;>
      grind [Phase.ord]
  | @cleanup n c hc hp =>
    have ht := cleanup_table s n c
    constructor <;> simp only [ht, List.mem_append, List.mem_singleton, List.getElem?_set] at * <;>
      grind [Phase.ord]
  | @waitConnect id c hc =>
    have ht := (ensureChan_same s id).2.2.2.1
    constructor <;> simp only [ht, List.mem_append, List.mem_singleton] at * <;> grind

theorem Exec.hist {tr : List Ev} {s : St} (h : Exec tr s) : Hist tr s := by
  induction h with
  | nil => constructor <;> simp [init]
  | snoc _ hs ih => exact hist_step ih hs

theorem ord_cleaned {p : Phase} : p = .cleaned ↔ p.ord = 3 := by cases p <;> simp [Phase.ord]

theorem openCount_pos {tr : List Ev} {s : St} (h : Exec tr s) (id : String) :
    0 < s.openCount id ↔ Registered tr id := by
  have hh := h.hist
  unfold St.openCount Registered Open Made Cleaned
  rw [List.countP_pos_iff]
  constructor
  · rintro ⟨c, hc, ho⟩
    obtain ⟨n, hn⟩ := List.getElem?_of_mem hc
    simp only [CState.openFor, Bool.and_eq_true, beq_iff_eq, bne_iff_ne] at ho
    exact ⟨n, (hh.made n id).2 ⟨c, hn, ho.1⟩, fun hcl => by
      obtain ⟨c', hc', hp⟩ := (hh.cleaned n).1 hcl
      rw [hn] at hc'; cases hc'; exact ho.2 hp⟩
  · rintro ⟨n, hm, hcl⟩
    obtain ⟨c, hn, hcp⟩ := (hh.made n id).1 hm
    refine ⟨c, List.mem_of_getElem? hn, ?_⟩
    simp only [CState.openFor, Bool.and_eq_true, beq_iff_eq, bne_iff_ne]
    exact ⟨hcp, fun hp => hcl ((hh.cleaned n).2 ⟨c, hn, hp⟩)⟩

theorem conns_get {tr : List Ev} {s : St} (h : Exec tr s) (id : String) (n : Nat) :
    s.conns.get id = some n ↔ Registered tr id ∧ Newest tr n id := by
  have hi := h.inv
  have hh := h.hist
  constructor
  · intro hg
    refine ⟨(openCount_pos h id).1 ((hi.reg id).1 ⟨n, hg⟩), ?_⟩
    obtain ⟨hc, hmax⟩ := hi.last id n hg
    refine ⟨(hh.made n id).2 hc, fun m hm => ?_⟩
    obtain ⟨c, hc1, hc2⟩ := (hh.made m id).1 hm
    exact hmax m c hc1 hc2
  · rintro ⟨hr, hn, hmax⟩
    obtain ⟨m, hm⟩ := (hi.reg id).2 ((openCount_pos h id).2 hr)
    obtain ⟨hc, hmax'⟩ := hi.last id m hm
    have h1 := hmax m ((hh.made m id).2 hc)
    obtain ⟨c, hc1, hc2⟩ := (hh.made n id).1 hn
    have h2 := hmax' n c hc1 hc2
    have : m = n := by omega
    rw [← this]; exact hm

theorem conns_none {tr : List Ev} {s : St} (h : Exec tr s) (id : String) :
    s.conns.get id = none ↔ ¬ Registered tr id := by
  rw [← openCount_pos h, ← h.inv.reg id]
  cases s.conns.get id <;> simp

theorem connected_iff {tr : List Ev} {s : St} (h : Exec tr s) (id : String) :
    s.connected id = true ↔ Registered tr id := by
  rw [← openCount_pos h]; exact h.inv.con id

/-- Splitting a history. -/
theorem Run.append {s s' s'' : St} {t t' : List Ev} (h : Run s t s') (h' : Run s' t' s'') :
    Run s (t ++ t') s'' := by
  induction h' with
  | nil => simpa using h
  | snoc _ hs ih => rw [← List.append_assoc]; exact .snoc ih hs

/-! ### Channels -/

/-- Channel `c` has been handed out for `id` and `b` says whether it is closed. -/
def Watch (s : St) (id : String) (c : Nat) (b : Bool) : Prop :=
  s.chanClosed[c]? = some b ∧ (b = false → s.chans id = some c ∧ s.connected id = false)

theorem ensureChan_chans (s : St) (id id' : String) (c : Nat) (h : s.chans id' = some c) :
    (s.ensureChan id).chans id' = some c := by
  unfold St.ensureChan
  split
  · exact h
  · rename_i hn
    simp only [upd]; rw [if_neg]; exact h
    rintro rfl; rw [hn] at h; simp at h

theorem ensureChan_closed (s : St) (id : String) (c : Nat) (b : Bool) (h : s.chanClosed[c]? = some b) :
    (s.ensureChan id).chanClosed[c]? = some b := by
  unfold St.ensureChan
  split
  · exact h
  · have := (List.getElem?_eq_some_iff.1 h).1
    simp only; rw [List.getElem?_append_left this]; exact h

/-- The form of `register` when the invariant holds. -/
theorem register_eq {s : St} (h : Inv s) (id : String) :
    ∃ ch, (s.ensureChan id).chans id = some ch ∧
    (s.register id).chans = (s.ensureChan id).chans ∧
    (s.register id).connected = upd s.connected id true ∧
    (s.register id).conns = s.conns.put id s.table.length ∧
    (s.register id).chanClosed =
      if s.connected id then (s.ensureChan id).chanClosed
      else (s.ensureChan id).chanClosed.set ch true := by
  have he := inv_ensureChan h id
  obtain ⟨e1, e2, e3, e4, e5⟩ := ensureChan_same s id
  obtain ⟨ch, hch⟩ := ensureChan_some s id
  refine ⟨ch, hch, ?_⟩
  unfold St.register
  by_cases hc : s.connected id = true
  · obtain ⟨c, hc1, hc2⟩ := h.up id hc
    simp [St.ensureChan, hc1, hc]
  · have hc' : s.connected id = false := by simpa using hc
    have hopen := he.down id ch (by rw [e3]; exact hc') hch
    unfold St.ensureChan at hch hopen ⊢
    cases hn : s.chans id with
    | none =>
      simp [hn] at hch hopen ⊢
      simp [upd] at hch; subst hch
      simp [hc', St.closeChan, upd]
    | some c =>
      simp [hn] at hch hopen ⊢
      subst hch
      simp [hc', St.closeChan, hn, hopen]

/-- The event is a handshake of `id`. -/
def Ev.isHandshake (id : String) : Ev → Bool
  | .handshake _ i => i == id
  | _ => false

theorem watch_step {s s' : St} {e : Ev} {id : String} {c : Nat} {b : Bool} (hi : Inv s)
    (hw : Watch s id c b) (hs : Step s e s') :
    Watch s' id c (b || e.isHandshake id) := by
  obtain ⟨hcl, hopen⟩ := hw
  cases hs with
  | handshake i =>
    simp only [Ev.isHandshake]
    obtain ⟨ch, h1, h2, h3, h4, h5⟩ := register_eq hi i
    have hb := ensureChan_closed s i c b hcl
    have hb' := (List.getElem?_eq_some_iff.1 hb).1
    unfold Watch
    rw [h2, h3, h5]
    simp only [upd]
    cases b with
    | true =>
      simp only [Bool.true_or]
      refine ⟨?_, by simp⟩
      split
      · exact hb
      · simp only [List.getElem?_set]; split
        · simp_all
        · exact hb
    | false =>
      obtain ⟨o1, o2⟩ := hopen rfl
      have o3 := ensureChan_chans s i id c o1
      by_cases hid : i = id
      · subst hid
        rw [h1] at o3; cases o3
        simp [o2, hb']
      · have hid' : ¬ id = i := fun h => hid h.symm
        have hne : ch ≠ c := by
          rintro rfl; exact hid ((inv_ensureChan hi i).inj _ _ _ h1 o3)
        simp only [Bool.false_or, hid', if_false, hid, beq_iff_eq]
        refine ⟨?_, ?_⟩
        · have : (i == id) = false := by simpa using hid
          rw [this]
          split
          · exact hb
          · simp [List.getElem?_set, hne, hb]
        · intro _; exact ⟨o3, o2⟩
  | notify hc hp => simp only [Ev.isHandshake, Bool.or_false]; exact ⟨hcl, hopen⟩
  | connected hc _ _ => simp only [Ev.isHandshake, Bool.or_false]; exact ⟨hcl, hopen⟩
  | disconnected hc _ _ => simp only [Ev.isHandshake, Bool.or_false]; exact ⟨hcl, hopen⟩
  | drop hc => simp only [Ev.isHandshake, Bool.or_false]; exact ⟨hcl, hopen⟩
  | leave hc hp _ => simp only [Ev.isHandshake, Bool.or_false]; exact ⟨hcl, hopen⟩
  | @cleanup n d hc hp =>
    simp only [Ev.isHandshake, Bool.or_false]
    unfold St.cleanup
    simp only
    have hb := (List.getElem?_eq_some_iff.1 hcl).1
    split
    · refine ⟨by simp only; rw [List.getElem?_append_left hb]; exact hcl, ?_⟩
      intro hbf
      obtain ⟨o1, o2⟩ := hopen hbf
      have hne : ¬ id = d.cp := by
        rintro rfl
        have h0 : ¬ 0 < s.openCount d.cp := fun h => by
          have := (hi.con d.cp).2 h; rw [o2] at this; simp at this
        have : 0 < s.openCount d.cp := by
          unfold St.openCount
          rw [List.countP_pos_iff]
          exact ⟨d, List.mem_of_getElem? hc, by simp [CState.openFor, hp]⟩
        exact h0 this
      simp [upd, hne, o1, o2]
    · exact ⟨hcl, hopen⟩
  | @waitConnect i d hc =>
    simp only [Ev.isHandshake, Bool.or_false]
    refine ⟨ensureChan_closed s i c b hcl, fun hbf => ?_⟩
    obtain ⟨o1, o2⟩ := hopen hbf
    exact ⟨ensureChan_chans s i id c o1, by rw [(ensureChan_same s i).2.2.1]; exact o2⟩

/-- Whether the history has a handshake of `id`. -/
def hasHandshake (tr : List Ev) (id : String) : Bool :=
  tr.any (Ev.isHandshake id)

theorem hasHandshake_iff (tr : List Ev) (id : String) :
    hasHandshake tr id = true ↔ ∃ n, Made tr n id := by
  unfold hasHandshake Made
  rw [List.any_eq_true]
  constructor
  · rintro ⟨e, he, h⟩
    cases e <;> simp [Ev.isHandshake] at h
    subst h; exact ⟨_, he⟩
  · rintro ⟨n, hn⟩; exact ⟨_, hn, by simp [Ev.isHandshake]⟩

theorem watch_run {s s' : St} {tr : List Ev} {id : String} {c : Nat} {b : Bool} (hi : Inv s)
    (hw : Watch s id c b) (hr : Run s tr s') : Watch s' id c (b || hasHandshake tr id) := by
  induction hr with
  | nil => simpa [hasHandshake] using hw
  | snoc hr hs ih =>
    have := watch_step (hr.inv hi) ih hs
    simpa [hasHandshake, List.any_append, Bool.or_assoc] using this

theorem watch_wait {s s' : St} {id : String} {c : Nat} (hi : Inv s)
    (hs : Step s (.waitConnect id c) s') : Watch s' id c (s.connected id) := by
  cases hs with
  | waitConnect hc =>
    have he := inv_ensureChan hi id
    have e3 := (ensureChan_same s id).2.2.1
    cases hcon : s.connected id with
    | true =>
      obtain ⟨d, h1, h2⟩ := he.up id (by rw [e3]; exact hcon)
      rw [hc] at h1; cases h1
      exact ⟨h2, by simp⟩
    | false =>
      exact ⟨he.down id c (by rw [e3]; exact hcon) hc, fun _ => ⟨hc, by rw [e3]; exact hcon⟩⟩

end Verif.Registry
