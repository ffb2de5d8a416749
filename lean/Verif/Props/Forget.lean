import Verif.Props.Registry
import Verif.Lemmas.Hub
/-!
# What a central system never forgets: property C112

`handleWebsocket` and `WaitConnect` put an entry into `connChans` (cs/cs.go:111-113, 228-230) and
nothing ever takes it out: the bookkeeping of cs.go:130-135 deletes the connection but replaces the
channel.  So the memory of a central system follows the ids it was ever shown, not the charge points
it serves; and the id is whatever path the peer asked for (cs.go:97).
-/
namespace Verif.Registry

/-- The id was once connected or waited for. -/
def Shown (tr : List Ev) (id : String) : Prop :=
  (∃ n, Ev.handshake n id ∈ tr) ∨ ∃ c, Ev.waitConnect id c ∈ tr

theorem Shown.append {tr tr' : List Ev} {id : String} :
    Shown (tr ++ tr') id ↔ Shown tr id ∨ Shown tr' id := by
  unfold Shown
  simp only [List.mem_append, exists_or]
  exact or_or_or_comm

theorem ensureChan_entry (s : St) (id id' : String) :
    (s.ensureChan id).chans id' ≠ none ↔ s.chans id' ≠ none ∨ id' = id := by
  by_cases h : id' = id
  · subst h
    obtain ⟨c, hc⟩ := ensureChan_some s id'
    simp [hc]
  · unfold St.ensureChan
    split
    · simp [h]
    · simp [upd, h]

/-- C112: the central system holds a channel for an id if and only if the id was ever the path of a
handshake or the argument of a `WaitConnect`. -/
theorem C112_entries {tr : List Ev} {s : St} (h : Exec tr s) (id : String) :
    s.chans id ≠ none ↔ Shown tr id := by
  induction h generalizing id with
  | nil => simp [init, Shown]
  | @snoc tr e s s' h hs ih =>
    rw [Shown.append, ← ih id]
    cases hs with
    | handshake id' =>
      rw [(register_eq (Exec.inv h) id').choose_spec.2.1, ensureChan_entry]
      simp [Shown, eq_comm]
    | waitConnect hc => rw [ensureChan_entry]; simp [Shown, eq_comm]
    | @cleanup n c hc hp =>
      have hm : s.chans c.cp ≠ none := by
        rw [ih]
        exact .inl ⟨n, ((Exec.hist h).made n c.cp).2 ⟨c, hc, rfl⟩⟩
      unfold St.cleanup
      simp only
      split
      · by_cases hid : id = c.cp
        · subst hid; simp [upd, hm]
        · simp [upd, hid, Shown]
      · simp [Shown]
    | _ => simp [Shown]

/-- C112: and no two ids share one. -/
theorem C112_apart {tr : List Ev} {s : St} (h : Exec tr s) {id id' : String} {c : Nat}
    (h1 : s.chans id = some c) (h2 : s.chans id' = some c) : id = id' :=
  h.inv.inj id id' c h1 h2

/-- C112: nothing the central system does later removes an entry. -/
theorem C112_kept {tr tr' : List Ev} {s s' : St} (h : Exec tr s) (h' : Run s tr' s') {id : String}
    (hid : s.chans id ≠ none) : s'.chans id ≠ none :=
  (C112_entries (Run.append h h') id).2 (Shown.append.2 (.inl ((C112_entries h id).1 hid)))

/-- Every connection has come and gone, and its listeners were called. -/
def Gone (s : St) : Prop := ∀ c ∈ s.table, c.phase = .cleaned ∧ c.upCalled = true ∧ c.downCalled = true

theorem Gone.quiet {s : St} (h : Gone s) : Quiet s := by
  intro e s' hs
  have hg : ∀ {n : Nat} {c : CState}, s.table[n]? = some c → c.phase = .cleaned ∧ c.upCalled = true ∧ c.downCalled = true :=
    fun hc => h _ (List.mem_of_getElem? hc)
  cases hs with
  | handshake | drop | waitConnect => trivial
  | notify hc hp => have := hg hc; simp_all
  | connected hc _ hu => have := hg hc; simp_all
  | disconnected hc _ hu => have := hg hc; simp_all
  | leave hc hp => have := hg hc; simp_all
  | cleanup hc hp => have := hg hc; simp_all

theorem Gone.landing {tr : List Ev} {s : St} (h : Exec tr s) (hg : Gone s) : s.landing = 0 := by
  have : ∀ id, s.conns.get id = none := by
    intro id
    rw [conns_none h]
    rintro ⟨n, hm, hc⟩
    obtain ⟨c, h1, h2⟩ := (h.hist.made n id).1 hm
    exact hc ((h.hist.cleaned n).2 ⟨c, h1, (hg c (List.mem_of_getElem? h1)).1⟩)
  unfold St.landing
  cases hconns : s.conns with
  | nil => rfl
  | cons p m =>
    have := this p.1
    rw [hconns] at this
    simp [GoMap.get] at this

/-- One visit of a charge point: it connects, the listeners are told, it goes, and the bookkeeping
is done. -/
def visit (n : Nat) (id : String) : List Ev :=
  [.handshake n id, .notify n id, .connected n id, .drop n, .leave n id, .disconnected n id, .cleanup n]

theorem visit_run {s : St} (hg : Gone s) (id : String) :
    ∃ s', Run s (visit s.table.length id) s' ∧ Gone s' := by
  have hat : ∀ (l : List CState) (c : CState), (l ++ [c])[l.length]? = some c := by simp
  have hset : ∀ (l : List CState) (c c' : CState), (l ++ [c]).set l.length c' = l ++ [c'] := by simp
  have e1 := Run.snoc .nil (Step.handshake (s := s) id)
  have ht := register_table s id
  generalize s.register id = s1 at e1 ht
  have e2 := e1.snoc (Step.notify (n := s.table.length) (by rw [ht]; exact hat _ _) rfl)
  have e3 := e2.snoc (Step.connected (n := s.table.length) (by simp only [ht, hset]; exact hat _ _) (by simp) rfl)
  have e4 := e3.snoc (Step.drop (n := s.table.length) (by simp only [ht, hset]; exact hat _ _))
  have e5 := e4.snoc (Step.leave (n := s.table.length) (by simp only [ht, hset]; exact hat _ _) rfl rfl)
  have e6 := e5.snoc (Step.disconnected (n := s.table.length) (by simp only [ht, hset]; exact hat _ _) (.inl rfl) rfl)
  have e7 := e6.snoc (Step.cleanup (n := s.table.length) (by simp only [ht, hset]; exact hat _ _) rfl)
  refine ⟨_, e7, ?_⟩
  intro c hc
  rw [cleanup_table] at hc
  simp only [ht, hset, List.mem_append, List.mem_singleton] at hc
  rcases hc with hc | rfl
  · exact hg c hc
  · exact ⟨rfl, rfl, rfl⟩

/-- C112: whatever ids a peer chooses to visit under, one after the other, the central system can be
left with no connection, no work and an empty landing page, and still hold a channel for each. -/
theorem C112_growth (ids : List String) :
    ∃ tr s, Exec tr s ∧ Quiet s ∧ s.landing = 0 ∧ (∀ id, ¬ Registered tr id) ∧
      ∀ id, s.chans id ≠ none ↔ id ∈ ids := by
  have key : ∃ tr s, Exec tr s ∧ Gone s ∧ ∀ id, Shown tr id ↔ id ∈ ids := by
    induction ids with
    | nil => exact ⟨[], init, .nil, by simp [Gone, init], by simp [Shown]⟩
    | cons a ids ih =>
      obtain ⟨tr, s, h, hg, hs⟩ := ih
      obtain ⟨s', h', hg'⟩ := visit_run hg a
      refine ⟨_, s', Run.append h h', hg', fun id => ?_⟩
      rw [Shown.append, hs]
      simp [Shown, visit, eq_comm, or_comm]
  obtain ⟨tr, s, h, hg, hs⟩ := key
  have hl := hg.landing h
  refine ⟨tr, s, h, hg.quiet, hl, fun id => ?_, fun id => (C112_entries h id).trans (hs id)⟩
  rw [← conns_none h]
  have : s.conns = [] := List.length_eq_zero_iff.1 hl
  rw [this]; rfl

/-- Two strangers came and went. -/
example : ∃ tr s, Exec tr s ∧ Quiet s ∧ s.landing = 0 ∧ s.chans "a" ≠ none ∧ s.chans "b" ≠ none ∧
    s.chans "a" ≠ s.chans "b" := by
  obtain ⟨tr, s, h, hq, hl, -, hs⟩ := C112_growth ["a", "b"]
  refine ⟨tr, s, h, hq, hl, (hs _).2 (by simp), (hs _).2 (by simp), fun he => ?_⟩
  cases hc : s.chans "a" with
  | none => exact (hs "a").2 (by simp) hc
  | some c => exact absurd (C112_apart h hc (he ▸ hc)) (by decide)

end Verif.Registry

namespace Verif.Hub
open Verif.Ocppj Verif.Registry

variable {F : FloatFmt} {o : Codec.Order}

/-- C112, for the central system with its sockets: it holds a channel for an id exactly if a
websocket request that named the id was accepted and registered, or somebody waited for the id. -/
theorem C112_service {tr : List (Ev F o)} {s : St F o} (h : Exec tr s) (id : String) :
    s.reg.chans id ≠ none ↔ (∃ n k, Ev.register n k id ∈ tr) ∨ ∃ c, Ev.reg (.waitConnect id c) ∈ tr := by
  obtain ⟨trR, hR, h1, -, h3⟩ := h.inv.reg
  rw [C112_entries hR id]
  unfold Shown
  refine or_congr ⟨fun ⟨k, hk⟩ => ?_, fun ⟨n, k, hk⟩ => ⟨k, (h1 k id).2 ⟨n, hk⟩⟩⟩ ⟨fun ⟨c, hc⟩ => ⟨c, ?_⟩, fun ⟨c, hc⟩ => ⟨c, ?_⟩⟩
  · obtain ⟨n, hn⟩ := (h1 k id).1 hk
    exact ⟨n, k, hn⟩
  · rw [← mem_regEvents, ← h3]; exact List.mem_filter.2 ⟨hc, rfl⟩
  · rw [← mem_regEvents, ← h3] at hc; exact (List.mem_filter.1 hc).1

/-- C112: the id of a registration is the path of some accepted request, whatever the peer wrote
there: the peer, not the operator, decides how many ids the central system remembers. -/
theorem C112_chosen {tr : List (Ev F o)} {s : St F o} (h : Exec tr s) {n k : Nat} {id : String}
    (hr : Ev.register n k id ∈ tr) :
    ∃ r p, Ev.upgrade n r ∈ tr ∧ Http.accept r.toWsRequest = some (.switched p, some id.toList) := by
  obtain ⟨l, c, h1, h2, h3, rfl⟩ := h.inv.accepted n k id hr
  obtain ⟨c', h4, -, -, p, hp⟩ := h.inv.regd n k l h1 h2
  obtain rfl := Option.some.inj (h3.symm.trans h4)
  exact ⟨_, p, (h.inv.named n l h1).1, hp⟩

end Verif.Hub
