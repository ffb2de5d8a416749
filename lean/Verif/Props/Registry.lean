import Verif.Lemmas.Registry3
/-!
# The central system's connection registry: properties C33–C40

Histories (`Exec tr s`) are arbitrary sequences of handshakes, closes, and steps of the handler and
listener goroutines; `tr` is what happened, `s` the resulting state.  The notions of
`Verif.Spec.Registry` (`Made`, `Closed`, `Cleaned`, `Registered`, `Newest`) only look at `tr`.
-/
namespace Verif.Registry

/-- C33: a connection of `id` is on record exactly while one of its connections is not cleaned up,
and no channel is ever closed twice. -/
theorem C33_registry_consistent {tr : List Ev} {s : St} (h : Exec tr s) :
    (∀ id, (s.conns.get id).isSome = true ↔ ∃ n, Made tr n id ∧ ¬ Cleaned tr n) ∧
    s.panicked = false := by
  refine ⟨fun id => ?_, h.inv.ok⟩
  have := conns_none h id
  unfold Registered Open at this
  cases hg : s.conns.get id with
  | none => simp only [hg, true_iff] at this; simpa using this
  | some n =>
    simp only [hg, reduceCtorEq, false_iff, not_not] at this; simpa using this

/-- C34: the three outcomes of `GetServiceOf`. -/
theorem C34_getServiceOf {tr : List Ev} {s : St} (h : Exec tr s) (id version url : String) :
    (version = "V15" → s.getServiceOf id version url = .ok (.soap url id)) ∧
    (version = "V16" → ∀ n, s.getServiceOf id version url = .ok (.json n) ↔
      (Registered tr id ∧ Newest tr n id)) ∧
    (version = "V16" → ((∃ e, s.getServiceOf id version url = .err e) ↔ ¬ Registered tr id)) ∧
    (version ≠ "V15" → version ≠ "V16" → ∃ e, s.getServiceOf id version url = .err e) := by
  unfold St.getServiceOf
  refine ⟨?_, ?_, ?_, ?_⟩
  · rintro rfl; simp
  · rintro rfl n
    rw [← conns_get h]
    cases hg : s.conns.get id <;> simp
  · rintro rfl
    rw [← conns_none h]
    cases hg : s.conns.get id <;> simp
  · intro h1 h2; simp [h1, h2]

/-- Connections of `id` were closed in the order they were made. -/
def ClosedInOrder (tr : List Ev) (id : String) : Prop :=
  ∀ m n, Made tr m id → Made tr n id → m < n → Closed tr n → Closed tr m

/-- C35, where it holds: if the connections of a charge point are closed in the order they were made
and one is live, then `GetServiceOf` returns a live one. -/
theorem C35_live_found_in_order {tr : List Ev} {s : St} (h : Exec tr s) {id : String}
    (ho : ClosedInOrder tr id) {m : Nat} (hm : Made tr m id) (hl : ¬ Closed tr m) (url : String) :
    ∃ n, s.getServiceOf id "V16" url = .ok (.json n) ∧ Made tr n id ∧ ¬ Closed tr n := by
  have hh := h.hist
  have hreg : Registered tr id := ⟨m, hm, fun hcl => by
    obtain ⟨c, h1, h2⟩ := (hh.cleaned m).1 hcl
    have := hh.order m c h1 (by simp [h2, Phase.ord])
    exact hl ((hh.closed m).2 ⟨c, h1, this⟩)⟩
  cases hg : s.conns.get id with
  | none => exact absurd hreg ((conns_none h id).1 hg)
  | some n =>
    obtain ⟨-, hn, hmax⟩ := (conns_get h id n).1 hg
    refine ⟨n, by simp [St.getServiceOf, hg], hn, fun hcl => ?_⟩
    rcases Nat.lt_or_ge m n with hlt | hge
    · exact hl (ho m n hm hn hlt hcl)
    · have : n = m := by have := hmax m hm; omega
      exact hl (this ▸ hcl)

/-- The history of C35's counterexample: charge point "A" connects twice, then the newer connection
goes away and is cleaned up. -/
def c35 : List Ev :=
  [.handshake 0 "A", .notify 0 "A", .handshake 1 "A", .notify 1 "A", .drop 1, .leave 1 "A",
   .cleanup 1]

/-- C35, where it does not hold: if the connection made last is closed while another one is live, `GetServiceOf` returns the closed one. -/
theorem C35_dead_if_newest_closed {tr : List Ev} {s : St} (h : Exec tr s) {id : String} {n m : Nat} (hn : Newest tr n id) (hc : Closed tr n)
    (hm : Made tr m id) (hl : ¬ Closed tr m) (url : String) : s.getServiceOf id "V16" url = .ok (.json n) ∧ n ≠ m := by
  have hh := h.hist
  have hreg : Registered tr id := ⟨m, hm, fun hcl => by
    obtain ⟨c, h1, h2⟩ := (hh.cleaned m).1 hcl
    exact hl ((hh.closed m).2 ⟨c, h1, hh.order m c h1 (by simp [h2, Phase.ord])⟩)⟩
  exact ⟨((C34_getServiceOf h id "V16" url).2.1 rfl n).2 ⟨hreg, hn⟩, by rintro rfl; exact hl hc⟩

/-- C35 is false in general: after `c35`, connection 0 is live, and `GetServiceOf` returns the closed
and cleaned up connection 1. -/
theorem C35_dead_connection_returned :
    ∃ s, Exec c35 s ∧ Made c35 0 "A" ∧ ¬ Closed c35 0 ∧ Closed c35 1 ∧ Cleaned c35 1 ∧
      s.getServiceOf "A" "V16" "" = .ok (.json 1) := by
  have h0 : Exec [] init := .nil
  have h1 := Run.snoc h0 (.handshake "A")
  have h2 := Run.snoc h1 (Step.notify (n := 0) (by rfl) (by rfl))
  have h3 := Run.snoc h2 (.handshake "A")
  have h4 := Run.snoc h3 (Step.notify (n := 1) (by rfl) (by rfl))
  have h5 := Run.snoc h4 (Step.drop (n := 1) (by rfl))
  have h6 := Run.snoc h5 (Step.leave (n := 1) (by rfl) (by rfl) (by rfl))
  have h7 := Run.snoc h6 (Step.cleanup (n := 1) (by rfl) (by rfl))
  refine ⟨_, h7, by simp [Made, c35], by simp [Closed, c35], by simp [Closed, c35],
    by simp [Cleaned, c35], by rfl⟩

/-- C36: a channel handed out by `WaitConnect(id)` is closed iff `id` was registered at the call or
connected since. -/
theorem C36_waitConnect {t₁ t₂ : List Ev} {s₁ s₂ s₃ : St} {id : String} {c : Nat}
    (h₁ : Exec t₁ s₁) (hw : Step s₁ (.waitConnect id c) s₂) (h₂ : Run s₂ t₂ s₃) :
    s₃.chanClosed[c]? = some true ↔ Registered t₁ id ∨ ∃ n, Made t₂ n id := by
  have hw' := watch_run (inv_step h₁.inv hw) (watch_wait h₁.inv hw) h₂
  rw [hw'.1, Option.some.injEq, Bool.or_eq_true, connected_iff h₁, hasHandshake_iff]

/-- C36, availability: `WaitConnect` always returns. -/
theorem C36_waitConnect_returns (s : St) (id : String) :
    ∃ c s', Step s (.waitConnect id c) s' :=
  let ⟨c, hc⟩ := ensureChan_some s id
  ⟨c, _, .waitConnect hc⟩

/-- C37: the channel of `WaitDisconnect(id)` called after `t₁` is, after any continuation `t₂`,
closed iff `id` was not registered at the call or the newest connection at the call is closed. -/
theorem C37_waitDisconnect {t₁ t₂ : List Ev} {s₁ s₂ : St} (h₁ : Exec t₁ s₁) (h₂ : Run s₁ t₂ s₂)
    (id : String) :
    (s₂.discClosed (s₁.waitDisconnect id) = true ↔
      (¬ Registered t₁ id ∨ ∃ n, Newest t₁ n id ∧ Closed (t₁ ++ t₂) n)) := by
  have h12 : Exec (t₁ ++ t₂) s₂ := h₁.append h₂
  unfold St.waitDisconnect
  cases hg : s₁.conns.get id with
  | none =>
    have := (conns_none h₁ id).1 hg
    simp [St.discClosed, this]
  | some n =>
    obtain ⟨hr, hn⟩ := (conns_get h₁ id n).1 hg
    have hcl := h12.hist.closed n
    have hmade := (h12.hist.made n id).1 (List.mem_append_left _ hn.1)
    obtain ⟨d, hd, -⟩ := hmade
    have huniq : ∀ m, Newest t₁ m id → m = n := fun m hm => by
      have := hm.2 n hn.1; have := hn.2 m hm.1; omega
    simp only [St.discClosed, hd, hr, not_true_eq_false, false_or]
    constructor
    · intro hc; exact ⟨n, hn, hcl.2 ⟨d, hd, hc⟩⟩
    · rintro ⟨m, hm, hc⟩
      rw [huniq m hm] at hc
      obtain ⟨d', hd', hc'⟩ := hcl.1 hc
      rw [hd] at hd'; cases hd'; exact hc'

/-- C38, safety: each listener is called at most once per connection, with the id that connection
was made with, the disconnection listener only after the connection was closed. -/
theorem C38_listeners_at_most_once {tr : List Ev} {s : St} (h : Exec tr s) (n : Nat) (id : String) :
    tr.count (.connected n id) ≤ 1 ∧ tr.count (.disconnected n id) ≤ 1 ∧
    (Ev.connected n id ∈ tr → Made tr n id) ∧
    (Ev.disconnected n id ∈ tr → Made tr n id ∧ Closed tr n) := by
  have hh := h.hist
  refine ⟨connected_once h n id, disconnected_once h n id, fun hm => ?_, fun hm => ?_⟩
  · obtain ⟨c, h1, h2, -⟩ := (hh.up n id).1 hm
    exact (hh.made n id).2 ⟨c, h1, h2⟩
  · obtain ⟨c, h1, h2, h3⟩ := (hh.down n id).1 hm
    exact ⟨(hh.made n id).2 ⟨c, h1, h2⟩,
      (hh.closed n).2 ⟨c, h1, hh.order n c h1 (hh.downOrd n c h1 h3)⟩⟩

/-- C38, completeness: once the library has nothing left to do, the connection listener was called
exactly once for every connection made, the disconnection listener exactly once for every connection
closed and not for others, and a charge point is registered iff it has an unclosed connection. -/
theorem C38_listeners_exactly_once {tr : List Ev} {s : St} (h : Exec tr s) (hq : Quiet s) :
    (∀ n id, Made tr n id → tr.count (.connected n id) = 1 ∧
      tr.count (.disconnected n id) = if Ev.drop n ∈ tr then 1 else 0) ∧
    (∀ id, Registered tr id ↔ ∃ n, Made tr n id ∧ ¬ Closed tr n) := by
  have hh := h.hist
  refine ⟨fun n id hm => ?_, fun id => ?_⟩
  · obtain ⟨c, h1, h2⟩ := (hh.made n id).1 hm
    obtain ⟨q1, q2, q3⟩ := quiet_phase hq h1
    have hu : Ev.connected n id ∈ tr := (hh.up n id).2 ⟨c, h1, h2, q1⟩
    refine ⟨?_, ?_⟩
    · have := connected_once h n id
      have := List.count_pos_iff.2 hu
      omega
    · split
      · rename_i hd
        obtain ⟨c', h1', h3⟩ := (hh.closed n).1 hd
        rw [h1] at h1'; cases h1'
        have hdn : Ev.disconnected n id ∈ tr := (hh.down n id).2 ⟨c, h1, h2, q3 (q2 h3)⟩
        have := disconnected_once h n id
        have := List.count_pos_iff.2 hdn
        omega
      · rename_i hd
        rw [List.count_eq_zero]
        intro hdn
        exact hd ((C38_listeners_at_most_once h n id).2.2.2 hdn).2
  · constructor
    · rintro ⟨n, hm, hcl⟩
      obtain ⟨c, h1, h2⟩ := (hh.made n id).1 hm
      obtain ⟨q1, q2, q3⟩ := quiet_phase hq h1
      refine ⟨n, hm, fun hd => hcl ?_⟩
      obtain ⟨c', h1', h3⟩ := (hh.closed n).1 hd
      rw [h1] at h1'; cases h1'
      exact (hh.cleaned n).2 ⟨c, h1, q2 h3⟩
    · rintro ⟨n, hm, hd⟩
      refine ⟨n, hm, fun hcl => hd ?_⟩
      obtain ⟨c, h1, h2⟩ := (hh.cleaned n).1 hcl
      exact (hh.closed n).2 ⟨c, h1, hh.order n c h1 (by simp [h2, Phase.ord])⟩

/-- A history in which the disconnection listener is called before the connection listener. -/
def c38 : List Ev :=
  [.handshake 0 "A", .notify 0 "A", .drop 0, .leave 0 "A", .disconnected 0 "A", .cleanup 0,
   .connected 0 "A"]

/-- C38, what does not hold: the two listeners run in goroutines of their own, so the disconnection
listener can be called for a connection before the connection listener is (and the state reached is
quiet, so this also shows the hypotheses of `C38_listeners_exactly_once` can be met). -/
theorem C38_disconnect_reported_first : ∃ s, Exec c38 s ∧ Quiet s := by
  have h0 : Exec [] init := .nil
  have h1 := Run.snoc h0 (.handshake "A")
  have h2 := Run.snoc h1 (Step.notify (n := 0) (by rfl) (by rfl))
  have h3 := Run.snoc h2 (Step.drop (n := 0) (by rfl))
  have h4 := Run.snoc h3 (Step.leave (n := 0) (by rfl) (by rfl) (by rfl))
  have h5 := Run.snoc h4 (Step.disconnected (n := 0) (by rfl) (.inl rfl) (by rfl))
  have h6 := Run.snoc h5 (Step.cleanup (n := 0) (by rfl) (by rfl))
  have h7 := Run.snoc h6 (Step.connected (n := 0) (by rfl) (by simp) (by rfl))
  refine ⟨_, h7, ?_⟩
  intro e s' hs
  have key : ∀ (n : Nat) (c : CState),
      [CState.mk "A" .cleaned true true true][n]? = some c →
      c = CState.mk "A" .cleaned true true true := by
    intro n c hn
    cases n with
    | zero => simpa using hn.symm
    | succ k => simp at hn
  cases hs with
  | handshake id => trivial
  | drop _ => trivial
  | waitConnect _ => trivial
  | notify hc hp => rw [key _ _ hc] at hp; simp at hp
  | connected hc hp hu => rw [key _ _ hc] at hu; simp at hu
  | disconnected hc hp hu => rw [key _ _ hc] at hu; simp at hu
  | leave hc hp _ => rw [key _ _ hc] at hp; simp at hp
  | cleanup hc hp => rw [key _ _ hc] at hp; simp at hp

/-- C39: an event that does not concern `id` leaves unchanged what `GetServiceOf`, `WaitConnect` and
`WaitDisconnect` report for `id`, and whether each of its connections is closed. -/
theorem C39_isolation {tr : List Ev} {s s' : St} {e : Ev} (h : Exec tr s) (hs : Step s e s')
    {id : String} (hne : ¬ Concerns tr id e) :
    (∀ version url, s'.getServiceOf id version url = s.getServiceOf id version url) ∧
    s'.waitClosed id = s.waitClosed id ∧
    s'.discClosed (s'.waitDisconnect id) = s.discClosed (s.waitDisconnect id) ∧
    (∀ n, Made tr n id → s'.discClosed (some n) = s.discClosed (some n)) := by
  have hh := h.hist
  have hiso := isolate_step (id := id) h.inv hs (by
    cases e <;> simp only [Concerns] at hne ⊢ <;> try exact hne
    all_goals
      intro c hc hcp
      exact hne ((hh.made _ _).2 ⟨c, hc, hcp⟩))
  obtain ⟨i1, i2, i3⟩ := hiso
  have hmade : ∀ n, Made tr n id → s'.discClosed (some n) = s.discClosed (some n) := by
    intro n hm
    obtain ⟨c, h1, h2⟩ := (hh.made n id).1 hm
    have h1' := (i3 n c h2).2 h1
    simp only [St.discClosed, h1, h1']
  refine ⟨?_, ?_, ?_, hmade⟩
  · intro version url
    simp only [St.getServiceOf, i1]
  · rw [waitClosed_eq (inv_step h.inv hs), waitClosed_eq h.inv, i2]
  · unfold St.waitDisconnect
    rw [i1]
    cases hg : s.conns.get id with
    | none => rfl
    | some n => exact hmade n ((conns_get h id n).1 hg).2.1

/-- C40: the landing page shows the number of distinct charge point ids that are registered. -/
theorem C40_landing_page {tr : List Ev} {s : St} (h : Exec tr s) :
    ∃ ids : List String, ids.Nodup ∧ (∀ id, id ∈ ids ↔ Registered tr id) ∧
      s.landing = ids.length := by
  refine ⟨List.map (fun p : String × Nat => p.1) s.conns, h.inv.wf, fun id => ?_, by simp [St.landing]⟩
  rw [← GoMap.get_isSome]
  have := conns_none h id
  cases hg : s.conns.get id with
  | none => simp only [hg, true_iff] at this; simpa using this
  | some n => simp only [hg, reduceCtorEq, false_iff, not_not] at this; simpa using this

/-! ### A non-trivial history that meets the hypotheses above -/

/-- Two charge points; "B" is waited for before it connects. -/
example : ∃ s₁ s₂ s₃ c, Exec [.handshake 0 "A"] s₁ ∧ Step s₁ (.waitConnect "B" c) s₂ ∧
    Run s₂ [.handshake 1 "B"] s₃ ∧ s₃.chanClosed[c]? = some true ∧ s₂.chanClosed[c]? = some false ∧
    s₃.landing = 2 := by
  have h0 : Exec [] init := .nil
  have h1 : Exec [.handshake 0 "A"] _ := Run.snoc h0 (.handshake "A")
  have hw : Step (init.register "A") (.waitConnect "B" 1) _ := .waitConnect (by rfl)
  have h3 : Run _ [.handshake 1 "B"] _ := Run.snoc (s := (init.register "A").ensureChan "B") .nil (.handshake "B")
  exact ⟨_, _, _, 1, h1, hw, h3, by rfl, by rfl, by rfl⟩

/-- Connections closed in order: `ClosedInOrder` is met by a history in which the older of two
connections is gone. -/
example : ∃ s, Exec [.handshake 0 "A", .handshake 1 "A", .drop 0] s ∧
    ClosedInOrder [.handshake 0 "A", .handshake 1 "A", .drop 0] "A" ∧
    ¬ Closed [.handshake 0 "A", .handshake 1 "A", .drop 0] 1 := by
  have h0 : Exec [] init := .nil
  have h1 := Run.snoc h0 (.handshake "A")
  have h2 := Run.snoc h1 (.handshake "A")
  have h3 := Run.snoc h2 (Step.drop (n := 0) (by rfl))
  refine ⟨_, h3, ?_, by simp [Closed]⟩
  intro m n _ _ hmn hc
  simp [Closed] at hc ⊢
  omega

/-- An event of "A" does not concern "B". -/
example : ¬ Concerns [.handshake 0 "A", .handshake 1 "B"] "B" (.drop 0) := by
  simp [Concerns, Made]

end Verif.Registry
