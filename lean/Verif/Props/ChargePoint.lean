import Verif.Model.ChargePoint
/-!
# The charge point: properties C43–C46

`Exec tr s`: the history `tr` of a JSON charge point led to `s`.
-/
namespace Verif.ChargePoint

/-! ### Specification, in terms of histories -/

/-- Connections dialled. -/
def dialled (tr : List Ev) : List Nat :=
  tr.filterMap fun | .dialOk n => some n | _ => none

/-- The charge point is up as far as its own loop knows: it announced a connection and has not
renewed the channel since. -/
def up (tr : List Ev) : Bool :=
  tr.foldl (fun b e => match e with | .announce => true | .renew => false | _ => b) false

/-- The loop is between noticing a loss and announcing a new connection (or has never connected). -/
def Reconnecting (tr : List Ev) : Prop := up tr = false

/-! ### Invariant -/

/-- Phases in which the current channel is closed. -/
def Phase.isUp : Phase → Bool
  | .select | .handling | .lost | .stopped => true
  | _ => false

structure Inv (tr : List Ev) (s : St) : Prop where
  up : up tr = s.phase.isUp
  chan : s.chan + 1 = s.chans.length
  closed : s.chans[s.chan]? = some s.phase.isUp
  old : ∀ c, c < s.chan → s.chans[c]? = some true
  conns : dialled tr = List.range s.conns.length
  cur : s.phase.isUp = true ∨ s.phase = .serviceSet →
    ∃ n, s.conn = some n ∧ s.service = some n ∧ s.conns.length = n + 1
  cset : s.phase = .connSet → ∃ n, s.conn = some n ∧ s.conns.length = n + 1
  dl : ∀ n, s.phase = .dialled n → s.conns.length = n + 1
  same : ¬ (s.phase = .connSet) → s.service = s.conn
  gone : s.phase = .lost ∨ s.phase = .stopped ∨ s.phase = .dialing →
    ∀ n, n < s.conns.length → s.connClosed n = true
  prev : (s.phase = .connSet ∨ s.phase = .serviceSet ∨ s.phase.isUp = true ∨
    ∃ n, s.phase = .dialled n) → ∀ n, n + 1 < s.conns.length → s.connClosed n = true
  ok : s.panicked = false

theorem up_snoc (tr : List Ev) (e : Ev) :
    up (tr ++ [e]) = match e with | .announce => true | .renew => false | _ => up tr := by
  simp only [up, List.foldl_append, List.foldl_cons, List.foldl_nil]

theorem dialled_snoc (tr : List Ev) (e : Ev) :
    dialled (tr ++ [e]) = dialled tr ++ (match e with | .dialOk n => [n] | _ => []) := by
  cases e <;> simp [dialled, List.filterMap_append]

theorem inv_step {tr : List Ev} {s s' : St} {e : Ev} (h : Inv tr s) (hs : Step s e s') :
    Inv (tr ++ [e]) s' := by
  obtain ⟨h1, h2, h3, h4, h5, h6, h7, h8, h9, h10, h11, h12⟩ := h
  have hd := dialled_snoc tr e
  have hu := up_snoc tr e
  cases hs with
  | dialOk hp =>
    simp only [List.append_nil] at hd hu
    simp only [hp, St.connClosed, Phase.isUp, reduceCtorEq, false_or, or_false, true_or, or_true, forall_const, false_implies, implies_true, exists_false, not_true, not_false_iff] at h1 h2 h3 h4 h5 h6 h7 h8 h9 h10 h11 h12
    constructor <;> simp only [hu, hd, St.connClosed, St.chanClosed, Phase.isUp, List.getElem?_set, List.length_set, List.length_append, List.getElem?_append, List.length_singleton] <;>
      grind [List.range_succ]
  | dialFail hp =>
    simp only [List.append_nil] at hd hu
    exact ⟨by rw [hu]; exact h1, h2, h3, h4, by rw [hd]; exact h5, h6, h7, h8, h9, h10, h11, h12⟩
  | setConn hp =>
    simp only [List.append_nil] at hd hu
    replace h11 := h11 (.inr (.inr (.inr ⟨_, hp⟩)))
    simp only [hp, St.connClosed, Phase.isUp, reduceCtorEq, false_or, or_false, true_or, or_true, forall_const, false_implies, implies_true, exists_false, not_true, not_false_iff] at h1 h2 h3 h4 h5 h6 h7 h8 h9 h10 h11 h12
    constructor <;> simp only [hu, hd, St.connClosed, St.chanClosed, Phase.isUp, List.getElem?_set, List.length_set, List.length_append, List.getElem?_append, List.length_singleton] <;>
      grind
  | setService hp =>
    simp only [List.append_nil] at hd hu
    simp only [hp, St.connClosed, Phase.isUp, reduceCtorEq, false_or, or_false, true_or, or_true, forall_const, false_implies, implies_true, exists_false, not_true, not_false_iff] at h1 h2 h3 h4 h5 h6 h7 h8 h9 h10 h11 h12
    constructor <;> simp only [hu, hd, St.connClosed, St.chanClosed, Phase.isUp, List.getElem?_set, List.length_set, List.length_append, List.getElem?_append, List.length_singleton] <;>
      grind
  | announce hp =>
    simp only [List.append_nil] at hd hu
    simp only [hp, St.connClosed, Phase.isUp, reduceCtorEq, false_or, or_false, true_or, or_true, forall_const, false_implies, implies_true, exists_false, not_true, not_false_iff] at h1 h2 h3 h4 h5 h6 h7 h8 h9 h10 h11 h12
    constructor <;> simp only [hu, hd, St.connClosed, St.chanClosed, Phase.isUp, List.getElem?_set, List.length_set, List.length_append, List.getElem?_append, List.length_singleton] <;>
      grind
  | seeClosed hp hc hcl =>
    simp only [St.connClosed] at hcl
    simp only [List.append_nil] at hd hu
    simp only [hp, St.connClosed, Phase.isUp, reduceCtorEq, false_or, or_false, true_or, or_true, forall_const, false_implies, implies_true, exists_false, not_true, not_false_iff] at h1 h2 h3 h4 h5 h6 h7 h8 h9 h10 h11 h12
    constructor <;> simp only [hu, hd, St.connClosed, St.chanClosed, Phase.isUp, List.getElem?_set, List.length_set, List.length_append, List.getElem?_append, List.length_singleton] <;>
      grind
  | renew hp =>
    simp only [List.append_nil] at hd hu
    simp only [hp, St.connClosed, Phase.isUp, reduceCtorEq, false_or, or_false, true_or, or_true, forall_const, false_implies, implies_true, exists_false, not_true, not_false_iff] at h1 h2 h3 h4 h5 h6 h7 h8 h9 h10 h11 h12
    constructor <;> simp only [hu, hd, St.connClosed, St.chanClosed, Phase.isUp, List.getElem?_set, List.length_set, List.length_append, List.getElem?_append, List.length_singleton] <;>
      grind
  | drop hn =>
    simp only [List.append_nil] at hd hu
    simp only [St.connClosed, reduceCtorEq, false_or, or_false, true_or, or_true, forall_const, false_implies, implies_true, exists_false, not_true, not_false_iff] at h1 h2 h3 h4 h5 h6 h7 h8 h9 h10 h11 h12
    constructor <;> simp only [hu, hd, St.connClosed, St.chanClosed, List.getElem?_set, List.length_set, List.length_append, List.getElem?_append, List.length_singleton] <;>
      grind
  | read hp =>
    simp only [List.append_nil] at hd hu
    exact ⟨by rw [hu]; exact h1, h2, h3, h4, by rw [hd]; exact h5, h6, h7, h8, h9, h10, h11, h12⟩
  | handle hp hc =>
    simp only [List.append_nil] at hd hu
    simp only [hp, St.connClosed, Phase.isUp, reduceCtorEq, false_or, or_false, true_or, or_true, forall_const, false_implies, implies_true, exists_false, not_true, not_false_iff] at h1 h2 h3 h4 h5 h6 h7 h8 h9 h10 h11 h12
    constructor <;> simp only [hu, hd, St.connClosed, St.chanClosed, Phase.isUp, List.getElem?_set, List.length_set, List.length_append, List.getElem?_append, List.length_singleton] <;>
      grind
  | handled hp =>
    simp only [List.append_nil] at hd hu
    simp only [hp, St.connClosed, Phase.isUp, reduceCtorEq, false_or, or_false, true_or, or_true, forall_const, false_implies, implies_true, exists_false, not_true, not_false_iff] at h1 h2 h3 h4 h5 h6 h7 h8 h9 h10 h11 h12
    constructor <;> simp only [hu, hd, St.connClosed, St.chanClosed, Phase.isUp, List.getElem?_set, List.length_set, List.length_append, List.getElem?_append, List.length_singleton] <;>
      grind
  | cancel  =>
    simp only [List.append_nil] at hd hu
    exact ⟨by rw [hu]; exact h1, h2, h3, h4, by rw [hd]; exact h5, h6, h7, h8, h9, h10, h11, h12⟩
  | stop hp hc hn =>
    simp only [List.append_nil] at hd hu
    simp only [hp, St.connClosed, Phase.isUp, reduceCtorEq, false_or, or_false, true_or, or_true, forall_const, false_implies, implies_true, exists_false, not_true, not_false_iff] at h1 h2 h3 h4 h5 h6 h7 h8 h9 h10 h11 h12
    constructor <;> simp only [hu, hd, St.connClosed, St.chanClosed, Phase.isUp, List.getElem?_set, List.length_set, List.length_append, List.getElem?_append, List.length_singleton] <;>
      grind
  | waitConnect  =>
    simp only [List.append_nil] at hd hu
    exact ⟨by rw [hu]; exact h1, h2, h3, h4, by rw [hd]; exact h5, h6, h7, h8, h9, h10, h11, h12⟩
  | waitDisconnect hc =>
    simp only [List.append_nil] at hd hu
    exact ⟨by rw [hu]; exact h1, h2, h3, h4, by rw [hd]; exact h5, h6, h7, h8, h9, h10, h11, h12⟩
  | send hc =>
    simp only [List.append_nil] at hd hu
    exact ⟨by rw [hu]; exact h1, h2, h3, h4, by rw [hd]; exact h5, h6, h7, h8, h9, h10, h11, h12⟩

theorem Exec.inv {tr : List Ev} {s : St} (h : Exec tr s) : Inv tr s := by
  induction h with
  | nil => constructor <;> simp [up, dialled, init, Phase.isUp, St.connClosed]
  | snoc _ hs ih => exact inv_step ih hs

theorem Run.append {s s' s'' : St} {t t' : List Ev} (h : Run s t s') (h' : Run s' t' s'') :
    Run s (t ++ t') s'' := by
  induction h' with
  | nil => simpa using h
  | snoc _ hs ih => rw [← List.append_assoc]; exact .snoc ih hs

theorem dialled_last {tr : List Ev} {s : St} (h : Inv tr s) (n : Nat) :
    (dialled tr).getLast? = some n ↔ s.conns.length = n + 1 := by
  rw [h.conns]
  cases hl : s.conns.length with
  | zero => simp
  | succ k => rw [List.range_succ]; simp

theorem dialled_mem {tr : List Ev} {s : St} (h : Inv tr s) (n : Nat) :
    n ∈ dialled tr ↔ n < s.conns.length := by
  rw [h.conns]; simp

theorem Exec.cancelled {tr : List Ev} {s : St} (h : Exec tr s) :
    Ev.cancel ∈ tr ↔ s.cancelled = true := by
  induction h with
  | nil => simp [init]
  | snoc _ hs ih => cases hs <;> simp_all

theorem Exec.bound {tr : List Ev} {s : St} (h : Exec tr s) :
    (∀ n, s.conn = some n → n < s.conns.length) ∧ (∀ n, s.service = some n → n < s.conns.length) := by
  induction h with
  | nil => simp [init]
  | @snoc tr e s' s'' hr hs ih =>
    have hi := Exec.inv hr
    obtain ⟨h1, h2⟩ := ih
    have h3 := hi.dl
    cases hs <;> (try simp only [List.length_append, List.length_set, List.length_singleton]) <;> grind

/-- A user or loop event that uses connection `n`. -/
def Ev.uses : Ev → Option Nat
  | .send n | .handle n | .waitDisconnect n => some n
  | _ => none

/-- **C43** No connect channel is closed twice (and no nil connection used). -/
theorem C43_no_double_close {tr : List Ev} {s : St} (h : Exec tr s) : s.panicked = false := h.inv.ok

/-- **C43** While the charge point is up, every `Send`, every request handled and every
`WaitDisconnect` is about the connection dialled last; while it is not, they are about that one or a
closed one.  All connections but the last one are closed. -/
theorem C43_uses_new_connection {tr : List Ev} {s s' : St} {e : Ev} {n : Nat} (h : Exec tr s)
    (hs : Step s e s') (he : e.uses = some n) :
    (up tr = true → (dialled tr).getLast? = some n) ∧
    (up tr = false → (dialled tr).getLast? = some n ∨ s.connClosed n = true) ∧
    (∀ m ∈ dialled tr, (dialled tr).getLast? ≠ some m → s.connClosed m = true) := by
  have hi := h.inv
  have hprev : ∀ m, m + 1 < s.conns.length → s.connClosed m = true := by
    intro m hm
    cases hp : s.phase with
    | dialing => exact hi.gone (by simp [hp]) m (by omega)
    | dialled k => exact hi.prev (by simp [hp]) m hm
    | connSet => exact hi.prev (by simp [hp]) m hm
    | serviceSet => exact hi.prev (by simp [hp]) m hm
    | _ => exact hi.prev (by simp [hp, Phase.isUp]) m hm
  have hcur : up tr = true → ∃ m, s.conn = some m ∧ s.service = some m ∧ s.conns.length = m + 1 :=
    fun hu => hi.cur (.inl (by rw [← hi.up]; exact hu))
  have hused : s.conn = some n ∨ s.service = some n := by
    cases hs <;> simp [Ev.uses] at he <;> subst he <;> simp_all
  have hbound : s.conns.length = n + 1 ∨ s.connClosed n = true := by
    by_cases hl : s.conns.length = n + 1
    · exact .inl hl
    · by_cases hn : n + 1 < s.conns.length
      · exact .inr (hprev n hn)
      · exfalso
        exact absurd hused (by
          have hb := Exec.bound h
          have h1 := hb.1 n; have h2 := hb.2 n
          rintro (h | h)
          · have := h1 h; omega
          · have := h2 h; omega)
  refine ⟨fun hu => ?_, fun _ => ?_, fun m hm hl => ?_⟩
  · obtain ⟨m, h1, h2, h3⟩ := hcur hu
    rw [dialled_last hi]
    rcases hused with h | h
    · rw [h1] at h; cases h; exact h3
    · rw [h2] at h; cases h; exact h3
  · rw [dialled_last hi]; exact hbound
  · rw [dialled_mem hi] at hm
    rw [Ne, dialled_last hi] at hl
    exact hprev m (by omega)

/-- **C43** While the charge point is not up its loop never gives up: it is dialling, where any
number of failures leaves it dialling and a success is possible, or it has dialled; in each case it
can get up again. -/
theorem C43_keeps_dialling {tr : List Ev} {s : St} (h : Exec tr s) (hd : up tr = false) :
    (∃ t s', Run s t s' ∧ up (tr ++ t) = true ∧
      t <:+ [.dialOk s.conns.length, .setConn, .setService, .announce]) ∧
    (s.phase = .dialing → ∀ k, Run s (List.replicate k .dialFail) s) := by
  have hi := h.inv
  have hisup : s.phase.isUp = false := by rw [← hi.up]; exact hd
  constructor
  · cases hp : s.phase with
    | dialing =>
      have r1 := Run.snoc (Run.nil (s := s)) (.dialOk hp)
      have r2 := Run.snoc r1 (.setConn rfl)
      have r3 := Run.snoc r2 (.setService rfl)
      have r4 := Run.snoc r3 (.announce rfl)
      refine ⟨_, _, r4, ?_, ?_⟩
      · simp only [← List.append_assoc, up_snoc]
      · simp
    | dialled n =>
      have r2 := Run.snoc (Run.nil (s := s)) (.setConn hp)
      have r3 := Run.snoc r2 (.setService rfl)
      have r4 := Run.snoc r3 (.announce rfl)
      refine ⟨_, _, r4, ?_, ?_⟩
      · simp only [← List.append_assoc, up_snoc]
      · exact ⟨[.dialOk s.conns.length], by simp⟩
    | connSet =>
      have r3 := Run.snoc (Run.nil (s := s)) (.setService hp)
      have r4 := Run.snoc r3 (.announce rfl)
      refine ⟨_, _, r4, ?_, ?_⟩
      · simp only [← List.append_assoc, up_snoc]
      · exact ⟨[.dialOk s.conns.length, .setConn], by simp⟩
    | serviceSet =>
      have r4 := Run.snoc (Run.nil (s := s)) (.announce hp)
      refine ⟨_, _, r4, ?_, ?_⟩
      · simp only [← List.append_assoc, up_snoc]
      · exact ⟨[.dialOk s.conns.length, .setConn, .setService], by simp⟩
    | _ => simp [hp, Phase.isUp] at hisup
  · intro hp k
    induction k with
    | zero => exact .nil
    | succ k ih =>
      rw [List.replicate_succ']
      exact .snoc ih (.dialFail hp)

/-- The event is an announcement. -/
def Ev.isAnnounce : Ev → Bool
  | .announce => true
  | _ => false

/-- **C44** A channel returned by `WaitConnect` is closed iff the charge point was up (as far as its
loop knew) at the call or a new connection was announced since. -/
theorem C44_waitConnect {t₁ t₂ : List Ev} {s₁ s₂ s₃ : St} {c : Nat} (h₁ : Exec t₁ s₁)
    (hw : Step s₁ (.waitConnect c) s₂) (h₂ : Run s₂ t₂ s₃) :
    s₃.chanClosed c = true ↔ up t₁ = true ∨ Ev.announce ∈ t₂ := by
  have hi := h₁.inv
  cases hw
  have key : s₃.chanClosed s₁.chan = (up t₁ || t₂.any Ev.isAnnounce) ∧
      ((up t₁ || t₂.any Ev.isAnnounce) = false → s₃.chan = s₁.chan) ∧
      s₁.chan ≤ s₃.chan ∧ s₃.chan + 1 = s₃.chans.length := by
    have hu := hi.up
    induction h₂ with
    | nil => simp [St.chanClosed, hi.closed, hi.up, hi.chan]
    | @snoc tr e s' s'' hr hs ih =>
      obtain ⟨k1, k2, k3, k4⟩ := ih
      have hb : (up t₁ || (tr ++ [e]).any Ev.isAnnounce) =
          ((up t₁ || tr.any Ev.isAnnounce) || e.isAnnounce) := by
        simp [List.any_append, Bool.or_assoc]
      rw [hb]
      have hinv' : Inv (t₁ ++ tr) s' := Exec.inv (Run.append h₁ hr)
      cases hs with
      | announce hp =>
        refine ⟨?_, by simp [Ev.isAnnounce], k3, by simpa using k4⟩
        simp only [St.chanClosed, List.getElem?_set, Ev.isAnnounce, Bool.or_true]
        by_cases he : s'.chan = s₁.chan
        · have : s₁.chan < s'.chans.length := by omega
          simp [he, this]
        · have hlt : s₁.chan < s'.chan := by omega
          simp [he, hinv'.old _ hlt]
      | renew hp =>
        have hlt : s₁.chan < s'.chans.length := by omega
        have hnot : (up t₁ || tr.any Ev.isAnnounce) = true := by
          cases hx : (up t₁ || tr.any Ev.isAnnounce) with
          | true => rfl
          | false =>
            have := k2 hx
            rw [hx] at k1
            have hc := hinv'.closed
            rw [this] at hc
            simp [St.chanClosed, hc, hp, Phase.isUp] at k1
        refine ⟨?_, ?_, ?_, ?_⟩
        · simp only [St.chanClosed] at k1 ⊢
          rw [List.getElem?_append_left hlt, k1]; simp [Ev.isAnnounce]
        · intro hx
          rw [hnot] at hx; simp at hx
        · simp only; omega
        · simp
      | _ =>
        simp only [Ev.isAnnounce, Bool.or_false]
        exact ⟨k1, k2, k3, k4⟩
  rw [key.1, Bool.or_eq_true, List.any_eq_true]
  constructor
  · rintro (h | ⟨e, he, h⟩)
    · exact .inl h
    · cases e <;> simp [Ev.isAnnounce] at h
      exact .inr he
  · rintro (h | h)
    · exact .inl h
    · exact .inr ⟨_, h, rfl⟩

/-- The history of C44's counterexample: the connection is lost and the loop has not noticed. -/
def c44 : List Ev := [.dialOk 0, .setConn, .setService, .announce, .drop 0]

/-- **C44** `WaitDisconnect` has fired and yet `WaitConnect` returns a closed channel. -/
theorem C44_stale_connected : ∃ s, Exec c44 s ∧
    (∃ s', Step s (.waitDisconnect 0) s' ∧ s'.connClosed 0 = true) ∧
    (∃ c s', Step s (.waitConnect c) s' ∧ s'.chanClosed c = true) := by
  have h0 : Exec [] init := .nil
  have h1 := Run.snoc h0 (.dialOk rfl)
  have h2 := Run.snoc h1 (.setConn rfl)
  have h3 := Run.snoc h2 (.setService rfl)
  have h4 := Run.snoc h3 (.announce rfl)
  have h5 := Run.snoc h4 (.drop (n := 0) (by decide))
  exact ⟨_, h5, ⟨_, .waitDisconnect rfl, rfl⟩, _, _, .waitConnect, rfl⟩

/-- Facts about a history after `stop`. -/
theorem stopped_run {s s' : St} {t : List Ev} (hp : s.phase = .stopped) (hr : Run s t s') :
    s'.phase = .stopped ∧ s'.chan = s.chan ∧ s'.chans = s.chans ∧
    ∀ e ∈ t, e = .cancel ∨ (∃ n, e = .drop n) ∨ (∃ c, e = .waitConnect c) ∨
      (∃ n, e = .waitDisconnect n) ∨ ∃ n, e = .send n := by
  induction hr with
  | nil => simp [hp]
  | snoc _ hs ih =>
    obtain ⟨h1, h2, h3, h4⟩ := ih
    cases hs <;> simp_all <;> grind

/-- **C45** When the context is cancelled and the loop is waiting for something to happen, it can
stop; stopping closes the connection in use. -/
theorem C45_cancel_stops {tr : List Ev} {s : St} (h : Exec tr s) (hc : Ev.cancel ∈ tr)
    (hp : s.phase = .select) :
    ∃ s', Step s .stop s' ∧ ∀ n ∈ dialled tr, s'.connClosed n = true := by
  have hi := h.inv
  obtain ⟨n, h1, h2, h3⟩ := hi.cur (.inl (by simp [hp, Phase.isUp]))
  refine ⟨_, .stop hp (Exec.cancelled h |>.1 hc) h1, fun m hm => ?_⟩
  rw [dialled_mem hi] at hm
  simp only [St.connClosed, List.getElem?_set]
  by_cases he : n = m
  · subst he; simp [hm]
  · simp only [he, if_false]
    exact hi.prev (by simp [hp, Phase.isUp]) m (by omega)

/-- **C45** The charge point stops only if the context was cancelled; after that all its connections
are closed and it dials, handles and announces nothing any more. -/
theorem C45_stopped_is_final {t₁ t₂ : List Ev} {s₁ s₂ s₃ : St} (h₁ : Exec t₁ s₁)
    (hs : Step s₁ .stop s₂) (h₂ : Run s₂ t₂ s₃) :
    Ev.cancel ∈ t₁ ∧ (∀ n ∈ dialled t₁, s₃.connClosed n = true) ∧
    (∀ e ∈ t₂, e = .cancel ∨ (∃ n, e = .drop n) ∨ (∃ c, e = .waitConnect c) ∨
      (∃ n, e = .waitDisconnect n) ∨ ∃ n, e = .send n) := by
  have hi := h₁.inv
  have h12 : Exec (t₁ ++ [.stop]) s₂ := .snoc h₁ hs
  have h123 : Exec (t₁ ++ [.stop] ++ t₂) s₃ := Run.append h12 h₂
  have hph : s₂.phase = .stopped := by cases hs; rfl
  obtain ⟨p1, p2, p3, p4⟩ := stopped_run hph h₂
  refine ⟨?_, fun n hn => ?_, p4⟩
  · cases hs with
    | stop hp hc hn => exact (Exec.cancelled h₁).2 hc
  · have hmem : n ∈ dialled (t₁ ++ [.stop] ++ t₂) := by
      simp only [dialled, List.filterMap_append, List.mem_append]
      exact .inl (.inl hn)
    rw [dialled_mem h123.inv] at hmem
    exact h123.inv.gone (by simp [p1]) n hmem

/-- **C44/C45** After stopping, `WaitConnect` keeps returning a closed channel although no
connection is left. -/
theorem C44_stopped_reports_connected {t₁ t₂ : List Ev} {s₁ s₂ s₃ s₄ : St} {c : Nat} (h₁ : Exec t₁ s₁)
    (hs : Step s₁ .stop s₂) (h₂ : Run s₂ t₂ s₃) (hw : Step s₃ (.waitConnect c) s₄) :
    s₄.chanClosed c = true ∧ ∀ n ∈ dialled t₁, s₄.connClosed n = true := by
  obtain ⟨-, hc, -⟩ := C45_stopped_is_final h₁ hs h₂
  have h123 : Exec (t₁ ++ [.stop] ++ t₂) s₃ := Run.append (.snoc h₁ hs) h₂
  have hph : s₂.phase = .stopped := by cases hs; rfl
  obtain ⟨p1, -, -, -⟩ := stopped_run hph h₂
  cases hw
  refine ⟨?_, hc⟩
  simp [St.chanClosed, h123.inv.closed, p1, Phase.isUp]

/-- **C45** While reconnecting, the context is not looked at: without a new connection being
announced the charge point cannot stop, and it can go on dialling for ever. -/
theorem C45_cancel_ignored_while_reconnecting {tr t : List Ev} {s s' : St} (h : Exec tr s)
    (hd : up tr = false) (hr : Run s t s') (hn : Ev.announce ∉ t) :
    Ev.stop ∉ t ∧ (s.phase = .dialing → ∀ k, Run s (List.replicate k .dialFail) s) := by
  refine ⟨?_, (C43_keeps_dialling h hd).2⟩
  have key : Ev.stop ∉ t ∧ s'.phase.isUp = false := by
    have h0 : s.phase.isUp = false := by rw [← h.inv.up]; exact hd
    induction hr with
    | nil => exact ⟨by simp, h0⟩
    | snoc hr hs ih =>
      have hn' := hn
      simp only [List.mem_append, not_or, List.mem_singleton] at hn'
      obtain ⟨h1, h2⟩ := ih hn'.1
      cases hs <;> simp_all [Phase.isUp]
  exact key.1

/-- The hypotheses of `C45_cancel_ignored_while_reconnecting` are met after a cancelled context and a
lost connection. -/
example : ∃ s, Exec [.dialOk 0, .setConn, .setService, .announce, .drop 0, .seeClosed, .renew, .cancel] s ∧
    s.phase = .dialing ∧ s.cancelled = true := by
  have h0 : Exec [] init := .nil
  have h1 := Run.snoc h0 (.dialOk rfl)
  have h2 := Run.snoc h1 (.setConn rfl)
  have h3 := Run.snoc h2 (.setService rfl)
  have h4 := Run.snoc h3 (.announce rfl)
  have h5 := Run.snoc h4 (.drop (n := 0) (by decide))
  have h6 := Run.snoc h5 (.seeClosed (n := 0) rfl rfl rfl)
  have h7 := Run.snoc h6 (.renew rfl)
  have h8 := Run.snoc h7 .cancel
  exact ⟨_, h8, rfl, rfl⟩

/-- The hypotheses of `C45_cancel_stops` and `C45_stopped_is_final` are met. -/
example : ∃ s s', Exec [.dialOk 0, .setConn, .setService, .announce, .cancel] s ∧
    s.phase = .select ∧ Step s .stop s' := by
  have h0 : Exec [] init := .nil
  have h1 := Run.snoc h0 (.dialOk rfl)
  have h2 := Run.snoc h1 (.setConn rfl)
  have h3 := Run.snoc h2 (.setService rfl)
  have h4 := Run.snoc h3 (.announce rfl)
  have h5 := Run.snoc h4 .cancel
  exact ⟨_, _, h5, rfl, .stop rfl rfl rfl⟩

/-- **C45** Cancelling the context of a SOAP charge point does not stop it: in every history in which
the listener did not fail by itself it can serve another request, cancelled or not. -/
theorem C45_soap_serves_on {tr : List SoapEv} {s : SoapSt} (h : SoapRun soapInit tr s)
    (hl : SoapEv.listenFail ∉ tr) : ∃ s', SoapStep s .serve s' := by
  have : s.serving = true := by
    induction h with
    | nil => rfl
    | snoc _ hs ih =>
      simp only [List.mem_append, not_or, List.mem_singleton] at hl
      have := ih hl.1
      cases hs <;> simp_all
  exact ⟨_, .serve this⟩

example : ∃ s, SoapRun soapInit [.cancel, .ret] s ∧ s.returned = true :=
  ⟨_, .snoc (.snoc .nil .cancel) (.ret rfl rfl), rfl⟩

/-- **C46** What `cp.New` returns for each transport: with JSON an error exactly if the dial fails, and otherwise a connected charge point whose `Send`
goes over the connection; with SOAP an error exactly if there is no port, and otherwise a charge point that serves that port, whose `Send` posts to the
given URL with the given identity, that is never connected, and whose `WaitDisconnect` panics; with anything else a charge point without server or
connection whose `Send` and `WaitDisconnect` panic. -/
theorem C46_construction (transport identity url : String) (port : Option String) (dial : GoRes Unit) :
    (transport = "json" →
      (∀ e, dial = .err e → ∃ e', new transport identity url port dial = .err e') ∧
      ∀ u, dial = .ok u → ∃ b, new transport identity url port dial = .ok b ∧ b.identity = identity ∧ b.send = .ok .json ∧ b.hasConn = true ∧
        b.connected = true ∧ b.waitDisconnect = .ok () ∧ b.server = none) ∧
    (transport = "soap" →
      (port = none → ∃ e, new transport identity url port dial = .err e) ∧
      ∀ p, port = some p → ∃ b, new transport identity url port dial = .ok b ∧ b.identity = identity ∧ b.send = .ok (.soap url identity) ∧
        b.hasConn = false ∧ b.connected = false ∧ b.waitDisconnect.isPanic = true ∧ b.server = some p) ∧
    (transport ≠ "json" → transport ≠ "soap" →
      ∃ b, new transport identity url port dial = .ok b ∧ b.identity = identity ∧ b.send.isPanic = true ∧ b.hasConn = false ∧ b.connected = false ∧
        b.waitDisconnect.isPanic = true ∧ b.server = none) := by
  refine ⟨?_, ?_, ?_⟩
  · rintro rfl
    cases dial <;> simp [new, Built.send, Built.waitDisconnect]
  · rintro rfl
    cases port <;> simp [new, Built.send, Built.waitDisconnect]
  · intro h1 h2
    simp [new, h1, h2, Built.send, Built.waitDisconnect]

end Verif.ChargePoint
