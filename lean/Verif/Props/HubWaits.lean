import Verif.Props.HubLanding
/-!
# Waiting at a central system among strangers: C108, continued

C36 to C38 and C69 put to a central system with any clients at all: what the channels of
`WaitConnect` and `WaitDisconnect` (cs/cs.go:213-234) and the listeners (cs.go:121, 126) tell is true
of the connections, but whose connections these are is up to whoever connects.
-/
namespace Verif.Hub
open Conn Codec Ocppj World

variable {F : FloatFmt} {o : Order} {tr tr' : List (Ev F o)} {s s' : St F o}

/-- The central system's end of connection `n` was closed: locally, by a failed read, or by a panic of the handler. -/
def CutOff (tr : List (Ev F o)) (n : Nat) : Prop := ∃ e ∈ connEvents n tr, e.Closes .cs

theorem Exec.cutOff (h : Exec tr s) {n : Nat} {m : Member F o} (hm : s.members[n]? = some m) : m.fin.closed = true ↔ CutOff tr n :=
  C30_closed_iff (h.inv.ends n m hm)

/-- **C108** The channel that `WaitDisconnect(id)` returns is closed exactly when nobody was registered as `id` at the call, or the
connection registered last as `id` is cut off. -/
theorem C108_waitDisconnect (h : Exec tr s) (hr : Run s tr' s') (id : String) :
    s'.reg.discClosed (s.reg.waitDisconnect id) = true ↔ ¬ Registered tr id ∨ ∃ n k, Latest tr n k id ∧ CutOff (tr ++ tr') n := by
  obtain ⟨h1, h2⟩ := h.conns id
  have hx := h.append hr
  unfold Registry.St.waitDisconnect
  cases hg : s.reg.conns.get id with
  | none => simp [Registry.St.discClosed, h2.1 hg]
  | some k =>
    obtain ⟨h3, n, h4⟩ := (h1 k).1 hg
    obtain ⟨hd, hmax⟩ := h4
    obtain ⟨l, c, hl, hlk, hc, -⟩ := hx.inv.accepted n k id (List.mem_append_left _ hd)
    have : s'.reg.discClosed (some k) = true ↔ CutOff (tr ++ tr') n := by
      obtain ⟨c', a1, a2, -⟩ := hx.inv.regd n k l hl hlk
      rw [hc] at a1; cases a1
      rw [← hx.cutOff hl, ← a2]
      simp [Registry.St.discClosed, hc]
    rw [this]
    constructor
    · intro hcut; exact .inr ⟨n, k, ⟨hd, hmax⟩, hcut⟩
    · rintro (h5 | ⟨m, j, ⟨hj, hm⟩, hcut⟩)
      · exact absurd h3 h5
      · have e : j = k := Nat.le_antisymm (hmax m j hj) (hm n k hd)
        subst e
        rw [(h.accepted_unique hd hj).2 ⟨rfl, rfl⟩]; exact hcut

/-- The registry's part of a continuation. -/
theorem Run.reg (hr : Run s tr' s') :
    ∃ trR, Registry.Run s.reg trR s'.reg ∧ ∀ k id, Registry.Ev.handshake k id ∈ trR ↔ ∃ n, Accepted tr' n k id := by
  induction hr with
  | nil => exact ⟨[], .nil, by simp [Accepted]⟩
  | @snoc tr e w1 w2 hr hs ih =>
    obtain ⟨trR, h1, h2⟩ := ih
    cases hs with
    | upgrade _ _ =>
      refine ⟨_, h1, ?_⟩
      intro n id'
      simp [Accepted, h2]
    | @register n l p id reg' _ _ _ _ hreg =>
      refine ⟨_, h1.snoc hreg, ?_⟩
      intro k id'
      simp only [Accepted, List.mem_append, List.mem_singleton, h2, Registry.Ev.handshake.injEq, Ev.register.injEq]
      constructor
      · rintro (⟨i, hi⟩ | ⟨rfl, rfl⟩)
        · exact ⟨i, .inl hi⟩
        · exact ⟨n, .inr ⟨rfl, rfl, rfl⟩⟩
      · rintro ⟨i, hi | ⟨rfl, rfl, rfl⟩⟩
        · exact .inl ⟨i, hi⟩
        · exact .inr ⟨rfl, rfl⟩
    | @reg e _ _ hreg h3 h4 _ =>
      refine ⟨_, h1.snoc hreg, ?_⟩
      intro n id'
      have := h3 n id'
      simp [Accepted, h2, Ne.symm this]
    | @conn n k e l c fin' _ hl hk hc hst _ =>
      rcases noteClosed_step w1.reg k fin'.closed with h3 | h3
      · refine ⟨trR, by rw [h3]; exact h1, ?_⟩
        intro n id'
        simp [Accepted, h2]
      · refine ⟨_, h1.snoc h3, ?_⟩
        intro n id'
        simp [Accepted, h2]

/-- **C108** The channel that a call of `WaitConnect(id)` returns is closed exactly when somebody was registered as `id` at the call or has
been registered since. -/
theorem C108_waitConnect {s₁ : St F o} (h : Exec tr s) (id : String) (c : Nat) (hw : Step s (.reg (.waitConnect id c)) s₁)
    (hr : Run s₁ tr' s') :
    s'.reg.chanClosed[c]? = some true ↔ Registered tr id ∨ ∃ n k, Accepted tr' n k id := by
  obtain ⟨trR, hR, hR1, -, hR3⟩ := h.inv.reg
  obtain ⟨trR', hR', hR1'⟩ := hr.reg
  have hst : Registry.Step s.reg (.waitConnect id c) s₁.reg := by
    generalize hev : Ev.reg (F := F) (o := o) (.waitConnect id c) = ev at hw
    cases hw <;> cases hev
    assumption
  rw [Registry.C36_waitConnect hR hst hR']
  have e1 : Registry.Registered trR id ↔ Registered tr id := by
    rw [← not_iff_not, ← Registry.conns_none hR, (h.conns id).2]
  rw [e1]
  simp only [Registry.Made, hR1']
  rw [exists_comm]

/-- **C108** Whoever waits for a charge point can be told by a stranger that it is there: after any history after the call, one
connection under the path `/id` is enough. -/
theorem C108_waitFooled {s₁ : St F o} (h : Exec tr s) (c : Nat) (id : Text) (hw : Step s (.reg (.waitConnect (String.ofList id) c)) s₁)
    (hr : Run s₁ tr' s') (ha : s'.alive) (r : Upgrade) (hs : Http.serve r.toRequest = .websocket id)
    (ho : Http.OpeningHandshake r.toWsRequest) :
    ∃ n k s₂, Run s' [.upgrade n r, .register n k (String.ofList id)] s₂ ∧ s₂.reg.chanClosed[c]? = some true := by
  have hx : Exec (tr ++ [_] ++ tr') s' := (h.snoc hw).append hr
  obtain ⟨n, k, s₂, h1, -, -⟩ := C108_takeover hx ha r id hs ho ""
  exact ⟨n, k, s₂, h1, (C108_waitConnect h _ c hw (run_append hr h1)).2 (.inr ⟨n, k, by simp [Accepted]⟩)⟩

/-- **C108** The connection listener is called at most once per registration, and only for one; the disconnection listener likewise,
and only if the connection is cut off. -/
theorem C108_listeners (h : Exec tr s) (k : Nat) (id : String) :
    (regEvents tr).count (.connected k id) ≤ 1 ∧ (regEvents tr).count (.disconnected k id) ≤ 1 ∧
    (Ev.reg (.connected k id) ∈ tr → ∃ n, Accepted tr n k id) ∧
    (Ev.reg (.disconnected k id) ∈ tr → ∃ n, Accepted tr n k id ∧ CutOff tr n) := by
  obtain ⟨trR, hR, hR1, hR2, hR3⟩ := h.inv.reg
  obtain ⟨h1, h2, h3, h4⟩ := Registry.C38_listeners_at_most_once hR k id
  have hcount : ∀ e, own e = true → (regEvents tr).count e = trR.count e := by
    intro e he
    rw [← hR3, List.count_filter he]
  have hmem : ∀ e, own e = true → Ev.reg e ∈ tr → e ∈ trR := by
    intro e he hm
    rw [← mem_regEvents, ← hR3] at hm
    exact (List.mem_filter.1 hm).1
  refine ⟨by rw [hcount _ rfl]; exact h1, by rw [hcount _ rfl]; exact h2, fun hm => (hR1 k id).1 (h3 (hmem _ rfl hm)), fun hm => ?_⟩
  obtain ⟨h5, h6⟩ := h4 (hmem _ rfl hm)
  obtain ⟨n, hn⟩ := (hR1 k id).1 h5
  obtain ⟨m, l, h7, h8, h9⟩ := (hR2 k).1 h6
  obtain ⟨c, h10, -, h11, -⟩ := h.inv.regd m k l h7 h8
  obtain ⟨-, c', -, -, h12, h13⟩ := h.inv.accepted n k id hn
  obtain rfl := Option.some.inj (h10.symm.trans h12)
  obtain rfl := (h.accepted_unique hn h11).2 ⟨rfl, h13.symm⟩
  exact ⟨_, hn, (h.cutOff h7).1 h9⟩

/-- Somebody waits for `a` at a new central system, and a stranger comes. -/
example : ∃ (s₁ : St F o) (tr : List (Ev F o)) (s₂ : St F o), Step (init F o) (.reg (.waitConnect "a" 0)) s₁ ∧
    s₁.reg.chanClosed[0]? = some false ∧ Run s₁ tr s₂ ∧ s₂.reg.chanClosed[0]? = some true := by
  have hst : Step (init F o) (.reg (.waitConnect "a" 0)) _ :=
    .reg init_alive (.waitConnect (id := "a") (c := 0) rfl) (by simp) (by simp) (by simp)
  have h1 : Http.serve (Http.wsDialRequest "V16" "AAAAAAAAAAAAAAAAAAAAAA==" "/a".toList).toRequest = .websocket ['a'] := by decide +kernel
  obtain ⟨n, k, s₂, h2, h3⟩ := C108_waitFooled (F := F) (o := o) .nil 0 ['a'] hst .nil (by intro m hm; simp [init] at hm)
    ⟨Http.wsDialRequest "V16" "AAAAAAAAAAAAAAAAAAAAAA==" "/a".toList, []⟩ h1
    ⟨rfl, (Http.isUpgrade_iff _).1 (by simp [Http.Request.isUpgrade, Http.wsDialRequest, Http.dialRequest]),
      by simp [Http.wsDialRequest], by simp [Http.wsDialRequest]⟩
  exact ⟨_, _, s₂, hst, rfl, h2, h3⟩

end Verif.Hub
