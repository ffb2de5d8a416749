import Verif.Props.HubWaits
/-!
# A central system among strangers comes to rest: C108, continued

C38 and C69 for any clients at all: once the library has nothing left to do, the listeners have been
called exactly as often as the connections say.
-/
namespace Verif.Hub
open Conn Codec Ocppj World

variable {F : FloatFmt} {o : Order} {tr tr' : List (Ev F o)} {s s' : St F o}

/-- The library has nothing left to do, and no handler call is in progress: only a new connection, a failure or a text on a connection,
or a call by the user changes anything. -/
def Quiet (s : St F o) : Prop :=
  ∀ e s', Step s e s' → match e with
    | .upgrade _ _ | .reg (.waitConnect _ _) => True
    | .reg _ | .register _ _ _ => False
    | .conn _ _ e => ofLoop e = false

/-- **C108** When the central system has come to rest: every connection made has been registered; somebody is registered under an id
exactly if a connection registered under it is not cut off; the connection listener was called exactly once for every connection, and
the disconnection listener exactly once for every connection that was cut off and not for the others. -/
theorem C108_rest (h : Exec tr s) (ha : s.alive) (hq : Quiet s) :
    (∀ n r, Upgraded tr n r → ∃ k id, Accepted tr n k id) ∧
    (∀ id, Registered tr id ↔ ∃ n k, Accepted tr n k id ∧ ¬ CutOff tr n) ∧
    (∀ n k id, Accepted tr n k id →
      (regEvents tr).count (.connected k id) = 1 ∧
      (CutOff tr n → (regEvents tr).count (.disconnected k id) = 1) ∧
      (¬ CutOff tr n → (regEvents tr).count (.disconnected k id) = 0)) := by
  obtain ⟨trR, hR, hR1, hR2, hR3⟩ := h.inv.reg
  have hall : ∀ n r, Upgraded tr n r → ∃ k id, Accepted tr n k id := by
    intro n r hd
    obtain ⟨l, hl, -⟩ := h.inv.dialled n r hd
    cases hr : l.reg with
    | some k =>
      obtain ⟨c, -, -, h3, -⟩ := h.inv.regd n k l hl hr
      exact ⟨k, c.cp, h3⟩
    | none =>
      obtain ⟨-, id, p, hid⟩ := h.inv.named n l hl
      exact (hq _ _ (.register ha hl hr hid (.handshake _))).elim
  have hserv : ∀ (n k : Nat) l c, s.members[n]? = some l → l.reg = some k → s.reg.table[k]? = some c → c.phase = .serving → c.closed = true →
      l.fin.loop = .exited := by
    intro n k l c hl hk hc hp hcl
    have hnc : l.fin.crashed = false := ha l (List.mem_of_getElem? hl)
    have hclo : l.fin.closed = true := by
      obtain ⟨c', h1, h2, -⟩ := h.inv.regd n k l hl hk
      rw [hc] at h1; cases h1
      exact h2.symm.trans hcl
    have no : ∀ e s', Conn.Step .cs l.fin e s' → ofLoop e = true → False := by
      intro e s' hst hol
      have := hq _ _ (.conn ha hl hk hc hst (fun _ => hp))
      simp only [hol] at this
      cases this
    cases hloop : l.fin.loop with
    | exited => rfl
    | top => exact (no _ _ (.spawn hnc hloop) rfl).elim
    | sel k => exact (no _ _ (.seeClosed hnc hloop hclo) rfl).elim
    | handling id r => exact (no _ _ (.handlerRet none none hnc hloop) rfl).elim
    | answering id resp err =>
      cases hpan : ((ocppj F o .cs).encReply id resp err).isPanic with
      | false => exact (no _ _ (.answerFail hnc hloop hpan) rfl).elim
      | true => exact (no _ _ (.answerPanicCs hnc rfl hloop hpan) rfl).elim
  have hQ : Registry.Quiet s.reg := by
    intro e s' hst
    by_cases hw : (∀ n id, e ≠ .handshake n id) ∧ ∀ n, e ≠ .drop n
    · have hstep : Step s (.reg e) { s with reg := s' } := by
        refine .reg ha hst hw.1 hw.2 ?_
        rintro k id rfl
        generalize hev : Registry.Ev.leave k id = ev at hst
        cases hst <;> cases hev
        rename_i c hp hcl hc
        obtain ⟨n, l, hl, hk⟩ := h.inv.owner k c hc
        exact ⟨n, l, hl, hk, hserv n k l c hl hk hc hp hcl⟩
      have := hq _ _ hstep
      cases e <;> simp at this ⊢
    · cases e <;> simp at hw ⊢
  obtain ⟨h1, h2⟩ := Registry.C38_listeners_exactly_once hR hQ
  have hcount : ∀ e, own e = true → trR.count e = (regEvents tr).count e := by
    intro e he
    rw [← hR3, List.count_filter he]
  have hdrop : ∀ n k id, Accepted tr n k id → (Registry.Ev.drop k ∈ trR ↔ CutOff tr n) := by
    intro n k id hd
    obtain ⟨l, c, hl, hk, hc, -⟩ := h.inv.accepted n k id hd
    rw [hR2 k, ← h.cutOff hl]
    constructor
    · rintro ⟨m, l', h3, h4, h5⟩
      obtain rfl := h.inv.inj n m k l l' hl h3 hk h4
      rw [hl] at h3; cases h3; exact h5
    · intro h4; exact ⟨n, l, hl, hk, h4⟩
  refine ⟨hall, fun id => ?_, fun n k id hd => ?_⟩
  · have e1 : Registry.Registered trR id ↔ Registered tr id := by
      rw [← not_iff_not, ← Registry.conns_none hR, (h.conns id).2]
    rw [← e1, h2 id]
    simp only [Registry.Made, hR1, Registry.Closed]
    constructor
    · rintro ⟨k, ⟨n, hi⟩, h3⟩; exact ⟨n, k, hi, fun hc => h3 ((hdrop n k id hi).2 hc)⟩
    · rintro ⟨n, k, hi, h3⟩; exact ⟨k, ⟨n, hi⟩, fun hc => h3 ((hdrop n k id hi).1 hc)⟩
  · obtain ⟨h3, h4⟩ := h1 k id ((hR1 k id).2 ⟨n, hd⟩)
    rw [hcount _ rfl] at h3 h4
    refine ⟨h3, ?_, ?_⟩
    · intro hc; rw [h4, if_pos ((hdrop n k id hd).2 hc)]
    · intro hc; rw [h4, if_neg (fun hh => hc ((hdrop n k id hd).1 hh))]

/-- **C108** Rest is reached: somebody has connected, the listener has been called and the serving loop waits for a text. -/
theorem C108_rest_reached (r : Upgrade) (id : Text) (hs : Http.serve r.toRequest = .websocket id) (ho : Http.OpeningHandshake r.toWsRequest) :
    ∃ (tr : List (Ev F o)) (s : St F o), Exec tr s ∧ s.alive ∧ Quiet s ∧ Upgraded tr 0 r ∧ Accepted tr 0 0 (String.ofList id) := by
  have hacc := accept_names hs ho
  have r0 := Exec.snoc (Exec.nil (F := F) (o := o)) (Step.upgrade init_alive hacc)
  let s1 : St F o := ⟨(init F o).reg.register (String.ofList id), [⟨r, Conn.init _, some 0⟩]⟩
  have r1 : Exec _ s1 := Exec.snoc r0 (Step.register (n := 0) (m := ⟨r, Conn.init _, none⟩) (id := id) (alive_append init_alive) rfl rfl hacc
    (Registry.Step.handshake _))
  have al1 : ∀ reg, (⟨reg, [⟨r, Conn.init _, some 0⟩]⟩ : St F o).alive := by
    intro reg m hm
    simp only [List.mem_singleton] at hm
    subst hm; rfl
  have t1 : s1.reg.table = [⟨String.ofList id, .registered, false, false, false⟩] := Registry.register_table _ _
  have e1 : s1 = ⟨s1.reg, [⟨r, Conn.init _, some 0⟩]⟩ := rfl
  generalize s1.reg = reg1 at t1 e1
  rw [e1] at r1
  have r2 := r1.snoc (.reg (al1 _) (Registry.Step.notify (n := 0) (s := reg1) (by rw [t1]; rfl) rfl) (by simp) (by simp) (by simp))
  have r3 := r2.snoc (.reg (al1 _) (Registry.Step.connected (n := 0) (c := ⟨String.ofList id, .serving, false, false, false⟩)
    (by simp [t1]) (by simp) rfl) (by simp) (by simp) (by simp))
  simp only [t1, List.set_cons_zero] at r3
  have r4 := r3.snoc (.conn (n := 0) (k := 0) (m := ⟨r, Conn.init _, some 0⟩) (c := ⟨String.ofList id, .serving, false, true, false⟩) (al1 _) rfl rfl (by simp)
    (Conn.Step.spawn rfl rfl) (fun _ => rfl))
  refine ⟨_, _, r4, ?_, ?_, by simp [Upgraded, init], by simp [Accepted, init, Registry.init]⟩
  · intro l hl; simp at hl; subst hl; rfl
  · intro e w' hs
    generalize hW : (St.mk _ _ : St F o) = W at hs
    have hlinks : ∀ (n : Nat) l, W.members[n]? = some l → n = 0 ∧ l.reg = some 0 ∧ l.fin.loop = .sel 0 ∧ l.fin.closed = false ∧ l.fin.readers = [.reading] := by
      rw [← hW]
      intro n l hl
      rcases n with _ | n
      · simp at hl; subst hl; simp [Conn.init]
      · simp at hl
    have htab : ∀ (n : Nat) c, W.reg.table[n]? = some c → n = 0 ∧ c = ⟨String.ofList id, .serving, false, true, false⟩ := by
      rw [← hW]
      intro n c hc
      rcases n with _ | n
      · simp [noteClosed, Conn.init] at hc; exact ⟨rfl, hc.symm⟩
      · simp [noteClosed, Conn.init] at hc
    cases hs with
    | upgrade => trivial
    | register _ hl hr => obtain ⟨-, h, -⟩ := hlinks _ _ hl; rw [hr] at h; cases h
    | @reg e reg' hal hst h1 h2 h3 =>
      cases hst with
      | handshake => exact absurd rfl (h1 _ _)
      | drop => exact absurd rfl (h2 _)
      | waitConnect => trivial
      | notify hc hp => obtain ⟨-, rfl⟩ := htab _ _ hc; cases hp
      | connected hc hp hu => obtain ⟨-, rfl⟩ := htab _ _ hc; cases hu
      | disconnected hc hp hu => obtain ⟨-, rfl⟩ := htab _ _ hc; rcases hp with hp | hp <;> cases hp
      | leave hc hp hcl => obtain ⟨-, rfl⟩ := htab _ _ hc; cases hcl
      | cleanup hc hp => obtain ⟨-, rfl⟩ := htab _ _ hc; cases hp
    | @conn n k e m c fin' hal hl hk hc hst hloop =>
      obtain ⟨rfl, -, hsel, hclo, hrd⟩ := hlinks _ _ hl
      show ofLoop e = false
      cases hst with
      | spawn _ h => rw [hsel] at h; cases h
      | @take k _ _ _ _ h =>
        rw [hrd] at h
        rcases k with _ | k <;> simp at h
      | handlerRet _ _ _ h => rw [hsel] at h; cases h
      | answerOk _ h => rw [hsel] at h; cases h
      | answerFail _ h => rw [hsel] at h; cases h
      | handlerPanicCs _ _ h => rw [hsel] at h; cases h
      | handlerPanicCp _ h => cases h
      | answerPanicCs _ _ h => rw [hsel] at h; cases h
      | answerPanicCp _ h => cases h
      | @result k _ _ _ h =>
        rw [hrd] at h
        rcases k with _ | k <;> simp at h
      | seeClosed _ _ h => rw [hclo] at h; cases h
      | ctxDone _ h => cases h
      | _ => rfl

end Verif.Hub
