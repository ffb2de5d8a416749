import Verif.Props.Fleet
/-!
# What WaitConnect, WaitDisconnect and the listeners tell

Property C93.
-/
set_option linter.unusedSimpArgs false
namespace Verif.Conn
variable {S : Sem} {side : Side}

/-- On a closed connection a `Send` begun later neither writes its request nor waits for an answer. -/
theorem closed_send {s s' : St S} {t : List (Ev S)} (hc : s.closed = true) (hr : Run side s t s') :
    s.senders.length ≤ s'.senders.length ∧ s'.closed = true ∧
    (∀ i mid r, Ev.send i mid r ∈ t → s.senders.length ≤ i) ∧
    (∀ i, s.senders.length ≤ i → (∀ x, s'.senders[i]? = some x → x.phase ≠ .waiting ∧ ∀ a, x.phase ≠ .received a) ∧
      (∀ a, Ev.finish i a ∉ t) ∧ Ev.timeout i ∉ t ∧ ∀ f, Ev.writeCall i (some f) ∉ t) := by
  induction hr with
  | nil =>
    refine ⟨Nat.le_refl _, hc, by simp, fun i hi => ⟨fun x hx => ?_, by simp⟩⟩
    have := (List.getElem?_eq_some_iff.1 hx).1; omega
  | @snoc t e s₁ s₂ hr hs ih =>
    obtain ⟨h1, h2, h3, h4⟩ := ih
    have h5 : s₂.closed = true := (closed_step h2 hs).1
    have hlen : s₁.senders.length ≤ s₂.senders.length := by
      cases hs <;> simp [St.setReader, St.setPhase]
    refine ⟨by omega, h5, ?_, ?_⟩
    · intro i mid r hm
      rw [List.mem_append, List.mem_singleton] at hm
      rcases hm with hm | rfl
      · exact h3 i mid r hm
      · generalize hev : Ev.send i mid r = ev at hs
        cases hs <;> cases hev <;> exact h1
    · intro i hi
      obtain ⟨h6, h7, h8, h9⟩ := h4 i hi
      simp only [List.mem_append, List.mem_singleton, not_or]
      refine ⟨fun x hx => ?_, fun a => ⟨h7 a, ?_⟩, ⟨h8, ?_⟩, fun f => ⟨h9 f, ?_⟩⟩
      · cases hs <;> simp only [St.setReader, St.setPhase, List.getElem?_set] at hx <;> grind
      · rintro rfl
        generalize hev : Ev.finish i a = ev at hs
        cases hs <;> cases hev
        rename_i x hc' hx hp
        first | exact (h6 _ hx).2 _ hp | exact (h6 _ hp).2 _ hx
      · rintro rfl
        generalize hev : Ev.timeout i = ev at hs
        cases hs <;> cases hev
        rename_i x hc' hx hp
        first | exact (h6 _ hx).1 hp | exact (h6 _ hp).1 hx
      · rintro rfl
        exact absurd (closed_step h2 hs).2 (by simp [Ev.wrote])

end Verif.Conn

namespace Verif.World
open Conn Codec Ocppj

variable {F : FloatFmt} {o₁ o₂ : Order} {csURL : Text} {tr tr' : List (Ev F o₁ o₂)} {w w' : St F o₁ o₂}

theorem csEvents_append (n : Nat) (t t' : List (Ev F o₁ o₂)) : csEvents n (t ++ t') = csEvents n t ++ csEvents n t' := by
  simp [csEvents]

/-- **C93** A connection that is cut off and that the central system has not finished with, if it is the last one registered as `id`:
`WaitDisconnect(id)` returns a closed channel, so waiting for the disconnection is over at once; `WaitConnect(id)` also returns a closed
channel; `GetServiceOf(id)` still gives this connection; and no `Send` begun on it from now on writes its request or gets an answer:
it ends with an error. -/
theorem C93_dead (h : Exec csURL tr w) {id : String} {n k : Nat} (hl : Latest tr n k id) (hg : Registered tr id) (hc : CutOff tr n) :
    w.reg.discClosed (w.reg.waitDisconnect id) = true ∧
    (∀ c w₁, Step csURL w (.reg (.waitConnect id c)) w₁ → w₁.reg.chanClosed[c]? = some true) ∧
    (∀ url, w.reg.getServiceOf id "V16" url = .ok (.json k)) ∧
    (∀ tr' w', Run csURL w tr' w' → ∀ i mid r, Conn.Ev.send (S := ocppj F o₂ .cs) i mid r ∈ csEvents n tr' →
      (∀ a, Conn.Ev.finish (S := ocppj F o₂ .cs) i a ∉ csEvents n tr') ∧ Conn.Ev.timeout (S := ocppj F o₂ .cs) i ∉ csEvents n tr' ∧
      ∀ f, Conn.Ev.writeCall (S := ocppj F o₂ .cs) i (some f) ∉ csEvents n tr') := by
  refine ⟨?_, ?_, ?_, ?_⟩
  · exact (C69_waitDisconnect h .nil id).2 (.inr ⟨n, k, hl, by simpa using hc⟩)
  · intro c w₁ hw
    exact (C69_waitConnect h id c hw .nil).2 (.inl hg)
  · intro url
    exact ((C67_service h id url).1 k).2 ⟨hg, n, hl⟩
  · intro tr' w' hr i mid r hs
    have hx := h.append hr
    obtain ⟨l, c, ha, -⟩ := hx.inv.accepted n k id (List.mem_append_left _ hl.1)
    have he := (hx.inv.ends n l ha).ends.2.1
    rw [atCs_onLink, csEvents_append] at he
    obtain ⟨s1, e1, e2⟩ := Conn.Run.split he
    obtain ⟨-, -, h3, h4⟩ := closed_send ((C30_closed_iff e1).2 hc) e2
    obtain ⟨-, h5, h6, h7⟩ := h4 i (h3 i mid r hs)
    exact ⟨h5, h6, h7⟩

/-- What the bookkeeping has recorded of a registration. -/
theorem Exec.hist (h : Exec csURL tr w) : ∃ trR, Registry.Exec trR w.reg ∧ Registry.Hist trR w.reg ∧
    (∀ e, own e = true → (e ∈ trR ↔ Ev.reg e ∈ tr)) ∧
    (∀ n k id, Accepted tr n k id → ∃ c, w.reg.table[k]? = some c ∧ c.cp = id ∧ (c.closed = true ↔ CutOff tr n)) := by
  obtain ⟨trR, hR, hR1, hR2, hR3⟩ := h.inv.reg
  refine ⟨trR, hR, Registry.Exec.hist hR, ?_, ?_⟩
  · intro e he
    rw [← mem_regEvents, ← hR3, List.mem_filter, and_iff_left he]
  · intro n k id ha
    obtain ⟨l, c, h1, h2, h3, h4⟩ := h.inv.accepted n k id ha
    obtain ⟨c', h5, h6, -⟩ := h.inv.regd n k l h1 h2
    rw [h3] at h5; cases h5
    exact ⟨c, h3, h4, by rw [h6, h.cutOff h1]⟩

theorem Exec.prefix {t : List (Ev F o₁ o₂)} (h : Exec csURL (t ++ tr') w) : ∃ w₁, Exec csURL t w₁ ∧ Run csURL w₁ tr' w := by
  generalize he : t ++ tr' = u at h
  induction h generalizing tr' with
  | nil =>
    obtain ⟨rfl, rfl⟩ := List.append_eq_nil_iff.1 he
    exact ⟨_, .nil, .nil⟩
  | @snoc tr₀ e w₀ w₁ hx hs ih =>
    rcases List.eq_nil_or_concat tr' with rfl | ⟨t', e', rfl⟩
    · rw [List.append_nil] at he; subst he
      exact ⟨_, hx.snoc hs, .nil⟩
    · rw [List.concat_eq_append, ← List.append_assoc] at he
      obtain ⟨he1, he2⟩ := List.append_inj' he rfl
      cases he2
      obtain ⟨w₂, h1, h2⟩ := ih he1
      rw [List.concat_eq_append]
      exact ⟨w₂, h1, h2.snoc hs⟩

theorem Exec.last {e : Ev F o₁ o₂} (h : Exec csURL (tr ++ [e]) w) : ∃ w₁, Exec csURL tr w₁ ∧ Step csURL w₁ e w := by
  generalize he : tr ++ [e] = u at h
  cases h with
  | nil => simp at he
  | snoc hx hs =>
    obtain ⟨rfl, he2⟩ := List.append_inj' he rfl
    cases he2
    exact ⟨_, hx, hs⟩

theorem Run.trans {w₁ : St F o₁ o₂} {t : List (Ev F o₁ o₂)} (h : Run csURL w t w₁) (hr : Run csURL w₁ tr' w') : Run csURL w (t ++ tr') w' := by
  induction hr with
  | nil => simpa using h
  | snoc _ hs ih => rw [← List.append_assoc]; exact .snoc ih hs

/-- **C93** Every connection the central system finishes with passes through such a moment: there was a moment when it was cut off
and the central system had not finished with it. -/
theorem C93_window (h : Exec csURL tr w) {n : Nat} (he : Ended tr n) :
    ∃ t₁ t₂ w₁, tr = t₁ ++ t₂ ∧ Exec csURL t₁ w₁ ∧ Run csURL w₁ t₂ w ∧ (∃ k id, Accepted t₁ n k id) ∧ CutOff t₁ n ∧ ¬ Ended t₁ n := by
  obtain ⟨k, id, ha, hcl⟩ := he
  obtain ⟨t₁, t₂, rfl, hn⟩ := List.eq_append_cons_of_mem hcl
  obtain ⟨w₁, h1, h2⟩ := h.prefix
  obtain ⟨w₂, h3, h4⟩ := (show Exec csURL ((t₁ ++ [Ev.reg (.cleanup k)]) ++ t₂) w by simpa using h).prefix
  have hend : ¬ Ended t₁ n := by
    rintro ⟨j, id', h5, h6⟩
    obtain ⟨rfl, -⟩ := (h.accepted_unique ha (List.mem_append_left _ h5)).1 rfl
    exact hn h6
  obtain ⟨w₀, h5, h6⟩ : ∃ w₀, Exec csURL t₁ w₀ ∧ Step csURL w₀ (.reg (.cleanup k)) w₂ := by
    exact h3.last
  obtain ⟨c, hc1, hc2⟩ : ∃ c, w₀.reg.table[k]? = some c ∧ c.phase = .leaving := by
    generalize hev : Ev.reg (F := F) (o₁ := o₁) (o₂ := o₂) (.cleanup k) = ev at h6
    cases h6 <;> cases hev
    rename_i hst _ _ _
    generalize hev : Registry.Ev.cleanup k = ev at hst
    cases hst <;> cases hev
    exact ⟨_, by assumption, by assumption⟩
  obtain ⟨m, l, hm1, hm2⟩ := h5.inv.owner k c hc1
  obtain ⟨c', h7, h8, h9, -⟩ := h5.inv.regd m k l hm1 hm2
  rw [hc1] at h7; cases h7
  obtain ⟨l', c', h10, h11, h12, h13⟩ := h.inv.accepted n k id ha
  obtain ⟨l2, c2, h14, h15, h16, h17⟩ := h.inv.accepted m k c.cp (List.mem_append_left _ h9)
  obtain rfl := h.inv.inj n m k l' l2 h10 h14 h11 h15
  obtain ⟨trR, hR, hH, -, h18⟩ := h5.hist
  have hcl : c.closed = true := hH.order k c hc1 (by rw [hc2]; decide)
  have hcut : CutOff t₁ n := (h5.cutOff hm1).1 (h8 ▸ hcl)
  have hrun : Run csURL w₀ (Ev.reg (.cleanup k) :: t₂) w := by
    have := Run.snoc (csURL := csURL) (.nil (w := w₀)) h6
    exact this.trans h4
  exact ⟨t₁, _, w₀, rfl, h5, hrun, ⟨k, c.cp, h9⟩, hcut, hend⟩

/-- **C93** If `GetServiceOf(id)` gave an error when `WaitConnect(id)` was called, and the channel it returned is closed now, then `id`
has been registered since; and `GetServiceOf(id)` now gives a connection registered since, or the central system has already finished
with all of those. -/
theorem C93_waitConnect {w₁ : St F o₁ o₂} (h : Exec csURL tr w) (id : String) (hg : ∃ e, w.reg.getServiceOf id "V16" "" = .err e) (c : Nat)
    (hw : Step csURL w (.reg (.waitConnect id c)) w₁) (hr : Run csURL w₁ tr' w') (hc : w'.reg.chanClosed[c]? = some true) :
    (∃ n k, Accepted tr' n k id) ∧
    ((∃ n k, Accepted tr' n k id ∧ ∀ url, w'.reg.getServiceOf id "V16" url = .ok (.json k)) ∨
     ((∀ url, ∃ e, w'.reg.getServiceOf id "V16" url = .err e) ∧ ∀ n k, Accepted tr' n k id → Ended (tr ++ [.reg (.waitConnect id c)] ++ tr') n)) := by
  have hnr := ((C67_service h id "").2.1).1 hg
  have hsince : ∃ n k, Accepted tr' n k id := ((C69_waitConnect h id c hw hr).1 hc).resolve_left hnr
  refine ⟨hsince, ?_⟩
  have hx := (h.snoc hw).append hr
  by_cases hreg : Registered (tr ++ [.reg (.waitConnect id c)] ++ tr') id
  · left
    have hold : ∀ n k, Accepted tr n k id → Ended (tr ++ [.reg (.waitConnect id c)] ++ tr') n := by
      intro n k ha
      by_contra hne
      exact hnr ⟨n, k, ha, fun ⟨j, i, h1, h2⟩ => hne ⟨j, i, List.mem_append_left _ (List.mem_append_left _ h1),
        List.mem_append_left _ (List.mem_append_left _ h2)⟩⟩
    obtain ⟨n₁, k₁, h1⟩ := hsince
    cases hgs : w'.reg.conns.get id with
    | none => exact absurd hreg ((hx.conns id).2.1 hgs)
    | some k =>
      obtain ⟨-, n, hn⟩ := ((hx.conns id).1 k).1 hgs
      have hn' : Accepted tr' n k id := by
        have hlat := hn.2 n₁ k₁ (List.mem_append_right _ h1)
        rcases List.mem_append.1 hn.1 with h2 | h2
        · exfalso
          have h2 : Accepted tr n k id := by
            rcases List.mem_append.1 h2 with h2 | h2
            · exact h2
            · simp at h2
          have := Fleet.numbered_lt hx (List.mem_append_left _ h2) h1
          omega
        · exact h2
      exact ⟨n, k, hn', fun url => ((C67_service hx id url).1 k).2 ⟨hreg, n, hn⟩⟩
  · right
    refine ⟨fun url => ((C67_service hx id url).2.1).2 hreg, fun n k ha => ?_⟩
    by_contra hne
    exact hreg ⟨n, k, List.mem_append_right _ ha, hne⟩

/-- **C93** After the connection listener has been called for a registration, `GetServiceOf(id)` gives this connection or one registered
later, or the central system has already finished with it. -/
theorem C93_connected (h : Exec csURL tr w) {k : Nat} {id : String} (hm : Ev.reg (.connected k id) ∈ tr) :
    ∃ n, Accepted tr n k id ∧
      ((∃ m j, k ≤ j ∧ Accepted tr m j id ∧ ∀ url, w.reg.getServiceOf id "V16" url = .ok (.json j)) ∨
       ((∀ url, ∃ e, w.reg.getServiceOf id "V16" url = .err e) ∧ Ended tr n)) := by
  obtain ⟨trR, hR, hH, hown, -⟩ := h.hist
  obtain ⟨c, h1, h2, -⟩ := (hH.up k id).1 ((hown _ rfl).2 hm)
  obtain ⟨n, l, h3, h4⟩ := h.inv.owner k c h1
  obtain ⟨c', h5, h6, h7, -⟩ := h.inv.regd n k l h3 h4
  rw [h1] at h5; cases h5
  subst h2
  refine ⟨n, h7, ?_⟩
  cases hg : w.reg.conns.get c.cp with
  | none =>
    have hn := (h.conns c.cp).2.1 hg
    refine .inr ⟨fun url => ((C67_service h c.cp url).2.1).2 hn, ?_⟩
    by_contra hne
    exact hn ⟨n, k, h7, hne⟩
  | some j =>
    obtain ⟨h8, m, h9⟩ := ((h.conns c.cp).1 j).1 hg
    exact .inl ⟨m, j, h9.2 n k h7, h9.1, fun url => ((C67_service h c.cp url).1 j).2 ⟨h8, m, h9⟩⟩

/-- **C93** When the disconnection listener has been called for a registration, the connection is cut off; but the central system need not have
finished with it: then, if it is the last one, all of `C93_dead` applies. -/
theorem C93_disconnected (h : Exec csURL tr w) {k : Nat} {id : String} (hm : Ev.reg (.disconnected k id) ∈ tr) :
    ∃ n, Accepted tr n k id ∧ CutOff tr n := by
  obtain ⟨trR, hR, hH, hown, -⟩ := h.hist
  obtain ⟨c, h1, rfl, h2⟩ := (hH.down k id).1 ((hown _ rfl).2 hm)
  obtain ⟨n, l, h3, h4⟩ := h.inv.owner k c h1
  obtain ⟨c', h5, h6, h7, -⟩ := h.inv.regd n k l h3 h4
  rw [h1] at h5; cases h5
  exact ⟨n, h7, (h.cutOff h3).1 (h6 ▸ hH.order k c h1 (hH.downOrd k c h1 h2))⟩

/-- **C93** This happens: the disconnection listener is called, and `GetServiceOf` still gives the dead connection. -/
theorem C93_reached (identity id : Text) (hid : Http.registeredAs csURL identity = some id) :
    ∃ (tr : List (Ev F o₁ o₂)) (w : St F o₁ o₂), Exec csURL tr w ∧ Latest tr 0 0 (String.ofList id) ∧ Registered tr (String.ofList id) ∧ CutOff tr 0 ∧
      Ev.reg (.disconnected 0 (String.ofList id)) ∈ tr ∧ w.reg.getServiceOf (String.ofList id) "V16" "" = .ok (.json 0) ∧
      ∃ w', Step csURL w (.reg (.cleanup 0)) w' := by
  have r0 := (Exec.nil (F := F) (o₁ := o₁) (o₂ := o₂) (csURL := csURL)).dialAt (n := 0) (alive_init [] _) hid rfl
  have r1 := r0.registerAt (n := 0) (k := 0) (l := ⟨identity, Sys.init F o₁ o₂, none⟩) (alive_init [(identity, none)] _) rfl rfl hid rfl
  have t1 : (Registry.St.register Registry.init (String.ofList id)).table = [⟨String.ofList id, .registered, false, false, false⟩] := register_table _ _
  generalize hreg : Registry.St.register (init F o₁ o₂).reg (String.ofList id) = reg1 at r1
  have t1 : reg1.table = [⟨String.ofList id, .registered, false, false, false⟩] := by rw [← hreg]; exact t1
  have al1 : ∀ reg, (⟨reg, [⟨identity, Sys.init F o₁ o₂, some 0⟩]⟩ : St F o₁ o₂).alive := fun reg => alive_init [(identity, some 0)] reg
  have r2 := r1.snoc (step_alive_reg (al1 _) (Registry.Step.notify (n := 0) (s := reg1) (by rw [t1]; rfl) rfl) rfl (by simp))
  simp only [t1, List.set_cons_zero] at r2
  have run : ∃ (t : List (Conn.Ev (ocppj F o₂ .cs))) (a : Conn.St (ocppj F o₂ .cs)), Conn.Exec .cs t a ∧ (∀ e ∈ t, ∀ k f, e ≠ .read k f) ∧
      a.crashed = false ∧ a.closed = true ∧ a.loop = .exited := by
    have s0 : Conn.Exec (S := ocppj F o₂ .cs) .cs [] (Conn.init _) := .nil
    have s1 := s0.snoc (Conn.Step.spawn rfl rfl)
    have s2 := s1.snoc (Conn.Step.readErr (k := 0) (e := .err) rfl rfl (by simp))
    have s3 := s2.snoc (Conn.Step.seeClosed (k := 0) rfl rfl rfl)
    exact ⟨_, _, s3, by simp, rfl, rfl, rfl⟩
  obtain ⟨t, a, ht, hnr, hcr, hcl, hlo⟩ := run
  have hsys : ∃ t' x, Sys.Exec (F := F) (o₁ := o₁) (o₂ := o₂) t' x ∧ atCs t' = t ∧ x.cs = a := by
    clear hcr hcl hlo
    induction ht with
    | nil => exact ⟨[], _, .nil, rfl, rfl⟩
    | @snoc t e a a' ht hs ih =>
      obtain ⟨t', x, h1, h2, h3⟩ := ih (fun e he => hnr e (List.mem_append_left _ he))
      subst h3
      exact ⟨_, _, h1.snoc (.cs hs (.other (hnr e (by simp)))), by simp [atCs] at h2 ⊢; exact h2, rfl⟩
  obtain ⟨t', x, h1, h2, h3⟩ := hsys
  obtain ⟨reg2, r2, ht2⟩ : ∃ reg2, Exec csURL [.dial 0 identity, .register 0 0 (String.ofList id), .reg (.notify 0 (String.ofList id))]
      (⟨reg2, [⟨identity, Sys.init F o₁ o₂, some 0⟩]⟩ : St F o₁ o₂) ∧ reg2.table = [⟨String.ofList id, .serving, false, false, false⟩] :=
    ⟨_, r2, rfl⟩
  obtain ⟨reg3, d, h4, h5, h6, h7⟩ := lift_run (csURL := csURL) (n := 0) (k := 0) (c := ⟨String.ofList id, .serving, false, false, false⟩)
    (al1 reg2) rfl (by rw [ht2]; rfl) rfl h1 (by rw [h3]; exact hcr)
  have r3 := r2.append h4
  simp only [List.set_cons_zero] at r3
  have hd : d.closed = true := by
    obtain ⟨c, h8, h9, -⟩ := r3.inv.regd 0 0 _ rfl rfl
    rw [h5] at h8; cases h8
    rw [h9]; simp only; rw [h3]; exact hcl
  have al3 : ∀ reg, (⟨reg, [⟨identity, x, some 0⟩]⟩ : St F o₁ o₂).alive := by
    intro reg l hl
    simp at hl; subst hl; simp only; rw [h3]; exact hcr
  have h0 : 0 < reg3.table.length := (List.getElem?_eq_some_iff.1 h5).1
  have r4 := r3.snoc (.reg (al3 _) (.leave h5 h7 hd) (by simp) (by simp) (fun k i he => by
    cases he; exact ⟨0, _, rfl, rfl, by simp only; rw [h3]; exact hlo⟩))
  have r5 := r4.snoc (.reg (al3 _) (.disconnected (n := 0) (c := { d with phase := .leaving }) (by simp [h0]) (.inl rfl) (by
    simp only
    cases hdc : d.downCalled with
    | false => rfl
    | true =>
      obtain ⟨trR, hR, hH, -⟩ := r3.hist
      have := hH.downOrd 0 d h5 hdc
      rw [h7] at this; cases this; contradiction)) (by simp) (by simp) (by simp))
  rw [h6] at r5
  have hmem : ∀ e ∈ lift (F := F) (o₁ := o₁) (o₂ := o₂) 0 (String.ofList id) t', (∃ e', e = .cp 0 e') ∨ ∃ e', e = .cs 0 (String.ofList id) e' := by
    intro e he
    simp only [lift, List.mem_map] at he
    obtain ⟨a, -, rfl⟩ := he
    rcases a with a | a
    · exact .inl ⟨a, rfl⟩
    · exact .inr ⟨a, rfl⟩
  generalize hT : lift (F := F) (o₁ := o₁) (o₂ := o₂) 0 (String.ofList id) t' = T at r5 hmem
  have hno : ∀ n k i, Ev.register n k i ∉ T := by
    intro n k i hm; rcases hmem _ hm with ⟨_, h⟩ | ⟨_, h⟩ <;> cases h
  have hno2 : ∀ e, Ev.reg e ∉ T := by
    intro e hm; rcases hmem _ hm with ⟨_, h⟩ | ⟨_, h⟩ <;> cases h
  have hlat : Latest ([.dial 0 identity, .register 0 0 (String.ofList id), .reg (.notify 0 (String.ofList id))] ++ T ++ [Ev.reg (.leave 0 (String.ofList id))]
      ++ [Ev.reg (.disconnected 0 (String.ofList id))]) 0 0 (String.ofList id) := by
    refine ⟨by simp [Accepted], fun m j hm => ?_⟩
    simp [Accepted, hno] at hm; omega
  have hregd : Registered ([.dial 0 identity, .register 0 0 (String.ofList id), .reg (.notify 0 (String.ofList id))] ++ T ++ [Ev.reg (.leave 0 (String.ofList id))]
      ++ [Ev.reg (.disconnected 0 (String.ofList id))]) (String.ofList id) := by
    refine ⟨0, 0, hlat.1, ?_⟩
    rintro ⟨k, i, -, hc⟩
    simp [hno2] at hc
  refine ⟨_, _, r5, hlat, hregd, ?_, by simp, ?_, ?_⟩
  · exact (r5.cutOff (l := ⟨identity, x, some 0⟩) rfl).1 (by simp only; rw [h3]; exact hcl)
  · exact ((C67_service r5 _ _).1 0).2 ⟨hregd, 0, hlat⟩
  · exact ⟨_, .reg (al3 _) (.cleanup (n := 0) (c := { d with phase := .leaving, downCalled := true }) (by simp [h0, h6]) rfl) (by simp) (by simp) (by simp)⟩

/-- Hypotheses of `C93_waitConnect` are met: `WaitConnect` is called before the charge point dials. -/
theorem C93_waitConnect_reached (identity id : Text) (hid : Http.registeredAs csURL identity = some id) :
    ∃ (c : Nat) (w₁ w' : St F o₁ o₂) (tr' : List (Ev F o₁ o₂)), (∃ e, (init F o₁ o₂).reg.getServiceOf (String.ofList id) "V16" "" = .err e) ∧
      Step csURL (init F o₁ o₂) (.reg (.waitConnect (String.ofList id) c)) w₁ ∧ Run csURL w₁ tr' w' ∧ w'.reg.chanClosed[c]? = some true := by
  obtain ⟨c, reg1, hw⟩ := Registry.C36_waitConnect_returns (init F o₁ o₂).reg (String.ofList id)
  have hal : (⟨reg1, []⟩ : St F o₁ o₂).alive := alive_init [] _
  have hs : Step csURL (init F o₁ o₂) (.reg (.waitConnect (String.ofList id) c)) ⟨reg1, []⟩ := .reg (alive_init [] _) hw (by simp) (by simp) (by simp)
  have h1 : Run csURL (⟨reg1, []⟩ : St F o₁ o₂) _ _ := Run.nil.snoc (.dial hal hid)
  have h2 := h1.snoc (.register (n := 0) (l := ⟨identity, Sys.init F o₁ o₂, none⟩) (alive_init [(identity, none)] _) rfl rfl hid (.handshake _))
  exact ⟨c, _, _, _, ⟨_, rfl⟩, hs, h2, (C69_waitConnect .nil _ c hs h2).2 (.inr ⟨0, reg1.table.length, by simp [Accepted]⟩)⟩

end Verif.World

namespace Verif.Fleet
open Codec Ocppj World

variable {F : FloatFmt} {o₁ o₂ : Order} {csURL : Text} {ids : List Text} {tr : List (Ev F o₁ o₂)} {s : St F o₁ o₂}

/-- **C93** A disconnection can be missed.  If all connections of a charge point are closed at its end, the library alone gets it, without an
action of the user, to a state where `GetServiceOf(id)` gives a new and open connection and `WaitDisconnect(id)`, called then, returns a
channel that is not closed, and that is closed only when the new connection is cut off: who calls it to wait for the disconnection that
has happened waits for the next one. -/
theorem C93_missed {i : Nat} {identity id : Text} (h : Exec csURL ids tr s) (hi : ids[i]? = some identity) (hid : Http.registeredAs csURL identity = some id)
    (hw : s.world.alive) (hal : ∀ n ∈ connsOf i tr, ∀ l, s.world.links[n]? = some l → l.ends.cp.crashed = false ∧ l.ends.cp.closed = true)
    (hh : ∀ c, s.cps[i]? = some c → c.st.phase ≠ .handling ∧ c.st.phase ≠ .stopped) :
    ∃ k n x k' n' r₀ t s' m r, t.Sublist (comeback i k n x k' n' r₀ identity (String.ofList id)) ∧ Run csURL s t s' ∧
      (connsOf i (tr ++ t)).getLast? = some m ∧ Accepted (worldEvents (tr ++ t)) m r (String.ofList id) ∧ ¬ CutOff (worldEvents (tr ++ t)) m ∧
      s'.world.reg.getServiceOf (String.ofList id) "V16" "" = .ok (.json r) ∧
      s'.world.reg.discClosed (s'.world.reg.waitDisconnect (String.ofList id)) = false ∧
      ∀ t' s'', Run csURL s' t' s'' → (s''.world.reg.discClosed (s'.world.reg.waitDisconnect (String.ofList id)) = true ↔
        CutOff (worldEvents (tr ++ t ++ t')) m) := by
  obtain ⟨k, n, x, k', n', r₀, t, s', h1, h2, h3⟩ := C82_comes_back h hi hid hw hal hh
  obtain ⟨m, r, h4, h5, h6, -, ⟨l, h7, -, h8⟩, -⟩ := h3.back
  have hx := h3.exec.inv.world
  have hnc : ¬ CutOff (worldEvents (tr ++ t)) m := by
    rw [← hx.cutOff h7, h8]; simp
  have key : ∀ t' s'', Run csURL s' t' s'' → (s''.world.reg.discClosed (s'.world.reg.waitDisconnect (String.ofList id)) = true ↔
      CutOff (worldEvents (tr ++ t ++ t')) m) := by
    intro t' s'' hr
    obtain ⟨hreg, m', hl⟩ := ((C67_service hx (String.ofList id) "").1 r).1 h6
    obtain rfl : m = m' := (hx.accepted_unique h5 hl.1).2 ⟨rfl, rfl⟩
    rw [C69_waitDisconnect hx hr.world, worldEvents_append (tr ++ t)]
    constructor
    · rintro (h9 | ⟨m', j, h9, h10⟩)
      · exact absurd hreg h9
      · have : j = r := Nat.le_antisymm (hl.2 _ _ h9.1) (h9.2 _ _ hl.1)
        subst this
        rw [(hx.accepted_unique h5 h9.1).2 ⟨rfl, rfl⟩]; exact h10
    · intro h9; exact .inr ⟨m, r, hl, h9⟩
  refine ⟨k, n, x, k', n', r₀, t, s', m, r, h1, h2, h4, h5, hnc, h6, ?_, key⟩
  rw [← Bool.not_eq_true, key [] s' .nil]
  simpa using hnc

end Verif.Fleet
