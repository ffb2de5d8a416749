import Verif.Model.Redial
import Verif.Props.ChargePoint
/-!
# How often a charge point dials: property C94

`TRun (tinit t₀) tr s`: the history `tr`, a list of events with their times in milliseconds, led to `s`.  `.start` is the beginning of a dial,
`dialOk` and `dialFail` its end.
-/
set_option linter.unusedSimpArgs false
namespace Verif.ChargePoint

/-- Dials begun. -/
def starts (tr : List (Nat × TEv)) : Nat := tr.countP fun x => decide (x.2 = .start)

/-- Losses of a connection noticed by the charge point. -/
def losses (tr : List (Nat × TEv)) : Nat := tr.countP fun x => decide (x.2 = .ev .seeClosed)

/-- The first dial, that of `New`, has succeeded. -/
def Made (tr : List (Nat × TEv)) : Prop := ∃ t n, (t, TEv.ev (.dialOk n)) ∈ tr

/-- The events of the charge point without clock. -/
def untimed (tr : List (Nat × TEv)) : List Ev := tr.filterMap fun x => match x.2 with | .ev e => some e | .start => none

theorem Prompt.trun {s s' : TSt} {tr : List (Nat × TEv)} (h : Prompt s tr s') : TRun s tr s' := by
  induction h with
  | nil => exact .nil
  | cons _ hs _ ih => exact .cons hs ih

theorem TRun.append {s s' s'' : TSt} {t t' : List (Nat × TEv)} (h : TRun s t s') (h' : TRun s' t' s'') : TRun s (t ++ t') s'' := by
  induction h with
  | nil => exact h'
  | cons hs _ ih => exact .cons hs (ih h')

theorem Prompt.append {s s' s'' : TSt} {t t' : List (Nat × TEv)} (h : Prompt s t s') (h' : Prompt s' t' s'') : Prompt s (t ++ t') s'' := by
  induction h with
  | nil => exact h'
  | cons hw hs _ ih => exact .cons hw hs (ih h')

theorem TRun.split {s' : TSt} {t' : List (Nat × TEv)} : ∀ {t : List (Nat × TEv)} {s : TSt}, TRun s (t ++ t') s' → ∃ m, TRun s t m ∧ TRun m t' s'
  | [], s, h => ⟨s, .nil, h⟩
  | _ :: _, s, h => by
    cases h with
    | cons hs hr =>
      obtain ⟨m, h1, h2⟩ := TRun.split hr
      exact ⟨m, .cons hs h1, h2⟩

theorem Prompt.split {s' : TSt} {t' : List (Nat × TEv)} : ∀ {t : List (Nat × TEv)} {s : TSt}, Prompt s (t ++ t') s' → ∃ m, Prompt s t m ∧ Prompt m t' s'
  | [], s, h => ⟨s, .nil, h⟩
  | _ :: _, s, h => by
    cases h with
    | cons hw hs hr =>
      obtain ⟨m, h1, h2⟩ := Prompt.split hr
      exact ⟨m, .cons hw hs h1, h2⟩

/-- Without the clock it is a history of `ChargePoint`. -/
theorem TRun.untimed {s s' : TSt} {tr : List (Nat × TEv)} (h : TRun s tr s') : Run s.st (untimed tr) s'.st := by
  induction h with
  | nil => exact .nil
  | @cons s t e s' tr s'' hs hr ih =>
    have one : Run s.st (ChargePoint.untimed [(t, e)]) s'.st := by
      cases hs with
      | start => exact .nil
      | dialFail h1 h2 h3 => exact .snoc .nil h3
      | dialOk h1 h2 h3 => exact .snoc .nil h3
      | other h1 h2 h3 => exact .snoc .nil h3
    have := Run.append one ih
    have ap : ChargePoint.untimed ((t, e) :: tr) = ChargePoint.untimed [(t, e)] ++ ChargePoint.untimed tr := by
      rw [ChargePoint.untimed, ChargePoint.untimed, ChargePoint.untimed, ← List.filterMap_append]; rfl
    rw [ap]; exact this

theorem TStep.now {s s' : TSt} {t : Nat} {e : TEv} (h : TStep s t e s') : s'.now = t ∧ s.now ≤ t := by
  cases h <;> exact ⟨rfl, ‹_›⟩

theorem step_conns {s s' : St} {e : Ev} (h : Step s e s') (hc : s.conns ≠ []) : s'.conns ≠ [] := by
  cases h <;> first | exact hc | (intro h; apply hc; simpa using h)

theorem tstep_conns {s s' : TSt} {t : Nat} {e : TEv} (hs : TStep s t e s') (hc : s.st.conns ≠ []) : s'.st.conns ≠ [] := by
  cases hs with
  | start => exact hc
  | dialFail h1 h2 h3 => exact step_conns h3 hc
  | dialOk h1 h2 h3 => exact step_conns h3 hc
  | other h1 h2 h3 => exact step_conns h3 hc

theorem TRun.conns {s s' : TSt} {tr : List (Nat × TEv)} (h : TRun s tr s') (hc : s.st.conns ≠ []) : s'.st.conns ≠ [] := by
  induction h with
  | nil => exact hc
  | cons hs _ ih => exact ih (tstep_conns hs hc)

theorem TRun.made {s s' : TSt} {tr : List (Nat × TEv)} (h : TRun s tr s') (hm : Made tr) : s'.st.conns ≠ [] := by
  obtain ⟨t, n, hm⟩ := hm
  induction h with
  | nil => cases hm
  | @cons s t' e s' tr s'' hs hr ih =>
    rcases List.mem_cons.1 hm with h | h
    · cases h
      refine hr.conns ?_
      cases hs with
      | dialOk h1 h2 h3 => cases h3; simp
      | other h1 h2 h3 => simp [Ev.endsDial] at h2
    · exact ih h

/-- What holds of the clock: a pause is over when the dial after it has begun, and a dial is under way only while dialling. -/
structure Clock (s : TSt) : Prop where
  over : s.inDial = true ∨ s.st.phase ≠ .dialing → s.notBefore ≤ s.now
  dial : s.inDial = true → s.st.phase = .dialing

theorem step_phase {s s' : St} {e : Ev} (h : Step s e s') (he : e.endsDial = false) :
    (s.phase = .dialing ∧ s'.phase = .dialing) ∨ (s.phase ≠ .dialing ∧ (s'.phase = .dialing → e = .renew ∧ s.phase = .lost)) := by
  cases h <;> simp_all [Ev.endsDial]
  all_goals by_cases hp : s.phase = .dialing <;> simp [hp]

theorem clock_step {s s' : TSt} {t : Nat} {e : TEv} (h : TStep s t e s') (hc : Clock s) : Clock s' := by
  obtain ⟨h1, h2⟩ := hc
  cases h with
  | start a b c d => exact ⟨fun _ => d, fun _ => b⟩
  | dialFail a b c =>
    cases c with
    | dialFail hp => exact ⟨fun h => by rcases h with h | h; cases h; exact absurd hp h, fun h => by cases h⟩
  | dialOk a b c =>
    cases c with
    | dialOk hp => exact ⟨fun _ => Nat.le_trans (h1 (.inl b)) a, fun h => by cases h⟩
  | other a b c =>
    refine ⟨fun h => ?_, fun h => ?_⟩
    · refine Nat.le_trans (h1 ?_) a
      rcases h with h | h
      · exact .inl h
      · rcases step_phase c b with ⟨_, k⟩ | ⟨k, _⟩
        · exact absurd k h
        · exact .inr k
    · have := h2 h
      rcases step_phase c b with ⟨_, k⟩ | ⟨k, _⟩
      · exact k
      · exact absurd this k

theorem TRun.clock {s s' : TSt} {tr : List (Nat × TEv)} (h : TRun s tr s') (hc : Clock s) : Clock s' := by
  induction h with
  | nil => exact hc
  | cons hs _ ih => exact ih (clock_step hs hc)

theorem clock_init (t : Nat) : Clock (tinit t) := ⟨fun _ => Nat.le_refl _, fun h => by cases h⟩

theorem TRun.times {s s' : TSt} {tr : List (Nat × TEv)} (h : TRun s tr s') : ∀ x ∈ tr, s.now ≤ x.1 := by
  induction h with
  | nil => simp
  | cons hs _ ih =>
    intro x hx
    rcases List.mem_cons.1 hx with rfl | hx
    · exact hs.now.2
    · have := ih x hx
      rw [hs.now.1] at this
      exact Nat.le_trans hs.now.2 this

/-- The pause does not end early. -/
theorem TRun.paused {s s' : TSt} {tr : List (Nat × TEv)} (h : TRun s tr s') (hp : s.st.phase = .dialing) (hd : s.inDial = false) :
    ∀ x ∈ tr, x.2 = .start → s.notBefore ≤ x.1 := by
  induction h with
  | nil => simp
  | cons hs hr ih =>
    intro x hx he
    cases hs with
    | start a b c d =>
      rcases List.mem_cons.1 hx with rfl | hx
      · exact d
      · have := hr.times x hx
        exact Nat.le_trans d this
    | dialFail a b c => rw [hd] at b; cases b
    | dialOk a b c => rw [hd] at b; cases b
    | other a b c =>
      rcases List.mem_cons.1 hx with rfl | hx
      · cases he
      · refine ih ?_ hd x hx he
        rcases step_phase c b with ⟨_, k⟩ | ⟨k, _⟩
        · exact k
        · exact absurd hp k

/-- **C94** Between a dial that failed and the beginning of the next one there are at least 5 s (once `New` has succeeded). -/
theorem C94_pause {t₀ f t : Nat} {s : TSt} {pre mid post : List (Nat × TEv)}
    (h : TRun (tinit t₀) (pre ++ (f, .ev .dialFail) :: (mid ++ (t, .start) :: post)) s) (hm : Made pre) : f + 5000 ≤ t := by
  obtain ⟨m, h1, h2⟩ := TRun.split h
  have hc := h1.made hm
  cases h2 with
  | cons hs hr =>
    cases hs with
    | dialFail a b c =>
      cases c with
      | dialFail hp =>
        have := hr.paused hp rfl (t, .start) (by simp) rfl
        simpa [hc, pause] using this
    | other a b c => simp [Ev.endsDial] at b

/-- A dial may begin without a further loss. -/
def TSt.due (s : TSt) : Nat := if (s.st.phase = .dialing ∧ s.inDial = false) ∨ s.st.phase = .lost then 1 else 0

theorem TRun.rate {s s' : TSt} {tr : List (Nat × TEv)} (h : TRun s tr s') (hc : Clock s) (hn : s.st.conns ≠ []) {a b : Nat} (hb : ∀ x ∈ tr, a ≤ x.1 ∧ x.1 ≤ b) :
    starts tr = 0 ∨ 5000 * starts tr + max (max a s.now) s.notBefore ≤ b + 5000 * losses tr + 5000 * s.due := by
  induction h with
  | nil => exact .inl rfl
  | @cons s t e s' tr s'' hs hr ih =>
    have ih := ih (clock_step hs hc) (tstep_conns hs hn) (fun x hx => hb x (List.mem_cons_of_mem _ hx))
    have ht : a ≤ t ∧ t ≤ b := hb (t, e) (by simp)
    cases hs with
    | start h1 h2 h3 h4 =>
      have e1 : starts ((t, TEv.start) :: tr) = starts tr + 1 := by simp [starts]
      have e2 : losses ((t, TEv.start) :: tr) = losses tr := by simp [losses]
      have e3 : s.due = 1 := by simp [TSt.due, h2, h3]
      have e4 : ({ s with inDial := true, now := t } : TSt).due = 0 := by simp [TSt.due, h2]
      rw [e1, e2, e3]
      simp only [e4] at ih
      right; omega
    | dialFail h1 h2 h3 =>
      have e1 : starts ((t, TEv.ev .dialFail) :: tr) = starts tr := by simp [starts]
      have e2 : losses ((t, TEv.ev .dialFail) :: tr) = losses tr := by simp [losses]
      rw [e1, e2]
      cases h3 with
      | dialFail hp =>
        have e3 : s.due = 0 := by simp [TSt.due, hp, h2]
        have e4 := hc.over (.inl h2)
        simp only [TSt.due, hp, hn, if_false, pause] at ih
        rw [e3]
        simp at ih
        omega
    | @dialOk n _ h1 h2 h3 =>
      have e1 : starts ((t, TEv.ev (.dialOk n)) :: tr) = starts tr := by simp [starts]
      have e2 : losses ((t, TEv.ev (.dialOk n)) :: tr) = losses tr := by simp [losses]
      rw [e1, e2]
      have e4 := hc.over (.inl h2)
      cases h3 with
      | dialOk hp =>
        have e3 : s.due = 0 := by simp [TSt.due, hp, h2]
        rw [e3]
        simp [TSt.due] at ih
        omega
    | @other e st' h1 h2 h3 =>
      have e1 : starts ((t, TEv.ev e) :: tr) = starts tr := by simp [starts]
      rw [e1]
      have e2 : losses ((t, TEv.ev e) :: tr) + s.due ≥ losses tr + ({ s with st := st', now := t } : TSt).due := by
        have hl : losses ((t, TEv.ev e) :: tr) = losses tr + if e = .seeClosed then 1 else 0 := by
          simp only [losses, List.countP_cons]; congr 1; simp
        rw [hl]
        cases h3 <;> simp_all [TSt.due, Ev.endsDial]
        all_goals (repeat' split) <;> simp_all
      simp only at ih
      omega

/-- **C94** How many dials a charge point begins (once `New` has succeeded) between the times `a` and `b`: one, one more for every full 5 s, and one
more for each connection that it lost in that time. -/
theorem C94_rate {t₀ a b : Nat} {s : TSt} {pre mid post : List (Nat × TEv)} (h : TRun (tinit t₀) (pre ++ mid ++ post) s) (hm : Made pre)
    (hab : ∀ x ∈ mid, a ≤ x.1 ∧ x.1 ≤ b) : starts mid ≤ (b - a) / 5000 + 1 + losses mid := by
  obtain ⟨m, h1, _⟩ := TRun.split h
  obtain ⟨k, h1, h2⟩ := TRun.split h1
  have hr := h2.rate (h1.clock (clock_init t₀)) (h1.made hm) hab
  have hd : k.due ≤ 1 := by rw [TSt.due]; split <;> omega
  rcases hr with hr | hr
  · omega
  · have : starts mid ≤ (b - a + 5000 * (1 + losses mid)) / 5000 := by
      rw [Nat.le_div_iff_mul_le (by decide)]; omega
    rw [Nat.add_mul_div_left _ _ (by decide)] at this
    omega

theorem Prompt.retry {s s' : TSt} {tr : List (Nat × TEv)} (h : Prompt s tr s') (hp : s.st.phase = .dialing) (hd : s.inDial = false)
    (hn : s.now ≤ s.notBefore) (hl : ∃ x ∈ tr, s.notBefore < x.1) : (s.notBefore, .start) ∈ tr := by
  induction h with
  | nil => obtain ⟨x, hx, _⟩ := hl; cases hx
  | @cons s t e s' tr s'' hw hs hr ih =>
    have ht : t ≤ s.notBefore := by
      rcases hw with hw | hw
      · omega
      · rcases hw with hw | hw | hw | hw | hw
        · rw [hd] at hw; cases hw
        · exact hw.2
        · rw [hp] at hw; cases hw
        · rw [hp] at hw; cases hw
        · rw [hp] at hw; cases hw.1
    have hl' : ∃ x ∈ tr, s.notBefore < x.1 := by
      obtain ⟨x, hx, hlt⟩ := hl
      rcases List.mem_cons.1 hx with rfl | hx
      · simp at hlt; omega
      · exact ⟨x, hx, hlt⟩
    cases hs with
    | start a b c d =>
      have : t = s.notBefore := by omega
      rw [this]; simp
    | dialFail a b c => rw [hd] at b; cases b
    | dialOk a b c => rw [hd] at b; cases b
    | other a b c =>
      refine List.mem_cons_of_mem _ (ih ?_ hd ht hl')
      rcases step_phase c b with ⟨_, k⟩ | ⟨k, _⟩
      · exact k
      · exact absurd hp k

/-- **C94** On a machine that is fast compared with the clock: 5 s after a dial that failed (once `New` has succeeded) the next one begins. -/
theorem C94_retry {t₀ f : Nat} {s : TSt} {pre post : List (Nat × TEv)} (h : Prompt (tinit t₀) (pre ++ (f, .ev .dialFail) :: post) s) (hm : Made pre)
    (hl : ∃ x ∈ post, f + 5000 < x.1) : (f + 5000, .start) ∈ post := by
  obtain ⟨m, h1, h2⟩ := Prompt.split h
  have hc := h1.trun.made hm
  cases h2 with
  | cons _ hs hr =>
    cases hs with
    | dialFail a b c =>
      cases c with
      | dialFail hp =>
        have := hr.retry hp rfl (by simp [hc]) (by simpa [hc, pause] using hl)
        simpa [hc, pause] using this
    | other a b c => simp [Ev.endsDial] at b

/-- The loop has noticed or is about to notice that its connection is closed, at time `d`. -/
def TSt.Losing (s : TSt) (d n : Nat) : Prop :=
  s.now = d ∧ s.notBefore ≤ d ∧ s.inDial = false ∧
  ((s.st.phase = .select ∧ s.st.conn = some n ∧ s.st.connClosed n = true) ∨ s.st.phase = .lost ∨ s.st.phase = .dialing)

theorem Prompt.losing {s s' : TSt} {tr : List (Nat × TEv)} {d n : Nat} (h : Prompt s tr s') (hs : s.Losing d n) (hno : ∀ e, (d, TEv.ev e) ∈ tr → e ≠ .stop ∧ ∀ n, e ≠ .handle n)
    (hl : ∃ x ∈ tr, d < x.1) : (d, .start) ∈ tr := by
  induction h with
  | nil => obtain ⟨x, hx, _⟩ := hl; cases hx
  | @cons s t e s' tr s'' hw hst hr ih =>
    obtain ⟨k1, k2, k3, k4⟩ := hs
    have ht : t = d := by
      rcases hw with hw | hw
      · omega
      · have := hst.now.2
        rcases hw with hw | hw | hw | hw | hw
        · rw [k3] at hw; cases hw
        · omega
        · rcases k4 with ⟨k, _⟩ | k | k <;> rw [k] at hw <;> cases hw
        · rcases k4 with ⟨k, _⟩ | k | k <;> rw [k] at hw <;> cases hw
        · rcases k4 with ⟨_, j, k⟩ | k | k
          · rw [hw.2.2 n j] at k; cases k
          · rw [k] at hw; cases hw.1
          · rw [k] at hw; cases hw.1
    subst ht
    have hl' : ∃ x ∈ tr, t < x.1 := by
      obtain ⟨x, hx, hlt⟩ := hl
      rcases List.mem_cons.1 hx with rfl | hx
      · simp at hlt
      · exact ⟨x, hx, hlt⟩
    have hno' : ∀ e, (t, TEv.ev e) ∈ tr → e ≠ .stop ∧ ∀ n, e ≠ .handle n := fun e he => hno e (List.mem_cons_of_mem _ he)
    cases hst with
    | start a b c d => simp
    | dialFail a b c => rw [k3] at b; cases b
    | dialOk a b c => rw [k3] at b; cases b
    | @other e st' a b c =>
      have hne := hno e (by simp)
      refine List.mem_cons_of_mem _ (ih ⟨rfl, k2, k3, ?_⟩ hno' hl')
      cases c <;> simp_all [Ev.endsDial]
      · rename_i m hm
        rcases k4 with ⟨k, j, l⟩ | k | k
        · refine .inl ⟨k, j, ?_⟩
          simp only [St.connClosed, List.getElem?_set] at l ⊢
          split
          · rename_i e; subst e; simp [hm]
          · exact l
        · exact .inr (.inl k)
        · exact .inr (.inr k)
      · exact k4

/-- **C94** On a machine that is fast compared with the clock: a charge point that waits for messages on connection `n`, which is closed at time
`d` by whatever cause, begins to dial again at that time, without a pause (unless it takes another request of that connection, or stops, at that time). -/
theorem C94_atOnce {t₀ d n : Nat} {s s₁ : TSt} {pre post : List (Nat × TEv)} (h₁ : Prompt (tinit t₀) pre s₁) (hp : s₁.st.phase = .select)
    (hn : s₁.st.conn = some n) (h : Prompt s₁ ((d, .ev (.drop n)) :: post) s) (hno : ∀ e, (d, TEv.ev e) ∈ post → e ≠ .stop ∧ ∀ m, e ≠ .handle m)
    (hl : ∃ x ∈ post, d < x.1) : (d, .start) ∈ post := by
  have hc := h₁.trun.clock (clock_init t₀)
  cases h with
  | cons hw hs hr =>
    cases hs with
    | other a b c =>
      cases c with
      | drop hlt =>
        refine hr.losing ⟨rfl, ?_, ?_, .inl ⟨hp, hn, ?_⟩⟩ hno hl
        · exact Nat.le_trans (hc.over (.inr (by rw [hp]; decide))) a
        · cases hi : s₁.inDial with
          | false => rfl
          | true => rw [hc.dial hi] at hp; cases hp
        · simp [St.connClosed, List.getElem?_set, hlt]

/-- One more connection: made and lost at time `t`. -/
def oneMore (t n : Nat) : List (Nat × TEv) :=
  [(t, .ev (.drop n)), (t, .ev .seeClosed), (t, .ev .renew), (t, .start), (t, .ev (.dialOk (n + 1))), (t, .ev .setConn), (t, .ev .setService), (t, .ev .announce)]

/-- The charge point serves its connection `n`, the last one made, at time `t`. -/
structure TSt.Serves (s : TSt) (t n : Nat) : Prop where
  phase : s.st.phase = .select
  conn : s.st.conn = some n
  conns : s.st.conns.length = n + 1
  now : s.now = t
  over : s.notBefore ≤ t
  dial : s.inDial = false

theorem oneMore_run {s : TSt} {t n : Nat} (h : s.Serves t n) : ∃ s', Prompt s (oneMore t n) s' ∧ s'.Serves t (n + 1) := by
  obtain ⟨h1, h2, h3, h4, h5, h6⟩ := h
  have hn : n < s.st.conns.length := by omega
  have hd : Step ({ s.st with conns := s.st.conns.set n true, chans := s.st.chans ++ [false], chan := s.st.chans.length, phase := .dialing }) (.dialOk (n + 1))
      ({ s.st with conns := s.st.conns.set n true ++ [false], chans := s.st.chans ++ [false], chan := s.st.chans.length, phase := .dialled (n + 1) }) := by
    have := Step.dialOk (s := { s.st with conns := s.st.conns.set n true, chans := s.st.chans ++ [false], chan := s.st.chans.length, phase := .dialing }) rfl
    simpa [h3] using this
  refine ⟨_, .cons (.inl h4.symm) (.other (by omega) rfl (.drop hn)) (.cons (.inl rfl) (.other (Nat.le_refl _) rfl (.seeClosed (n := n) h1 h2 ?_))
    (.cons (.inl rfl) (.other (Nat.le_refl _) rfl (.renew rfl)) (.cons (.inl rfl) (.start (Nat.le_refl _) rfl h6 h5)
    (.cons (.inl rfl) (.dialOk (Nat.le_refl _) rfl hd) (.cons (.inl rfl) (.other (Nat.le_refl _) rfl (.setConn rfl))
    (.cons (.inl rfl) (.other (Nat.le_refl _) rfl (.setService rfl)) (.cons (.inl rfl) (.other (Nat.le_refl _) rfl (.announce rfl)) .nil))))))), ?_⟩
  · simp [St.connClosed, List.getElem?_set, hn]
  · constructor <;> simp [h3, h5]

/-- **C94** But lost connections count: a peer that accepts every connection and drops it at once makes the charge point dial without any limit,
in no time. -/
theorem C94_storm (t k : Nat) : ∃ tr s, Prompt (tinit t) tr s ∧ (∀ x ∈ tr, x.1 = t) ∧ starts tr = k + 1 := by
  suffices ∃ tr s, Prompt (tinit t) tr s ∧ (∀ x ∈ tr, x.1 = t) ∧ starts tr = k + 1 ∧ s.Serves t k by
    obtain ⟨tr, s, h1, h2, h3, _⟩ := this; exact ⟨tr, s, h1, h2, h3⟩
  induction k with
  | zero =>
    refine ⟨_, _, .cons (.inl rfl) (.start (Nat.le_refl _) rfl rfl (Nat.le_refl _)) (.cons (.inl rfl) (.dialOk (Nat.le_refl _) rfl (.dialOk rfl))
      (.cons (.inl rfl) (.other (Nat.le_refl _) rfl (.setConn rfl)) (.cons (.inl rfl) (.other (Nat.le_refl _) rfl (.setService rfl))
      (.cons (.inl rfl) (.other (Nat.le_refl _) rfl (.announce rfl)) .nil)))), ?_, ?_, ?_⟩
    · simp [tinit]
    · simp [starts]
    · constructor <;> simp [tinit, init]
  | succ k ih =>
    obtain ⟨tr, s, h1, h2, h3, h4⟩ := ih
    obtain ⟨s', h5, h6⟩ := oneMore_run h4
    refine ⟨tr ++ oneMore t k, s', ?_, ?_, ?_, h6⟩
    · exact h1.append h5
    · intro x hx
      rcases List.mem_append.1 hx with hx | hx
      · exact h2 x hx
      · simp [oneMore] at hx; rcases hx with rfl | rfl | rfl | rfl | rfl | rfl | rfl | rfl <;> rfl
    · simp only [starts, List.countP_append] at h3 ⊢
      rw [h3]; simp [oneMore]

/-- **C94** The number of `C94_rate` is reached, and C94_retry and C94_atOnce are not about nothing: after a connection is made and lost at time `t`, with a
peer that refuses every dial at once, dials begin at `t`, `t` + 5 s and so on. -/
theorem C94_possible (t k : Nat) : ∃ pre mid s, Prompt (tinit t) (pre ++ mid) s ∧ Made pre ∧ (t, TEv.ev (.drop 0)) ∈ pre ∧
    (∀ x ∈ mid, t ≤ x.1 ∧ x.1 ≤ t + 5000 * k) ∧ losses mid = 0 ∧ starts mid = k + 1 ∧ (t + 5000 * k, .start) ∈ mid ∧ (t + 5000 * k, .ev .dialFail) ∈ mid := by
  obtain ⟨pre, s₀, h0, hm, hd, hp, hi, hn, hb, hc⟩ : ∃ pre s, Prompt (tinit t) pre s ∧ Made pre ∧ (t, TEv.ev (.drop 0)) ∈ pre ∧
      s.st.phase = .dialing ∧ s.inDial = false ∧ s.now = t ∧ s.notBefore = t ∧ s.st.conns ≠ [] := by
    refine ⟨_, _, .cons (.inl rfl) (.start (Nat.le_refl _) rfl rfl (Nat.le_refl _)) (.cons (.inl rfl) (.dialOk (Nat.le_refl _) rfl (.dialOk rfl))
      (.cons (.inl rfl) (.other (Nat.le_refl _) rfl (.setConn rfl)) (.cons (.inl rfl) (.other (Nat.le_refl _) rfl (.setService rfl))
      (.cons (.inl rfl) (.other (Nat.le_refl _) rfl (.announce rfl)) (.cons (.inl rfl) (.other (Nat.le_refl _) rfl (.drop (n := 0) (by simp [tinit, init])))
      (.cons (.inl rfl) (.other (Nat.le_refl _) rfl (.seeClosed (n := 0) rfl rfl (by simp [St.connClosed, tinit, init])))
      (.cons (.inl rfl) (.other (Nat.le_refl _) rfl (.renew rfl)) .nil))))))), ⟨t, 0, by simp [tinit, init]⟩, by simp [tinit], rfl, rfl, rfl, rfl, ?_⟩
    simp [tinit, init]
  suffices ∃ mid s, Prompt s₀ mid s ∧ (∀ x ∈ mid, t ≤ x.1 ∧ x.1 ≤ t + 5000 * k) ∧ losses mid = 0 ∧ starts mid = k + 1 ∧
      (t + 5000 * k, .start) ∈ mid ∧ (t + 5000 * k, .ev .dialFail) ∈ mid ∧
      s.st.phase = .dialing ∧ s.inDial = false ∧ s.now = t + 5000 * k ∧ s.notBefore = t + 5000 * k + 5000 ∧ s.st.conns ≠ [] by
    obtain ⟨mid, s, h1, h2, h3, h4, h5, h6, _⟩ := this
    exact ⟨pre, mid, s, h0.append h1, hm, hd, h2, h3, h4, h5, h6⟩
  induction k with
  | zero =>
    refine ⟨_, _, .cons (.inl hn.symm) (.start (by omega) hp hi (by omega)) (.cons (.inl rfl) (.dialFail (Nat.le_refl _) rfl (.dialFail hp)) .nil),
      ?_, ?_, ?_, ?_, ?_, hp, rfl, ?_, ?_, hc⟩
    · simp
    · simp [losses]
    · simp [starts]
    · simp
    · simp
    · simp
    · simp [hc, pause]
  | succ k ih =>
    obtain ⟨mid, s, h1, h2, h3, h4, _, _, h5, h6, h7, h8, h9⟩ := ih
    have hk : t + 5000 * (k + 1) = t + 5000 * k + 5000 := by omega
    have hr : Prompt s [(t + 5000 * (k + 1), .start), (t + 5000 * (k + 1), .ev .dialFail)] _ :=
      .cons (.inr (.inr (.inl ⟨h5, by omega⟩))) (.start (by omega) h5 h6 (by omega)) (.cons (.inl rfl) (.dialFail (Nat.le_refl _) rfl (.dialFail h5)) .nil)
    refine ⟨_, _, h1.append hr, ?_, ?_, ?_, ?_, ?_, h5, rfl, rfl, ?_, h9⟩
    · intro x hx
      rcases List.mem_append.1 hx with hx | hx
      · have := h2 x hx; omega
      · simp at hx; rcases hx with rfl | rfl <;> simp
    · simp only [losses, List.countP_append] at h3 ⊢; rw [h3]; simp
    · simp only [starts, List.countP_append] at h4 ⊢; rw [h4]; simp
    · simp
    · simp
    · simp [h9, pause]

end Verif.ChargePoint
