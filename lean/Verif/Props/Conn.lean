import Verif.Lemmas.Conn5
/-!
# Properties of a connection (C21 - C30, C32)

`Exec side tr s`: `tr` is the event sequence of some schedule of a connection served by the loop of
`side`, from creation, and `s` the state reached.  All statements hold for every meaning `S` of the
texts; `Verif.Props.ConnOcpp` instantiates them.
-/
namespace Verif.Conn
variable {S : Sem} {side : Side}

/-- **C21** Responses are never crossed.  If a `Send` (number `i`) returned an answer `a` (a
response, an error code or a call error), then the answer was made from a text `f` that carries this
very `Send`'s message id, interpreted for this very request's action (`AnswerTo`); `f` was read by
some reading goroutine `k` and looked up after the `Send` had registered its call and before it
returned.  Each reading goroutine reads at most one text and serves at most one `Send`, each `Send`
is served by at most one, and each `Send` returns at most once. -/
theorem C21_responses_never_crossed {tr : List (Ev S)} {s : St S} (h : Exec side tr s) :
    (∀ i a, Ev.finish i a ∈ tr →
      ∃ k f id r, AnswerTo id (S.action r) f a ∧
        [Ev.read k f, .dispatch k, .deliver k i, .finish i a].Sublist tr ∧
        [Ev.send i id r, .regSent i, .dispatch k, .deliver k i, .finish i a].Sublist tr) ∧
    (∀ k i i', Ev.deliver k i ∈ tr → Ev.deliver k i' ∈ tr → i = i') ∧
    (∀ k k' i, Ev.deliver k i ∈ tr → Ev.deliver k' i ∈ tr → k = k') ∧
    (∀ k, tr.countP (Ev.isRead k) ≤ 1) ∧
    (∀ i, tr.countP (Ev.returns i) ≤ 1) := by
  have hd := Exec.deliver_once h
  exact ⟨(Exec.pinv h).finish, hd.1, hd.2.1, fun k => (Exec.reads_once h k).1,
    fun i => (Exec.returns_once h i).1⟩

/-- Message ids of different `Send`s differ, so "this very id" identifies the `Send`. -/
theorem C21_ids_distinct {tr : List (Ev S)} {s : St S} (h : Exec side tr s) {i j : Nat} {id : String}
    {r r' : S.Req} (hi : Ev.send i id r ∈ tr) (hj : Ev.send j id r' ∈ tr) (hc : s.crashed = false) :
    i = j := by
  rcases Exec.sender_of_send h i id r hi with ⟨x, hx, h1, _⟩ | ⟨h1, _⟩
  · rcases Exec.sender_of_send h j id r' hj with ⟨y, hy, h2, _⟩ | ⟨h2, _⟩
    · exact (Exec.minv h).ids _ _ _ _ hx hy (h1.trans h2.symm)
    · rw [hc] at h2; simp at h2
  · rw [hc] at h1; simp at h1

/-- **C22** At most one goroutine is reading or working on a frame. -/
theorem C22_one_reader {tr : List (Ev S)} {s : St S} (h : Exec side tr s) {j k : Nat}
    {p q : Reader S} (hj : s.readers[j]? = some p) (hk : s.readers[k]? = some q)
    (hp : p.active = true) (hq : q.active = true) : j = k := by
  have hi := Exec.inv h
  have h1 := (hi.act j p hj hp).1
  have h2 := (hi.act k q hk hq).1
  omega

/-- **C23** The requests taken over by the loop are exactly the valid requests among the texts read,
in the order read, each once; at most the last one may still be on its way. -/
theorem C23_requests_in_order {tr : List (Ev S)} {s : St S} (h : Exec side tr s) :
    ∃ pending, (framesRead tr).filterMap requestIn = taken tr ++ pending ∧ pending.length ≤ 1 :=
  ⟨_, Exec.requests h, inHand_length (Exec.inv h)⟩

/-- **C24** The handler is called exactly once for each request taken, with the argument `handlerArg` says, one call at a time; the
replies attempted are one per handler return, in order, each with the id of the handler call and the
handler's response and error; at most one call and one reply are in progress, and a call that panics is the last
one.  A reply that is written is the encoding of exactly those. -/
theorem C24_one_reply_per_request {tr : List (Ev S)} {s : St S} (h : Exec side tr s) :
    handlerCalls tr = (taken tr).filterMap (handlerArg side) ∧
    (∃ running : List (String × Option S.Req),
      (handlerPanics tr).length + running.length ≤ 1 ∧
      (handlerCalls tr).map (·.1) = (handlerRets tr).map (·.1) ++ handlerPanics tr ++ running.map (·.1)) ∧
    (∃ replying, replying.length ≤ 1 ∧ handlerRets tr = answers tr ++ replying) ∧
    (∀ id resp err f, Ev.answer id resp err (some f) ∈ tr → S.encReply id resp err = .ok f) := by
  obtain ⟨⟨c, p, h1, h2, h4, h5⟩, h3⟩ := Exec.handler h
  refine ⟨Exec.handlerCalls_eq h, ⟨s.loop.running, ?_, ?_⟩, ⟨s.loop.replying, ?_, h3⟩, ?_⟩
  · rw [← h4]
    rcases h5 with rfl | ⟨h5, h6⟩
    · cases s.loop <;> simp
    · rw [h6]; simp [h5]
  · rw [h1, ← h2, ← h4]; simp
  · cases s.loop <;> simp
  · clear h1 h2 h3 h4 h5
    induction h with
    | nil => simp
    | @snoc tr e s s' hr hs ih =>
      intro id resp err f hm
      rw [List.mem_append, List.mem_singleton] at hm
      rcases hm with hm | rfl
      · exact ih id resp err f hm
      · cases hs; assumption

/-- A call is pending: registered and not yet cleaned up after an answer. -/
def Pending (tr : List (Ev S)) (id : String) : Prop :=
  ∃ i r, Ev.send i id r ∈ tr ∧ Ev.regSent i ∈ tr ∧ ∀ a, Ev.finish i a ∉ tr

/-- **C29** The connection remembers a call exactly from its registration until its `Send` has
consumed an answer.  (So calls that timed out or could not be written are remembered for ever: see
`C29_leak`.) -/
theorem C29_pending_entries {tr : List (Ev S)} {s : St S} (h : Exec side tr s) (id : String) :
    (s.sent id ≠ none ↔ Pending tr id) ∧
    (s.chan id ≠ none ↔ ∃ i r, Ev.send i id r ∈ tr ∧ Ev.regChan i ∈ tr ∧ ∀ a, Ev.finish i a ∉ tr) := by
  have hm := Exec.minv h
  have key : ∀ i x, s.senders[i]? = some x → Ev.send i x.id x.req ∈ tr := fun i x hx => by
    simpa using (Exec.sends h i x hx).1
  have back : ∀ i r, Ev.send i id r ∈ tr → s.ph Phase.registeredSent i = true →
      ∃ x, s.senders[i]? = some x ∧ x.id = id := by
    intro i r h1 h2
    rcases Exec.sender_of_send h i id r h1 with ⟨x, hx, h3, _⟩ | ⟨_, h3⟩
    · exact ⟨x, hx, h3⟩
    · subst h3; simp [St.ph] at h2
  constructor
  · constructor
    · intro hne
      obtain ⟨a, ha⟩ := Option.ne_none_iff_exists'.1 hne
      obtain ⟨i, x, hx, rfl, _, hp⟩ := (hm.sent id a).1 ha
      refine ⟨i, x.req, key i x hx, (Exec.regSent_iff h i).2 ?_, ?_⟩
      · simp only [St.ph, hx]
        unfold Phase.inSent at hp; unfold Phase.registeredSent; split <;> simp_all
      · intro b hb
        have := (Exec.finish_iff h i).1 ⟨b, hb⟩
        simp only [St.ph, hx] at this
        unfold Phase.inSent at hp; unfold Phase.cleaned at this; split at this <;> simp_all
    · rintro ⟨i, r, h1, h2, h3⟩
      have hreg := (Exec.regSent_iff h i).1 h2
      obtain ⟨x, hx, hid⟩ := back i r h1 hreg
      have hcl : ¬ s.ph Phase.cleaned i = true := by
        intro hc; obtain ⟨a, ha⟩ := (Exec.finish_iff h i).2 hc; exact h3 a ha
      have : s.sent id = some (S.action x.req) := (hm.sent id _).2 ⟨i, x, hx, hid, rfl, by
        simp only [St.ph, hx] at hreg hcl
        revert hreg hcl
        cases x.phase with
        | done o => cases o <;> simp [Phase.inSent, Phase.registeredSent, Phase.cleaned]
        | _ => simp [Phase.inSent, Phase.registeredSent, Phase.cleaned]⟩
      simp [this]
  · constructor
    · intro hne
      obtain ⟨i, ha⟩ := Option.ne_none_iff_exists'.1 hne
      obtain ⟨x, hx, rfl, hp⟩ := (hm.chan id i).1 ha
      refine ⟨i, x.req, key i x hx, (Exec.regChan_iff h i).2 ?_, ?_⟩
      · simp only [St.ph, hx]
        unfold Phase.inChan at hp; unfold Phase.registeredChan; split <;> simp_all
      · intro b hb
        have := (Exec.finish_iff h i).1 ⟨b, hb⟩
        simp only [St.ph, hx] at this
        unfold Phase.inChan at hp; unfold Phase.cleaned at this; split at this <;> simp_all
    · rintro ⟨i, r, h1, h2, h3⟩
      have hreg := (Exec.regChan_iff h i).1 h2
      obtain ⟨x, hx, hid⟩ := back i r h1 (by
        revert hreg; unfold St.ph; split
        · rename_i x _
          cases x.phase with
          | done o => cases o <;> simp [Phase.registeredSent, Phase.registeredChan]
          | _ => simp [Phase.registeredSent, Phase.registeredChan]
        · simp)
      have hcl : ¬ s.ph Phase.cleaned i = true := by
        intro hc; obtain ⟨a, ha⟩ := (Exec.finish_iff h i).2 hc; exact h3 a ha
      have : s.chan id = some i := (hm.chan id _).2 ⟨x, hx, hid, by
        simp only [St.ph, hx] at hreg hcl
        revert hreg hcl
        cases x.phase with
        | done o => cases o <;> simp [Phase.inChan, Phase.registeredChan, Phase.cleaned]
        | _ => simp [Phase.inChan, Phase.registeredChan, Phase.cleaned]⟩
      simp [this]

/-- **C29** A call that timed out keeps its entries in every continuation. -/
theorem C29_leak {tr : List (Ev S)} {s : St S} {i : Nat} {id : String} {r : S.Req}
    (h : Exec side tr s) (hs : Ev.send i id r ∈ tr) (ht : Ev.timeout i ∈ tr) :
    s.sent id ≠ none ∧ s.chan id ≠ none := by
  obtain ⟨x, hx, hp⟩ := Exec.timeout_done h i ht
  have hid : x.id = id := by
    rcases Exec.sender_of_send h i id r hs with ⟨y, hy, h3, _⟩ | ⟨_, h3⟩
    · rw [hx] at hy; cases hy; exact h3
    · subst h3; simp at hx
  have hm := Exec.minv h
  have h1 := (hm.sent id (S.action x.req)).2 ⟨i, x, hx, hid, rfl, by simp [hp, Phase.inSent]⟩
  have h2 := (hm.chan id i).2 ⟨x, hx, hid, by simp [hp, Phase.inChan]⟩
  simp [h1, h2]

/-- **C25** A CallResult or CallError for an id that is not pending changes nothing but the state of
the goroutine that read it, which reports an error; the loop takes the error and goes on reading. -/
theorem C25_unsolicited_ignored {tr : List (Ev S)} {s s' : St S} {k : Nat} {f : S.Frame}
    {m : Msg S.Pay} (h : Exec side tr s) (hk : s.readers[k]? = some (.got f))
    (hf : S.read f = .ok (some m)) (hm : ∀ id a p, m ≠ .call id a p) (hp : ¬ Pending tr m.id)
    (hs : Step side s (.dispatch k) s') :
    s' = s.setReader k (.offer .err) ∧
    (s.closed = false →
      ∃ s'', Run side s' [.result k .err, .spawn (k + 1)] s'' ∧ s''.readers[k + 1]? = some .reading ∧
        s''.sent = s.sent ∧ s''.chan = s.chan ∧ s''.senders = s.senders ∧ s''.closed = false) := by
  have hnone : s.sent m.id = none := by
    by_contra hc; exact hp ((C29_pending_entries h m.id).1.1 hc)
  have hafter : afterRead s f = some (.offer .err) := by
    unfold afterRead; rw [hf]
    cases m with
    | call id a p => exact absurd rfl (hm id a p)
    | result id p => simp only [Msg.id] at hnone; simp [hnone]
    | error id c d x => simp only [Msg.id] at hnone; simp [hnone]
  have hs' : s' = s.setReader k (.offer .err) := by
    cases hs with
    | dispatch hc hk' hp' =>
      rw [hk] at hk'; simp at hk'; subst hk'; rw [hafter] at hp'; simp at hp'; subst hp'; rfl
    | dispatchPanic hc hk' hp' =>
      rw [hk] at hk'; simp at hk'; subst hk'; rw [hafter] at hp'; simp at hp'
  have hcr : s.crashed = false := step_not_crashed hs
  subst hs'
  refine ⟨rfl, fun hcl => ?_⟩
  have hi := Exec.inv h
  obtain ⟨hlen, hloop⟩ := hi.act k _ hk rfl
  have hsel : s.loop = .sel k := by
    rcases hloop with h1 | h1
    · exact h1
    · rcases Exec.exited h h1 with h2 | h2
      · rw [hcl] at h2; simp at h2
      · rw [hcr] at h2; simp at h2
  have hlt : k < s.readers.length := by omega
  have st1 : Step side (s.setReader k (.offer .err)) (.result k .err) _ :=
    Step.result (k := k) (e := .err) hcr hsel (by simp [St.setReader, hlt])
  have hres : afterResult (S := S) side .err = .top := by cases side <;> rfl
  have st2 := Step.spawn (side := side) (S := S)
    (s := { (s.setReader k (.offer .err)).setReader k .gone with
            loop := afterResult side .err
            closed := s.closed || (decide (side = .cs ∧ ReadRes.err = .closeErr)) }) hcr hres
  have hl2 : ((s.setReader k (.offer .err)).setReader k .gone).readers.length = k + 1 := by
    simp [St.setReader]; omega
  simp only [hl2] at st2
  refine ⟨_, Run.snoc (Run.snoc .nil st1) st2, ?_, rfl, rfl, rfl, ?_⟩
  · rw [List.getElem?_append_right (by omega)]; simp [hl2]
  · simp [hcl]

/-- A handler call is in progress, according to the trace. -/
def HandlerRunning (tr : List (Ev S)) : Prop :=
  (handlerRets tr).length + (handlerPanics tr).length < (handlerCalls tr).length

theorem handlerRunning_iff {tr : List (Ev S)} {s : St S} (h : Exec side tr s) :
    HandlerRunning tr ↔ ∃ id r, s.loop = .handling id r := by
  obtain ⟨⟨c, p, h1, h2, h3, _⟩, _⟩ := Exec.handler h
  have hl := congrArg List.length h2
  have hl' := congrArg List.length h3
  simp only [List.length_map] at hl hl'
  unfold HandlerRunning
  rw [h1, ← hl, ← hl']
  cases s.loop <;> simp

/-- **C27** While a handler call is in progress nothing is read, interpreted or delivered on that
connection; hence a `Send` made on it during that time cannot return an answer before the handler
returns. -/
theorem C27_no_reads_while_handling {tr t2 : List (Ev S)} {s s' : St S} (h : Exec side tr s)
    (hh : HandlerRunning tr) (hr : Run side s t2 s')
    (hret : ∀ id x y, Ev.handlerRet id x y ∉ t2) :
    (∀ k f, Ev.read k f ∉ t2) ∧ (∀ k, Ev.dispatch k ∉ t2) ∧ (∀ k i, Ev.deliver k i ∉ t2) ∧
    (∀ i id r a, Ev.send i id r ∈ t2 → Ev.finish i a ∉ t2) := by
  obtain ⟨id, r, hl⟩ := (handlerRunning_iff h).1 hh
  have hH := (Run.handling (Exec.inv h) hl hr hret).2
  refine ⟨fun k f hm => (hH _ hm).1 k f rfl, fun k hm => (hH _ hm).2.1 k rfl,
    fun k i hm => (hH _ hm).2.2 k i rfl, ?_⟩
  intro i id' r' a hs hf
  -- the answer's delivery must be in `tr`, but then the sender existed already
  have hall : Exec side (tr ++ t2) s' := Run.append h hr
  obtain ⟨k, f, _, _, _, hsub, _⟩ := (Exec.pinv hall).finish i a (by simp [hf])
  have hdel : Ev.deliver k i ∈ tr ++ t2 := hsub.subset (by simp)
  have hdel' : Ev.deliver k i ∈ tr := by
    rcases List.mem_append.1 hdel with h | h
    · exact h
    · exact absurd rfl ((hH _ h).2.2 k i)
  obtain ⟨x, hx, _⟩ := (Exec.deliver_once h).2.2.2 k i hdel'
  -- `send i` in `t2` happens in a state with exactly `i` senders, contradiction with monotonicity
  obtain ⟨ta, tb, rfl⟩ := List.append_of_mem hs
  obtain ⟨sa, hra, hrb⟩ := Run.split hr
  obtain ⟨sb, hstep, _⟩ := Run.cons_inv hrb
  have hmono : ∃ y, sa.senders[i]? = some y := by
    clear hrb hstep hs hf hH hret hr hall
    clear * - hra hx
    induction hra with
    | nil => exact ⟨x, hx⟩
    | snoc _ hst ih =>
      obtain ⟨y, hy⟩ := ih
      obtain ⟨z, hz, _⟩ := senders_step hst hy
      exact ⟨z, hz⟩
  obtain ⟨y, hy⟩ := hmono
  have hlt := (List.getElem?_eq_some_iff.1 hy).1
  cases hstep <;> omega

/-- **C28** Every request taken leaves behind one goroutine that is blocked for ever: there are as
many distinct goroutines as requests taken that stay blocked on reporting their result in every
continuation; and besides these at most one goroutine is blocked that way. -/
theorem C28_leak_per_request {tr : List (Ev S)} {s : St S} (h : Exec side tr s) :
    (∃ ks : List Nat, ks.Nodup ∧ ks.length = (taken tr).length ∧
      ∀ k ∈ ks, ∀ t2 s', Run side s t2 s' → ∃ e, s'.readers[k]? = some (.offer e)) ∧
    s.readers.countP Reader.isOffer ≤ (taken tr).length + 1 := by
  refine ⟨⟨takers tr, (Exec.takers_stuck h).1, takers_length tr, ?_⟩, (Exec.offers h).1⟩
  intro k hk t2 s' hr
  exact (Run.stuck ((Exec.takers_stuck h).2 k hk) hr).1

/-- **C30** Once closed, a connection stays closed, closing again changes nothing, and nothing is
written any more. -/
theorem C30_close_is_final {s s' : St S} {t2 : List (Ev S)} (hc : s.closed = true)
    (hr : Run side s t2 s') :
    s'.closed = true ∧ (∀ e ∈ t2, e.wrote = none) ∧
    (∀ s'', Step side s' .close s'' → s'' = s') := by
  induction hr with
  | nil =>
    refine ⟨hc, by simp, ?_⟩
    intro s'' hs
    cases hs with | close _ => cases s; simp_all
  | @snoc tr e s1 s2 hr hs ih =>
    obtain ⟨h1, h2, _⟩ := ih
    obtain ⟨h3, h4⟩ := closed_step h1 hs
    refine ⟨h3, ?_, ?_⟩
    · intro e' he'
      rw [List.mem_append, List.mem_singleton] at he'
      rcases he' with he' | rfl
      · exact h2 e' he'
      · exact h4
    · intro s'' hs'
      cases hs' with | close _ => cases s2; simp_all

/-- A reader that reports a close error has closed the connection. -/
theorem Exec.closeErr_closed {tr : List (Ev S)} {s : St S} (h : Exec side tr s) (k : Nat)
    (hk : s.readers[k]? = some (.offer .closeErr)) : s.closed = true := by
  suffices ∀ r ∈ s.readers, r = .offer .closeErr → s.closed = true from this _ (List.mem_of_getElem? hk) rfl
  clear hk
  induction h with
  | nil => simp [init]
  | @snoc tr e s s' hr hs ih =>
    have hmem : ∀ (k : Nat) (x r : Reader S), r ∈ (s.setReader k x).readers → r = x ∨ r ∈ s.readers := by
      intro k x r hr
      simp only [St.setReader] at hr
      rcases List.mem_or_eq_of_mem_set hr with h | h
      · exact .inr h
      · exact .inl h
    cases hs with
    | spawn _ _ =>
      intro r hr hre
      simp only [List.mem_append, List.mem_singleton] at hr
      rcases hr with hr | rfl
      · exact ih r hr hre
      · cases hre
    | read _ _ =>
      intro r hr hre
      rcases hmem _ _ r hr with rfl | hr
      · cases hre
      · exact ih r hr hre
    | readErr _ _ _ => intro _ _ _; rfl
    | @dispatch k f p _ _ hp =>
      intro r hr hre
      rcases hmem _ _ r hr with rfl | hr
      · subst hre
        exfalso
        revert hp
        unfold afterRead
        repeat' split
        all_goals simp
      · exact ih r hr hre
    | refuse ok _ _ _ =>
      intro r hr hre
      rcases hmem _ _ r hr with rfl | hr
      · cases ok <;> simp at hre
      · exact ih r hr hre
    | take _ _ _ =>
      intro r hr hre
      rcases hmem _ _ r hr with rfl | hr
      · simp at hre
      · exact ih r hr hre
    | result _ _ _ =>
      intro r hr hre
      rcases hmem _ _ r hr with rfl | hr
      · cases hre
      · simp [ih r hr hre]
    | deliver _ _ _ _ =>
      intro r hr hre
      rcases hmem _ _ r (by simpa [St.setPhase] using hr) with rfl | hr
      · simp at hre
      · exact ih r hr hre
    | ctxDone _ _ _ => intro _ _ _; rfl
    | close _ => intro _ _ _; rfl
    | handlerPanicCs _ _ _ => intro _ _ _; rfl
    | answerPanicCs _ _ _ _ => intro _ _ _; rfl
    | _ => exact ih

/-- **C30** A connection is closed exactly from the first event on that closes it (`Ev.Closes`): a local close (`Close`, or
the charge point's context being done), a failed read or, at the central system, a panic of the handler.  Nothing else
closes it. -/
theorem C30_closed_iff {tr : List (Ev S)} {s : St S} (h : Exec side tr s) :
    s.closed = true ↔ ∃ e ∈ tr, e.Closes side := by
  induction h with
  | nil => simp [init]
  | @snoc tr e s s' hr hs ih =>
    have hex : (∃ e' ∈ tr ++ [e], e'.Closes side) ↔ s.closed = true ∨ e.Closes side := by
      rw [ih]
      simp only [List.mem_append, List.mem_singleton, or_and_right, exists_or, exists_eq_left]
    rw [hex]
    cases hs with
    | @result k x _ _ hk =>
      have := Exec.closeErr_closed hr k
      simp only [Ev.Closes, Ev.isClose, Bool.or_eq_true, decide_eq_true_eq, Bool.false_eq_true, reduceCtorEq, exists_false,
        false_and, and_false, or_false]
      constructor
      · rintro (h | ⟨_, rfl⟩)
        · exact h
        · exact this hk
      · exact .inl
    | readErr _ _ _ => simp [Ev.Closes]
    | ctxDone _ _ _ => simp [Ev.Closes, Ev.isClose]
    | close _ => simp [Ev.Closes, Ev.isClose]
    | handlerPanicCs _ h _ => simp [Ev.Closes, h]
    | answerPanicCs _ h _ hp => simp only [true_iff]; exact .inr (.inr (.inr ⟨h, .inr ⟨_, _, _, rfl, hp⟩⟩))
    | handlerPanicCp _ h _ => simp [Ev.Closes, Ev.isClose, h]
    | answerPanicCp _ h _ hp => simp [Ev.Closes, Ev.isClose, h]
    | @answerFail id resp err _ _ hp =>
      simp only [Ev.Closes, Ev.isClose, Bool.false_eq_true, reduceCtorEq, exists_false, false_or]
      constructor
      · exact .inl
      · rintro (h | ⟨-, _, _, _, h, h'⟩)
        · exact h
        · cases h; rw [hp] at h'; cases h'
    | _ => simp [Ev.Closes, Ev.isClose, St.setReader, St.setPhase]

/-- **C30** After that nothing is written any more, in every continuation. -/
theorem C30_nothing_written {t1 t2 : List (Ev S)} {e : Ev S} {s : St S} (h : Exec side (t1 ++ e :: t2) s)
    (he : e.Closes side) : ∀ e' ∈ t2, e'.wrote = none := by
  rw [List.append_cons] at h
  obtain ⟨s1, h1, h2⟩ := Run.split h
  exact (C30_close_is_final ((C30_closed_iff h1).2 ⟨e, by simp, he⟩) h2).2.1

/-- Once the loop has been left it stays left. -/
theorem exited_step {s s' : St S} {e : Ev S} (h : s.loop = .exited) (hs : Step side s e s') :
    s'.loop = .exited ∧ (∀ k, e ≠ .spawn k) ∧ (∀ k id r a, e ≠ .take k id r a) := by
  cases hs
  case take h' _ => obtain ⟨k', h'⟩ := h'; rw [h] at h'; cases h'
  case spawn h' => rw [h] at h'; cases h'
  case result h' _ => rw [h] at h'; cases h'
  all_goals simp_all [St.setReader, St.setPhase]

theorem exited_run {s s' : St S} {tr : List (Ev S)} (h : s.loop = .exited) (hr : Run side s tr s') :
    s'.loop = .exited ∧ ∀ e ∈ tr, (∀ k, e ≠ .spawn k) ∧ (∀ k id r a, e ≠ .take k id r a) := by
  induction hr with
  | nil => exact ⟨h, by simp⟩
  | @snoc tr e s1 s2 hr hs ih =>
    obtain ⟨h1, h2⟩ := exited_step ih.1 hs
    refine ⟨h1, ?_⟩
    intro e' he'
    rw [List.mem_append, List.mem_singleton] at he'
    rcases he' with he' | rfl
    · exact ih.2 e' he'
    · exact h2

/-- **C65** A panic of the central system's handler ends that connection, and only that: the process goes on (`crashed` is
false right after it), the connection is closed, and nothing is written to it and no request of it handled any more. -/
theorem C65_centralSystem {t1 t2 : List (Ev S)} {id : String} {s : St S} (h : Exec .cs (t1 ++ .handlerPanic id :: t2) s) :
    (∃ s1, Exec .cs (t1 ++ [.handlerPanic id]) s1 ∧ s1.crashed = false ∧ s1.closed = true ∧ Run .cs s1 t2 s) ∧ s.closed = true ∧
    ∀ e ∈ t2, e.wrote = none ∧ ∀ k id r a, e ≠ .take k id r a := by
  have h' := h
  rw [List.append_cons] at h'
  obtain ⟨s1, h1, h2⟩ := Run.split h'
  have h3 := (C30_closed_iff h1).2 ⟨.handlerPanic id, by simp, .inr (.inr ⟨rfl, .inl ⟨id, rfl⟩⟩)⟩
  obtain ⟨s0, -, h4⟩ := Run.split h1
  obtain ⟨s1', h5, h6⟩ := Run.cons_inv h4
  have e : s1' = s1 := by
    generalize hn : ([] : List (Ev S)) = l at h6
    cases h6 with
    | nil => rfl
    | snoc => simp at hn
  subst e
  have hc : s1'.crashed = false ∧ s1'.loop = .exited := by
    cases h5 with
    | handlerPanicCs h _ _ => exact ⟨h, rfl⟩
    | handlerPanicCp _ h _ => cases h
  have h7 := exited_run hc.2 h2
  have h8 := C30_nothing_written h (.inr (.inr ⟨rfl, .inl ⟨id, rfl⟩⟩))
  refine ⟨⟨s1', h1, hc.1, h3, h2⟩, (C30_closed_iff h).2 ⟨.handlerPanic id, by simp, .inr (.inr ⟨rfl, .inl ⟨id, rfl⟩⟩)⟩, ?_⟩
  intro e he
  exact ⟨h8 e he, (h7.2 e he).2⟩

/-- **C65** A panic of a charge point's handler ends the process. -/
theorem C65_chargePoint {t1 t2 : List (Ev S)} {id : String} {s : St S} (h : Exec .cp (t1 ++ .handlerPanic id :: t2) s) :
    s.crashed = true ∧ t2 = [] := by
  obtain ⟨s0, -, h4⟩ := Run.split h
  obtain ⟨s1, h5, h6⟩ := Run.cons_inv h4
  have hc : s1.crashed = true := by
    cases h5 with
    | handlerPanicCs _ h _ => cases h
    | handlerPanicCp h _ _ => rfl
  cases t2 with
  | nil =>
    generalize hn : ([] : List (Ev S)) = l at h6
    cases h6 with
    | nil => exact ⟨hc, rfl⟩
    | snoc => simp at hn
  | cons e t2 =>
    obtain ⟨s2, h7, -⟩ := Run.cons_inv h6
    rw [step_not_crashed h7] at hc
    cases hc

/-- **C26** A late response wedges the connection.  If the `i`-th `Send` has timed out and a text
answering it is looked up on an open connection, then in every continuation without a local close
nothing is read (not even the end of the connection), no request reaches the loop, and no `Send` is
given an answer. -/
theorem C26_late_response_wedges {tr t2 : List (Ev S)} {s s1 s2 : St S} {i k : Nat} {id : String}
    {r : S.Req} {f : S.Frame} {a : Answer S}
    (h : Exec side tr s) (hsend : Ev.send i id r ∈ tr) (hto : Ev.timeout i ∈ tr)
    (hk : s.readers[k]? = some (.got f)) (hf : AnswerTo id (S.action r) f a) (hopen : s.closed = false)
    (hs : Step side s (.dispatch k) s1) (hr : Run side s1 t2 s2)
    (hnc : ∀ e ∈ t2, e.isClose = false) :
    (∀ j g, Ev.read j g ∉ t2) ∧ (∀ j x, Ev.readErr j x ∉ t2) ∧
    (∀ j id r a, Ev.take j id r a ∉ t2) ∧ (∀ j i, Ev.deliver j i ∉ t2) := by
  obtain ⟨x, hx, hp⟩ := Exec.timeout_done h i hto
  have hxid : x.id = id ∧ x.req = r := by
    rcases Exec.sender_of_send h i id r hsend with ⟨y, hy, h3⟩ | ⟨_, h3⟩
    · rw [hx] at hy; cases hy; exact h3
    · subst h3; simp at hx
  have hm := Exec.minv h
  have hsent := (hm.sent id (S.action x.req)).2 ⟨i, x, hx, hxid.1, rfl, by simp [hp, Phase.inSent]⟩
  have hchan := (hm.chan id i).2 ⟨x, hx, hxid.1, by simp [hp, Phase.inChan]⟩
  have hafter : afterRead s f = some (.toSender (some i) a) := by
    unfold afterRead
    rw [hxid.2] at hsent
    cases hf with
    | resp h1 h2 => simp [h1, hsent, h2, hchan]
    | code h1 h2 => simp [h1, hsent, h2, hchan]
    | callErr h1 => simp [h1, hsent, hchan]
  have hi := Exec.inv h
  have hcr := step_not_crashed hs
  obtain ⟨hlen, hloop⟩ := hi.act k _ hk rfl
  have hsel : s.loop = .sel k := by
    rcases hloop with h1 | h1
    · exact h1
    · rcases Exec.exited h h1 with h2 | h2
      · rw [hopen] at h2; simp at h2
      · rw [hcr] at h2; simp at h2
  have hs1 : s1 = s.setReader k (.toSender (some i) a) := by
    cases hs with
    | dispatch hc hk' hp' =>
      rw [hk] at hk'; simp at hk'; subst hk'; rw [hafter] at hp'; simp at hp'; subst hp'; rfl
    | dispatchPanic hc hk' hp' =>
      rw [hk] at hk'; simp at hk'; subst hk'; rw [hafter] at hp'; simp at hp'
  have hlt : k < s.readers.length := by omega
  have hw : Wedged s1 k := by
    refine ⟨inv_step hi hs, ?_, ?_, i, a, x, .timeout, ?_, ?_, hp⟩
    · rw [hs1]; exact hsel
    · rw [hs1]; exact hopen
    · rw [hs1]; simp [St.setReader, hlt]
    · rw [hs1]; exact hx
  have hW := (Run.wedged hw hr hnc).2
  exact ⟨fun j g hm => (hW _ hm).1 j g rfl, fun j x hm => (hW _ hm).2.1 j x rfl,
    fun j a b c hm => (hW _ hm).2.2.1 j a b c rfl, fun j i hm => (hW _ hm).2.2.2 j i rfl⟩

/-- **C58** A response to a waiting `Send` reaches it: if a text answering a waiting call is read
then the look-up, the hand-over and the return of that `Send` with that answer can follow at once,
and nothing else happens in between. -/
theorem C58_answer_reaches_send {tr : List (Ev S)} {s : St S} {i k : Nat} {x : Sender S}
    {f : S.Frame} {a : Answer S} (h : Exec side tr s) (hcr : s.crashed = false)
    (hx : s.senders[i]? = some x) (hp : x.phase = .waiting)
    (hk : s.readers[k]? = some (.got f)) (hf : AnswerTo x.id (S.action x.req) f a) :
    ∃ s', Run side s [.dispatch k, .deliver k i, .finish i a] s' := by
  have hm := Exec.minv h
  have hsent := (hm.sent x.id (S.action x.req)).2 ⟨i, x, hx, rfl, rfl, by simp [hp, Phase.inSent]⟩
  have hchan := (hm.chan x.id i).2 ⟨x, hx, rfl, by simp [hp, Phase.inChan]⟩
  have hafter : afterRead s f = some (.toSender (some i) a) := by
    unfold afterRead
    cases hf with
    | resp h1 h2 => simp [h1, hsent, h2, hchan]
    | code h1 h2 => simp [h1, hsent, h2, hchan]
    | callErr h1 => simp [h1, hsent, hchan]
  have hlt : k < s.readers.length := (List.getElem?_eq_some_iff.1 hk).1
  have hlt' : i < s.senders.length := (List.getElem?_eq_some_iff.1 hx).1
  have st1 := Step.dispatch (side := side) hcr hk hafter
  have st2 := Step.deliver (side := side) (s := s.setReader k (.toSender (some i) a)) (k := k) (i := i)
    (a := a) (x := x) hcr (by simp [St.setReader, hlt]) hx hp
  have st3 := Step.finish (side := side) (s := ((s.setReader k (.toSender (some i) a)).setReader k
    (.offer .nil)).setPhase i x (.received a)) (i := i) (a := a)
    (x := { x with phase := .received a }) hcr (by simp [St.setReader, St.setPhase, hlt']) rfl
  exact ⟨_, Run.snoc (Run.snoc (Run.snoc .nil st1) st2) st3⟩

/-! ### Data race -/

/-- The two maps of a connection. -/
inductive MapVar where
  | sentMessages
  | responsesOf
  deriving DecidableEq

/-- Who runs a step: a sending goroutine or a reading goroutine. -/
inductive Who where
  | sender (i : Nat)
  | reader (k : Nat)
  deriving DecidableEq

/-- Unlocked map accesses of a step: conn.go:191 (read by the reading goroutine that processes a
response), conn.go:295-296 and 303-304 (writes by a sending goroutine).  The `Bool` says "write".
None of these lines holds a lock. -/
def Ev.accesses (s : St S) : Ev S → List (Who × MapVar × Bool)
  | .dispatch k =>
    match s.readers[k]? with
    | some (.got f) =>
      match S.read f with
      | .ok (some (.result _ _)) => [(.reader k, .sentMessages, false)]
      | .ok (some (.error _ _ _ _)) => [(.reader k, .sentMessages, false)]
      | _ => []
    | _ => []
  | .regSent i => [(.sender i, .sentMessages, true)]
  | .regChan i => [(.sender i, .responsesOf, true)]
  | .finish i _ => [(.sender i, .sentMessages, true), (.sender i, .responsesOf, true)]
  | _ => []

/-- Two steps of different goroutines, both possible now, access the same map, one of them
writing. -/
def Race (side : Side) (s : St S) : Prop :=
  ∃ e1 e2 s1 s2 w1 w2 v b, Step side s e1 s1 ∧ Step side s e2 s2 ∧ w1 ≠ w2 ∧
    (w1, v, true) ∈ e1.accesses s ∧ (w2, v, b) ∈ e2.accesses s

/-- **C32** For every response text `g` and every request: there is a schedule in which one `Send`
of that request races on the pending-call map with the processing of that one text.  A second race
needs no text at all: two concurrent `Send`s. -/
theorem C32_data_race {id id' : String} {r r' : S.Req} {f f' g : S.Frame} {m : Msg S.Pay}
    (hr : S.encCall id r = .ok f) (hr' : S.encCall id' r' = .ok f') (hne : id ≠ id')
    (hg : S.read g = .ok (some m)) (hm : ∀ i a p, m ≠ .call i a p) :
    (∃ (tr : List (Ev S)) (s : St S), Exec side tr s ∧ s.senders.length = 1 ∧
      framesRead tr = [g] ∧ Race side s) ∧
    (∃ (tr : List (Ev S)) (s : St S), Exec side tr s ∧ s.senders.length = 2 ∧
      framesRead tr = [] ∧ Race side s) := by
  constructor
  · let s0 := init S
    have st1 := Step.spawn (side := side) (s := s0) rfl rfl
    have st2 := Step.read (side := side)
      (s := { s0 with loop := .sel 0, readers := [.reading] }) (k := 0) (f := g) rfl rfl
    have st3 := Step.send (side := side)
      (s := { s0 with loop := .sel 0, readers := [.got g] }) rfl (by simp [s0, init]) hr
    let s3 : St S :=
      { s0 with loop := .sel 0, readers := [.got g], senders := [⟨id, r, some f, .fresh⟩] }
    have hex : Exec side _ s3 := Run.snoc (Run.snoc (Run.snoc .nil st1) st2) st3
    have st4 := Step.regSent (side := side) (s := s3) (i := 0) (x := ⟨id, r, some f, .fresh⟩) rfl
      rfl rfl
    have hd : ∃ s', Step side s3 (.dispatch 0) s' := by
      cases ha : afterRead s3 g with
      | none => exact ⟨_, Step.dispatchPanic (f := g) rfl rfl ha⟩
      | some p => exact ⟨_, Step.dispatch (f := g) rfl rfl ha⟩
    obtain ⟨s', hd⟩ := hd
    refine ⟨_, s3, hex, rfl, rfl, .regSent 0, .dispatch 0, _, s', .sender 0, .reader 0,
      .sentMessages, false, st4, hd, by simp, by simp [Ev.accesses], ?_⟩
    cases m with
    | call i a p => exact absurd rfl (hm i a p)
    | result i p => simp [Ev.accesses, s3, hg]
    | error i c d x => simp [Ev.accesses, s3, hg]
  · let s0 := init S
    have st1 := Step.send (side := side) (s := s0) rfl (by simp [s0, init]) hr
    have st2 := Step.send (side := side) (s := { s0 with senders := [⟨id, r, some f, .fresh⟩] }) rfl
      (by simpa using hne) hr'
    let s2 : St S := { s0 with senders := [⟨id, r, some f, .fresh⟩, ⟨id', r', some f', .fresh⟩] }
    have hex : Exec side _ s2 := Run.snoc (Run.snoc .nil st1) st2
    have st3 := Step.regSent (side := side) (s := s2) (i := 0) (x := ⟨id, r, some f, .fresh⟩) rfl
      rfl rfl
    have st4 := Step.regSent (side := side) (s := s2) (i := 1) (x := ⟨id', r', some f', .fresh⟩) rfl
      rfl rfl
    exact ⟨_, s2, hex, rfl, rfl, .regSent 0, .regSent 1, _, _, .sender 0, .sender 1,
      .sentMessages, true, st3, st4, by simp, by simp [Ev.accesses], by simp [Ev.accesses]⟩

/-! ### Non-vacuity: a small connection -/

/-- A toy meaning of texts: texts are messages; the only action is "A". -/
def toy : Sem where
  Frame := Msg Nat
  Req := Nat
  Resp := Nat
  Pay := Nat
  read f := .ok (some f)
  toRequest a p := if a = "A" then .ok p else .error "NotSupported"
  toResponse _ p := .ok p
  encCall id r := .ok (.call id "A" r)
  encReply id r _ := .ok (.result id (r.getD 0))
  encRefusal id c := .error id c "" 0
  action _ := "A"
  mine _ := true

/-- A `Send` that is answered: the hypotheses of C21 (a `finish` event) occur. -/
example : ∃ s, Exec (S := toy) .cs
    [.spawn 0, .send 0 "x" (7 : Nat), .regSent 0, .regChan 0, .writeCall 0 (some (.call "x" "A" 7)),
     .read 0 (.result "x" 9), .dispatch 0, .deliver 0 0, .finish 0 (.resp (9 : Nat))] s ∧
    s.sent "x" = none := by
  have r1 := Run.snoc (S := toy) (side := .cs) (s := init toy) .nil (Step.spawn rfl rfl)
  have r2 := Run.snoc r1 (Step.send (S := toy) (id := "x") (r := (7 : Nat)) (f := Msg.call "x" "A" (7 : Nat)) rfl
    (by simp [init]) rfl)
  have r3 := Run.snoc r2 (Step.regSent (S := toy) (i := 0) rfl rfl rfl)
  have r4 := Run.snoc r3 (Step.regChan (S := toy) (i := 0) rfl rfl rfl)
  have r5 := Run.snoc r4 (Step.writeOk (S := toy) (i := 0) (f := Msg.call "x" "A" (7 : Nat)) rfl rfl rfl rfl rfl)
  have r6 := Run.snoc r5 (Step.read (S := toy) (k := 0) (f := Msg.result "x" (9 : Nat)) rfl rfl)
  have r7 := Run.snoc r6 (Step.dispatch (S := toy) (k := 0) (f := Msg.result "x" (9 : Nat))
    (p := .toSender (some 0) (.resp (9 : Nat))) rfl rfl rfl)
  have r8 := Run.snoc r7 (Step.deliver (S := toy) (k := 0) (i := 0) (a := .resp (9 : Nat)) rfl rfl rfl rfl)
  have r9 := Run.snoc r8 (Step.finish (S := toy) (i := 0) (a := .resp (9 : Nat)) rfl rfl rfl)
  exact ⟨_, r9, rfl⟩

/-- A late response: the hypotheses of C26 occur (an open connection, a timed-out `Send`, and the
answer to it just read). -/
example : ∃ s, Exec (S := toy) .cs
    [.spawn 0, .send 0 "x" (7 : Nat), .regSent 0, .regChan 0, .writeCall 0 (some (.call "x" "A" 7)),
     .timeout 0, .read 0 (.result "x" 9)] s ∧ s.closed = false ∧
    s.readers[0]? = some (.got (.result "x" 9)) ∧
    AnswerTo (S := toy) "x" "A" (.result "x" 9) (.resp (9 : Nat)) ∧
    ∃ s1, Step .cs s (.dispatch 0) s1 := by
  have r1 := Run.snoc (S := toy) (side := .cs) (s := init toy) .nil (Step.spawn rfl rfl)
  have r2 := Run.snoc r1 (Step.send (S := toy) (id := "x") (r := (7 : Nat)) (f := Msg.call "x" "A" (7 : Nat)) rfl
    (by simp [init]) rfl)
  have r3 := Run.snoc r2 (Step.regSent (S := toy) (i := 0) rfl rfl rfl)
  have r4 := Run.snoc r3 (Step.regChan (S := toy) (i := 0) rfl rfl rfl)
  have r5 := Run.snoc r4 (Step.writeOk (S := toy) (i := 0) (f := Msg.call "x" "A" (7 : Nat)) rfl rfl rfl rfl rfl)
  have r6 := Run.snoc r5 (Step.timeout (S := toy) (i := 0) rfl rfl rfl)
  have r7 := Run.snoc r6 (Step.read (S := toy) (k := 0) (f := Msg.result "x" (9 : Nat)) rfl rfl)
  exact ⟨_, r7, rfl, rfl, .resp rfl rfl, _, Step.dispatch (S := toy) (k := 0) (f := Msg.result "x" (9 : Nat))
    (p := .toSender (some 0) (.resp (9 : Nat))) rfl rfl rfl⟩

/-- A handled request: the hypotheses of C24, C27, C28 occur, and an unsolicited response (C25). -/
example : ∃ tr s, Exec (S := toy) .cs tr s ∧ taken tr = [("q", (5 : Nat))] ∧
    HandlerRunning tr ∧ s.readers[0]? = some (.offer .nil) := by
  have r1 := Run.snoc (S := toy) (side := .cs) (s := init toy) .nil (Step.spawn rfl rfl)
  have r2 := Run.snoc r1 (Step.read (S := toy) (k := 0) (f := Msg.call "q" "A" (5 : Nat)) rfl rfl)
  have r3 := Run.snoc r2 (Step.dispatch (S := toy) (k := 0) (f := Msg.call "q" "A" (5 : Nat))
    (p := .toLoop "q" (5 : Nat)) rfl rfl rfl)
  have r4 := Run.snoc r3 (Step.take (S := toy) (k := 0) (id := "q") (r := (5 : Nat)) rfl ⟨0, rfl⟩ rfl)
  refine ⟨_, _, r4, rfl, ?_, rfl⟩
  exact Nat.lt_of_lt_of_eq Nat.zero_lt_one rfl

example : ∃ s, Exec (S := toy) .cs [.spawn 0, .read 0 (.result "zz" 9)] s ∧
    ¬ Pending (S := toy) [.spawn 0, .read 0 (.result "zz" (9 : Nat))] "zz" := by
  have r1 := Run.snoc (S := toy) (side := .cs) (s := init toy) .nil (Step.spawn rfl rfl)
  have r2 := Run.snoc r1 (Step.read (S := toy) (k := 0) (f := Msg.result "zz" (9 : Nat)) rfl rfl)
  exact ⟨_, r2, by simp [Pending]⟩

end Verif.Conn
