import Verif.Lemmas.Reread
/-!
# A connection that has failed

Property C103.  After the first failed read of a connection nothing more is read, handled, delivered or written on it; the serving
loop may ask for the failed connection's next message again, but only by preferring, in its select, the reader's error to the news
that the connection is closed, which is there at the same time; and since gorilla panics at the thousandth such read, the process
dies of it after 999 of those choices, never earlier.
-/
set_option linter.unusedSimpArgs false
namespace Verif.Reread
open Conn
variable {S : Sem} {side : Side} {tr t₁ t₂ : List (REv S)} {s : RSt S}

/-- **C103 (a connection).** Up to the panic, the history is one of the connection of the other properties: whatever they say
about everything that happens on a connection holds here. -/
theorem C103_connection (h : RExec side tr s) : Conn.Exec side (toConn tr) s.conn := h.conn

/-- What happens after a failed read, from any state in which one has happened. -/
theorem late {s' : RSt S} {t : List (REv S)} {x : REv S} (h : RExec side t s) (hf : 0 < fails t) (hs : RStep side s x s') :
    s.conn.closed = true ∧ ∃ e, s.failed = some e ∧
      ((∃ ev, x = .conn ev ∧ lateOk ev = true ∧ ∀ k e', ev = .result k e' →
          e' = e ∧ s.conn.loop = .sel k) ∨
        (∃ k, x = .fail k e true) ∨ (∃ k, x = .die k)) := by
  have hc := RExec.counts h
  cases hfl : s.failed with
  | none => have := (hc.up hfl).1; omega
  | some e =>
    obtain ⟨_, h2, _, b, h4, _⟩ := hc.downs e hfl
    refine ⟨h2, e, rfl, ?_⟩
    cases hs with
    | @other ev c _ hn hst =>
      obtain ⟨g1, _, g3⟩ := h4.step (RExec.conn h).inv h2 hst hn
      refine .inl ⟨ev, rfl, g1, ?_⟩
      rintro k e' rfl
      rcases g3 with ⟨g3, _⟩ | ⟨k', g3, _, g5, _⟩
      · exact absurd rfl (g3 _ _)
      · cases g3; exact ⟨rfl, g5⟩
    | read _ hn _ => rw [hfl] at hn; cases hn
    | fail _ hsame _ _ =>
      obtain ⟨rfl, rfl⟩ := hsame e hfl
      exact .inr (.inl ⟨_, rfl⟩)
    | die => exact .inr (.inr ⟨_, rfl⟩)

theorem fails_mid {k : Nat} {e : ReadRes} {hd : Bool} (u : List (REv S)) : 0 < fails (t₁ ++ [.fail k e hd] ++ u) := by
  simp [fails, List.countP_append, List.countP_cons, REv.isFail]; omega

/-- The step at a place of a history. -/
theorem RExec.at {x : REv S} (h : RExec side (t₁ ++ [x] ++ t₂) s) : ∃ s₁ s₂, RExec side t₁ s₁ ∧ RStep side s₁ x s₂ := by
  obtain ⟨m, hm, _⟩ := RRun.split h rfl
  obtain ⟨m', hm', h1⟩ := RRun.split hm rfl
  exact ⟨m', m, hm', h1.one⟩

/-- **C103 (silence).** After a read has failed, no message is read from the connection any more, no request is handed to the
handler, no handler's answer is sent, no answer reaches a caller of `SendRequest`, and nothing is written: what is left are readers
that fail, the loop that takes their errors or leaves, callers that give up and new callers, whose writes fail. -/
theorem C103_silent {k : Nat} {e : ReadRes} {hd : Bool} (h : RExec side (t₁ ++ [.fail k e hd] ++ t₂) s) :
    ∀ x ∈ t₂,
      (∀ k' f, x ≠ .conn (.read k' f)) ∧
      (∀ k' id r a, x ≠ .conn (.take k' id r a)) ∧
      (∀ id resp err, x ≠ .conn (.handlerRet id resp err)) ∧
      (∀ id resp err w, x ≠ .conn (.answer id resp err w)) ∧
      (∀ k' id c ok, x ≠ .conn (.refuse k' id c ok)) ∧
      (∀ k' i, x ≠ .conn (.deliver k' i)) ∧
      (∀ i f, x ≠ .conn (.writeCall i (some f))) ∧
      (∀ k' e' hd', x = .fail k' e' hd' → e' = e ∧ hd' = true) := by
  intro x hx
  obtain ⟨u, v, rfl⟩ := List.append_of_mem hx
  have h' : RExec side ((t₁ ++ [.fail k e hd]) ++ u ++ [x] ++ v) s := by simpa [List.append_assoc] using h
  obtain ⟨s₁, s₂, hs₁, hst⟩ := RExec.at h'
  obtain ⟨_, e₀, he₀, hl⟩ := late hs₁ (fails_mid u) hst
  -- the error stays
  have hsame : ∀ (w : List (REv S)) (q : RSt S), RExec side (t₁ ++ [.fail k e hd] ++ w) q → q.failed = some e := by
    intro w
    induction w using List.reverseRecOn with
    | nil =>
      intro q hq
      rw [List.append_nil] at hq
      obtain ⟨m, _, h1⟩ := RRun.split hq rfl
      cases h1.one with
      | fail => rfl
    | append_singleton w y ih =>
      intro q hq
      rw [← List.append_assoc] at hq
      obtain ⟨m, hm, h1⟩ := RRun.split hq rfl
      have hm' := ih m hm
      cases h1.one with
      | other => exact hm'
      | read => exact hm'
      | fail _ hsm _ _ => simpa using (hsm e hm').1
      | die => exact hm'
  have he : e₀ = e := by
    have := hsame u s₁ hs₁
    rw [he₀] at this; exact Option.some.inj this
  subst he
  rcases hl with ⟨ev, rfl, hok, _⟩ | ⟨k', rfl⟩ | ⟨k', rfl⟩
  · refine ⟨?_, ?_, ?_, ?_, ?_, ?_, ?_, ?_⟩ <;> intros <;>
      first
      | (intro hh; cases hh; simp [lateOk] at hok)
      | (rename_i hh; cases hh)
  · refine ⟨by simp, by simp, by simp, by simp, by simp, by simp, by simp, ?_⟩
    intro k'' e' hd' hh
    cases hh; exact ⟨rfl, rfl⟩
  · exact ⟨by simp, by simp, by simp, by simp, by simp, by simp, by simp, by simp⟩

/-- **C103 (a choice).** Whenever, after a failed read, the serving loop takes a reader's result, the news that the connection is
closed is there too: the loop could leave at that very moment.  And what it takes is the error of the failed read. -/
theorem C103_choice {k k' : Nat} {e e' : ReadRes} {hd : Bool} {u v : List (REv S)}
    (h : RExec side (t₁ ++ [.fail k e hd] ++ u ++ [.conn (.result k' e')] ++ v) s) :
    ∃ s₁ s₂, RExec side (t₁ ++ [.fail k e hd] ++ u) s₁ ∧ RStep side s₁ (.conn .seeClosed) s₂ ∧ s₂.conn.loop = .exited ∧
      e' ≠ .nil := by
  obtain ⟨s₁, s₂, hs₁, hst⟩ := RExec.at h
  obtain ⟨hcl, e₀, he₀, hl⟩ := late hs₁ (fails_mid u) hst
  rcases hl with ⟨ev, hev, _, hres⟩ | ⟨_, hh⟩ | ⟨_, hh⟩
  · cases hev
    obtain ⟨rfl, hloop⟩ := hres _ _ rfl
    have hd : s₁.dead = false ∧ s₁.conn.crashed = false := by
      cases hst with
      | other hd _ hst => cases hst with | result hc _ _ => exact ⟨hd, hc⟩
    exact ⟨s₁, _, hs₁, .other hd.1 rfl (.seeClosed hd.2 hloop hcl), rfl, ((RExec.counts hs₁).downs _ he₀).1⟩
  · cases hh
  · cases hh

/-- **C103 (how often).** A connection's reads fail at most once more than the serving loop has chosen, after the first failure,
a reader's error over the news that the connection is closed. -/
theorem C103_reads (h : RExec side tr s) : fails tr ≤ retaken tr + 1 := by
  have hc := RExec.counts h
  cases hfl : s.failed with
  | none => have := (hc.up hfl).1; omega
  | some e =>
    obtain ⟨_, _, _, b, _, h5⟩ := hc.downs e hfl
    cases b <;> simp at h5 <;> omega

/-- **C103 (death).** gorilla's panic ends the process only when 999 reads of the connection have failed before, and the serving
loop has passed over the closed connection 999 times. -/
theorem C103_death (h : RExec side tr s) (hd : s.dead = true) : 999 ≤ fails tr ∧ 999 ≤ retaken tr := by
  obtain ⟨h1, h2, _⟩ := (RExec.counts h).dead hd
  simp only [readLimit] at h1
  omega

/-- The panic is an event, and the last one. -/
theorem C103_last (h : RExec side (t₁ ++ [.die k] ++ t₂) s) : t₂ = [] ∧ s.dead = true := by
  obtain ⟨m, hm, h2⟩ := RRun.split h rfl
  have hdead : m.dead = true := by
    obtain ⟨m', _, h1⟩ := RRun.split hm rfl
    cases h1.one with
    | die => rfl
  have : ∀ (q : RSt S) (w : List (REv S)), RRun side m w q → w = [] ∧ q = m := by
    intro q w hw
    induction hw with
    | nil => exact ⟨rfl, rfl⟩
    | snoc _ hs ih =>
      obtain ⟨_, rfl⟩ := ih
      cases hs <;> simp_all
  obtain ⟨rfl, rfl⟩ := this _ _ h2
  exact ⟨rfl, hdead⟩

/-- **C103 (a close frame at the central system).** If the connection of a charge point fails with a close frame, the central
system reads it no more: one read fails, and the process does not die of it. -/
theorem C103_closeFrame {k : Nat} {hd : Bool} (h : RExec .cs (t₁ ++ [.fail k .closeErr hd] ++ t₂) s) :
    fails (t₁ ++ [.fail k .closeErr hd] ++ t₂) = 1 ∧ s.dead = false := by
  have key : ∀ (tr : List (REv S)) (s : RSt S), RExec .cs tr s → s.failed = some .closeErr →
      fails tr = 1 ∧ (s.conn.loop = .exited ∨ ∃ k, s.conn.loop = .sel k ∧ s.conn.readers[k]? = some (.offer .closeErr)) ∧
        (∀ p ∈ s.conn.readers, p.active = false) := by
    intro tr s hr
    induction hr with
    | nil => simp [rinit]
    | @snoc tr x s s' hr hs ih =>
      intro hfl
      have hi : Inv s.conn := (RExec.conn hr).inv
      have hc := RExec.counts hr
      have hset : ∀ (k : Nat) (e : ReadRes) (c : St S), Step .cs s.conn (.readErr k e) c → ∀ p ∈ c.readers, p.active = false := by
        intro k e c hst p hp
        cases hst with
        | readErr _ hk _ =>
          have h1 := (hi.act _ _ hk rfl).1
          by_contra ha
          simp only [Bool.not_eq_false] at ha
          obtain ⟨j, hj⟩ := List.mem_iff_getElem?.mp hp
          simp only [St.setReader, List.getElem?_set] at hj
          split at hj
          · split at hj
            · cases hj; simp [Reader.active] at ha
            · simp at hj
          · have := (hi.act j p hj ha).1
            omega
      cases hs with
      | @other ev c hd hn hst =>
        obtain ⟨i1, i2, i3⟩ := ih hfl
        obtain ⟨_, hcl, _, b, hdn, _⟩ := hc.downs _ hfl
        refine ⟨by rw [fails_snoc, i1]; rfl, ?_⟩
        obtain ⟨g1, _, g3⟩ := hdn.step hi hcl hst hn
        cases hst with
        | spawn _ hl => rcases i2 with i2 | ⟨k, i2, _⟩ <;> rw [hl] at i2 <;> cases i2
        | read => cases g1
        | readErr => cases g1
        | dispatch => cases g1
        | dispatchPanic => cases g1
        | refuse => cases g1
        | take => cases g1
        | handlerRet => cases g1
        | answerOk => cases g1
        | answerFail => cases g1
        | handlerPanicCs => cases g1
        | handlerPanicCp => cases g1
        | answerPanicCs => cases g1
        | answerPanicCp => cases g1
        | deliver => cases g1
        | writeOk => cases g1
        | result _ hl hk =>
          rcases g3 with ⟨g3, _⟩ | ⟨k', g3, _, _, _, _⟩
          · exact absurd rfl (g3 _ _)
          · cases g3
            refine ⟨.inl rfl, ?_⟩
            intro p hp
            simp only [St.setReader] at hp
            rcases List.mem_or_eq_of_mem_set hp with hp | rfl
            · exact i3 p hp
            · rfl
        | seeClosed => exact ⟨.inl rfl, i3⟩
        | ctxDone => exact ⟨.inl rfl, i3⟩
        | close => exact ⟨i2, i3⟩
        | send => exact ⟨i2, i3⟩
        | sendErr => exact ⟨i2, i3⟩
        | sendPanic => exact ⟨i2, i3⟩
        | regSent => exact ⟨i2, i3⟩
        | regChan => exact ⟨i2, i3⟩
        | writeFail => exact ⟨i2, i3⟩
        | finish => exact ⟨i2, i3⟩
        | timeout => exact ⟨i2, i3⟩
      | read _ hn _ => simp only at hfl; rw [hn] at hfl; cases hfl
      | @fail k e head c hd hsame hst hlim =>
        simp only [Option.some.injEq] at hfl
        subst hfl
        obtain ⟨r1, _, _, r4, _, r6⟩ := readErr_down hi hst
        cases hfl' : s.failed with
        | none =>
          refine ⟨by rw [fails_snoc, (hc.up hfl').1]; rfl, ?_, hset _ _ _ hst⟩
          rcases r6 with r6 | r6
          · exact .inr ⟨k, r6, r4⟩
          · exact .inl r6
        | some e₀ =>
          obtain ⟨rfl, _⟩ := hsame e₀ hfl'
          have := (ih hfl').2.2 _ (List.mem_of_getElem? r1)
          simp [Reader.active] at this
      | @die k e c hd hst hlim =>
        obtain ⟨r1, _⟩ := readErr_down hi hst
        have := (ih hfl).2.2 _ (List.mem_of_getElem? r1)
        simp [Reader.active] at this
  have hsil := C103_silent (k := k) (e := .closeErr) (hd := hd) h
  have hfl : s.failed = some .closeErr := by
    have hc := RExec.counts h
    have hpos : 0 < fails (t₁ ++ [.fail k .closeErr hd] ++ t₂) := fails_mid t₂
    cases hfl : s.failed with
    | none => have := (hc.up hfl).1; omega
    | some e =>
      obtain ⟨m, hm, h2⟩ := RRun.split h rfl
      have hm' : m.failed = some .closeErr := by
        obtain ⟨m', _, h1⟩ := RRun.split hm rfl
        cases h1.one with
        | fail => rfl
      have : ∀ (q : RSt S) (w : List (REv S)), RRun .cs m w q → q.failed = some .closeErr := by
        intro q w hw
        induction hw with
        | nil => exact hm'
        | snoc _ hs ih =>
          cases hs with
          | other => exact ih
          | read => exact ih
          | fail _ hsm _ _ => simpa using (hsm _ ih).1
          | die => exact ih
      rw [← hfl]; exact this _ _ h2
  have h1 := (key _ _ h hfl).1
  refine ⟨h1, ?_⟩
  cases hdead : s.dead with
  | false => rfl
  | true => have := (C103_death h hdead).1; omega

/-! ## The panic can happen -/

/-- One round: start a reader, its read fails, its error is taken. -/
def lap (S : Sem) (e : ReadRes) (n : Nat) : List (REv S) := [.conn (.spawn n), .fail n e true, .conn (.result n e)]

/-- `n` rounds. -/
def laps (S : Sem) (e : ReadRes) : Nat → List (REv S)
  | 0 => []
  | n + 1 => laps S e n ++ lap S e n

/-- The connection after `n` rounds. -/
def spun (S : Sem) (e : ReadRes) (n : Nat) : RSt S :=
  ⟨{ init S with closed := decide (n ≠ 0), readers := List.replicate n .gone }, if n = 0 then none else some e, n, false⟩

theorem lap_run (e : ReadRes) (he : e ≠ .nil) (hside : afterResult (S := S) side e = .top) (n : Nat) (hn : n + 1 < readLimit) :
    RRun side (spun S e n) (lap S e n) (spun S e (n + 1)) := by
  have hlen : (spun S e n).conn.readers.length = n := by simp [spun]
  have s1 : RStep side (spun S e n) (.conn (.spawn n)) { spun S e n with conn := { (spun S e n).conn with loop := .sel n, readers := (spun S e n).conn.readers ++ [Reader.reading] } } := by
    have := Step.spawn (side := side) (s := (spun S e n).conn) rfl rfl
    rw [hlen] at this
    exact .other rfl rfl this
  have hk : ((spun S e n).conn.readers ++ [Reader.reading])[n]? = some .reading := by
    rw [List.getElem?_append_right (by omega)]; simp [hlen]
  have s2 := RStep.fail (side := side) (head := true) (s := { spun S e n with conn := { (spun S e n).conn with loop := .sel n, readers := (spun S e n).conn.readers ++ [Reader.reading] } })
    rfl (e := e) (k := n) (by
      intro e' he'
      simp only [spun] at he'
      split at he' <;> simp_all) (Step.readErr rfl hk he) (fun _ => hn)
  refine .snoc (tr := [_, _]) (.snoc (tr := [_]) (.snoc (tr := []) .nil s1) s2) ?_
  have s3 := RStep.other (side := side) (s := { { spun S e n with conn := { (spun S e n).conn with loop := .sel n, readers := (spun S e n).conn.readers ++ [Reader.reading] } } with
      conn := { ({ (spun S e n).conn with loop := .sel n, readers := (spun S e n).conn.readers ++ [Reader.reading] } : St S).setReader n (.offer e) with closed := true },
      failed := some e, count := n + 1 }) (e := .result n e) rfl rfl
    (Step.result rfl rfl (by
      simp only [St.setReader]
      rw [List.getElem?_set_self (by simp [hlen])]))
  have hl : ((List.replicate n (Reader.gone (S := S)) ++ [Reader.reading]).set n (.offer e)).set n .gone = List.replicate (n + 1) .gone := by
    rw [List.set_set, List.replicate_succ', List.set_append_right _ _ (by simp)]
    simp
  have heq : spun S e (n + 1) = _ := (rfl : _ = (⟨⟨(init S).sent, (init S).chan, true, List.replicate (n + 1) .gone, [], .top, false⟩, some e, n + 1, false⟩ : RSt S))
  rw [heq, ← hl, ← hside]
  exact s3

theorem laps_run (e : ReadRes) (he : e ≠ .nil) (hside : afterResult (S := S) side e = .top) (n : Nat) (hn : n < readLimit) :
    RExec side (laps S e n) (spun S e n) := by
  induction n with
  | zero => exact .nil
  | succ n ih => exact RRun.append (ih (by omega)) (lap_run e he hside n hn)

/-- **C103 (it can happen).** At the charge point whatever the error, and at the central system with any error other than a close
frame (the peer's machine went down, a broken frame, a connection that was reset), there is a schedule in which the process dies of
gorilla's panic. -/
theorem C103_possible (e : ReadRes) (he : e ≠ .nil) (hside : side = .cp ∨ e ≠ .closeErr) :
    ∃ (tr : List (REv S)) (s : RSt S), RExec side tr s ∧ s.dead = true ∧ fails tr = 999 ∧ s.failed = some e := by
  have ha : afterResult (S := S) side e = .top := by
    unfold afterResult
    rcases hside with rfl | hne
    · rfl
    · cases side <;> cases e <;> simp_all
  have hrun := laps_run (S := S) e he ha 999 (by decide)
  have hlen : (spun S e 999).conn.readers.length = 999 := List.length_replicate ..
  have s1 : RStep side (spun S e 999) (.conn (.spawn 999)) { spun S e 999 with conn := { (spun S e 999).conn with loop := .sel 999, readers := (spun S e 999).conn.readers ++ [Reader.reading] } } := by
    have := Step.spawn (side := side) (s := (spun S e 999).conn) rfl rfl
    rw [hlen] at this
    exact .other rfl rfl this
  have hk : ((spun S e 999).conn.readers ++ [Reader.reading])[999]? = some .reading := by
    rw [List.getElem?_append_right (by omega)]; simp [hlen]
  have s2 := RStep.die (side := side) (s := { spun S e 999 with conn := { (spun S e 999).conn with loop := .sel 999, readers := (spun S e 999).conn.readers ++ [Reader.reading] } })
    (k := 999) (e := e) rfl (Step.readErr rfl hk he) (Nat.le_refl 1000)
  refine ⟨_, _, .snoc (.snoc hrun s1) s2, rfl, ?_, rfl⟩
  have hfl : ∀ n, fails (laps S e n) = n := by
    intro n
    induction n with
    | zero => rfl
    | succ n ih => simp [laps, lap, fails, List.countP_append, List.countP_cons, REv.isFail] at ih ⊢; omega
  rw [fails_snoc, fails_snoc, hfl]; rfl

/-- Non-vacuity of `C103_silent`, `C103_choice`: a charge point whose read fails and which asks again. -/
example : ∃ (s : RSt S), RExec .cp (laps S .err 2) s ∧ s.dead = false ∧ retaken (laps S .err 2) = 2 := by
  refine ⟨_, laps_run .err (by simp) rfl 2 (by decide), rfl, ?_⟩
  rfl

/-- Non-vacuity of `C103_closeFrame`. -/
example : ∃ (s : RSt S), RExec .cs [.conn (.spawn 0), .fail 0 .closeErr true] s ∧ s.conn.closed = true := by
  refine ⟨_, .snoc (tr := [_]) (.snoc (tr := []) .nil (.other rfl rfl (.spawn rfl rfl))) (.fail rfl ?_ (.readErr (k := 0) (e := .closeErr) rfl rfl (by simp)) (fun _ => (by decide : (0 + 1 < 1000)))), rfl⟩
  simp [rinit]

end Verif.Reread
