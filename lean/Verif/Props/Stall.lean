import Verif.Model.Stall
import Verif.Props.Conn
import Verif.Props.Settle
/-!
# Writes that take time (C89)
-/
namespace Verif.Conn
variable {S : Sem} {side : Side}

theorem step_atWrite {s s' : St S} {e : Ev S} {w : Writer} (h : Step side s e s') (hw : e.writer = some w) : AtWrite s w ∧ s.crashed = false := by
  cases h <;> simp only [Ev.writer, Option.some.injEq, reduceCtorEq] at hw
  all_goals subst hw
  all_goals simp only [AtWrite]
  all_goals grind

/-- The events of a schedule, without the beginnings of writes. -/
def evs (tr : List (LEv S)) : List (Ev S) := tr.filterMap LEv.ev?

theorem evs_append (a b : List (LEv S)) : evs (a ++ b) = evs a ++ evs b := by simp [evs]

theorem LRun.run {s s' : LSt S} {tr : List (LEv S)} (h : LRun side s tr s') : Run side s.conn (evs tr) s'.conn := by
  induction h with
  | nil => exact .nil
  | snoc h1 hs ih =>
    rw [evs_append]
    cases hs with
    | lock _ _ _ =>
      have : evs [LEv.lock (S := S) ‹Writer›] = [] := rfl
      rw [this, List.append_nil]
      exact ih
    | write _ _ h => exact .snoc ih h
    | other _ h => exact .snoc ih h

theorem LRun.append {s s' s'' : LSt S} {t1 t2 : List (LEv S)} (h1 : LRun side s t1 s') (h2 : LRun side s' t2 s'') : LRun side s (t1 ++ t2) s'' := by
  induction h2 with
  | nil => simpa using h1
  | snoc _ hs ih => rw [← List.append_assoc]; exact .snoc ih hs

/-- **C89** Taking the mutex and writing are two steps, but nothing new can be observed: the schedules are those of the model in which a
write is one step, with a beginning inserted somewhere before each write.  (So C21 to C30 hold of them too.) -/
theorem C89_refines (tr : List (Ev S)) (s : St S) : Exec side tr s ↔ ∃ tr' l, LExec side tr' ⟨s, l⟩ ∧ evs tr' = tr := by
  constructor
  · intro h
    suffices ∃ tr', LExec side tr' ⟨s, none⟩ ∧ evs tr' = tr by
      obtain ⟨tr', h1, h2⟩ := this
      exact ⟨tr', none, h1, h2⟩
    induction h with
    | nil => exact ⟨[], .nil, rfl⟩
    | snoc h1 hs ih =>
      rename_i tr0 e s1 s2
      obtain ⟨tr', h2, h3⟩ := ih
      cases hw : e.writer with
      | none => exact ⟨tr' ++ [.ev e], .snoc h2 (.other hw hs), by rw [evs_append, h3]; rfl⟩
      | some w =>
        obtain ⟨k1, k2⟩ := step_atWrite hs hw
        refine ⟨tr' ++ [.lock w] ++ [.ev e], .snoc (.snoc h2 (.lock k2 rfl k1)) (.write hw rfl hs), ?_⟩
        rw [evs_append, evs_append, h3]
        simp [evs, LEv.ev?]
  · rintro ⟨tr', l, h, rfl⟩
    exact h.run

/-- The write is under way: it began, and has not ended. -/
def UnderWay (tr : List (LEv S)) (w : Writer) : Prop :=
  ∃ a b, tr = a ++ .lock w :: b ∧ ∀ e, LEv.ev e ∈ b → e.writer ≠ some w

/-- A stretch of a schedule in which this write does not end. -/
def NotEnding (w : Writer) (t : List (LEv S)) : Prop := ∀ e, LEv.ev e ∈ t → e.writer ≠ some w

theorem lock_kept {s s' : LSt S} {t : List (LEv S)} {w : Writer} (h : LRun side s t s') (hl : s.lock = some w) (hn : NotEnding w t) :
    s'.lock = some w ∧ ∀ e, LEv.ev e ∈ t → e.writer = none := by
  induction h with
  | nil => exact ⟨hl, by simp⟩
  | snoc h1 hs ih =>
    obtain ⟨k1, k2⟩ := ih fun e he => hn e (by simp [he])
    cases hs with
    | lock _ h _ => rw [k1] at h; cases h
    | write h1 h2 h3 =>
      rename_i e _ w'
      rw [k1] at h2
      cases h2
      exact absurd h1 (hn e (by simp))
    | other h1 h2 =>
      refine ⟨k1, fun e he => ?_⟩
      rcases List.mem_append.1 he with he | he
      · exact k2 e he
      · simp only [List.mem_singleton, LEv.ev.injEq] at he
        subst he
        exact h1

theorem LRun.split {s s'' : LSt S} {t1 t2 : List (LEv S)} (h : LRun side s (t1 ++ t2) s'') : ∃ s', LRun side s t1 s' ∧ LRun side s' t2 s'' := by
  induction t2 using List.reverseRecOn generalizing s'' with
  | nil => exact ⟨s'', by simpa using h, .nil⟩
  | append_singleton t2 e ih =>
    rw [← List.append_assoc] at h
    generalize hh : t1 ++ t2 ++ [e] = t at h
    cases h with
    | nil => simp at hh
    | snoc hr hs =>
      obtain ⟨h1, h2⟩ := List.append_inj' hh rfl
      cases h2
      subst h1
      obtain ⟨s', k1, k2⟩ := ih hr
      exact ⟨s', k1, .snoc k2 hs⟩

theorem LRun.single {s s' : LSt S} {e : LEv S} (h : LRun side s [e] s') : LStep side s e s' := by
  generalize ht : [e] = t at h
  cases h with
  | nil => cases ht
  | snoc h5 hs =>
    rename_i tr e' s1
    have h6 : [] ++ [e] = tr ++ [e'] := ht
    obtain ⟨h7, h8⟩ := List.append_inj' h6 rfl
    cases h8
    subst h7
    generalize hn : ([] : List (LEv S)) = t at h5
    cases h5 with
    | nil => exact hs
    | snoc a b => simp at hn

/-- A goroutine stays where it writes until its write ends. -/
theorem atWrite_step {s s' : St S} {e : Ev S} {w : Writer} (h : Step side s e s') (hw : e.writer ≠ some w) (ha : AtWrite s w) : AtWrite s' w := by
  cases w with
  | loop =>
    obtain ⟨id, resp, err, ha⟩ := ha
    cases h <;> simp_all [AtWrite, Ev.writer, St.setReader, St.setPhase]
  | sender i =>
    obtain ⟨x, ha, hp⟩ := ha
    cases h <;> simp only [AtWrite, Ev.writer, St.setReader, St.setPhase, List.getElem?_append, List.getElem?_set] at * <;> grind
  | reader k =>
    obtain ⟨id, c, ha⟩ := ha
    cases h <;> simp only [AtWrite, Ev.writer, St.setReader, St.setPhase, List.getElem?_append, List.getElem?_set] at * <;> grind

theorem lock_atWrite {s : LSt S} {tr : List (LEv S)} {w : Writer} (h : LExec side tr s) (hl : s.lock = some w) : AtWrite s.conn w := by
  induction h generalizing w with
  | nil => cases hl
  | snoc h1 hs ih =>
    cases hs with
    | lock _ _ ha => cases hl; exact ha
    | write _ _ _ => cases hl
    | other k1 k2 => exact atWrite_step k2 (by rw [k1]; simp) (ih hl)

theorem underWay_lock {s : LSt S} {tr : List (LEv S)} {w : Writer} (h : LExec side tr s) (hu : UnderWay tr w) : s.lock = some w := by
  obtain ⟨a, b, rfl, hb⟩ := hu
  rw [show a ++ LEv.lock w :: b = (a ++ [.lock w]) ++ b by simp] at h
  obtain ⟨s1, h1, h2⟩ := h.split
  obtain ⟨s0, h3, h4⟩ := h1.split
  have : s1.lock = some w := by
    cases h4.single
    rfl
  exact (lock_kept h2 this hb).1

/-- A `Send` that has returned an answer or has timed out, or is in the course of that, has been written. -/
theorem written_of_phase {tr : List (Ev S)} {s : St S} (h : Exec side tr s) {i : Nat} {x : Sender S} (hx : s.senders[i]? = some x)
    (hw : ∀ w, Ev.writeCall i w ∉ tr) : x.phase = .fresh ∨ x.phase = .half ∨ x.phase = .registered ∨ x.phase = .done .encodeErr := by
  induction h generalizing x with
  | nil => simp [init] at hx
  | snoc h1 hs ih =>
    rename_i tr0 e s1 s2
    have ih' := fun (y : Sender S) (hy : s1.senders[i]? = some y) => ih hy (fun w hm => hw w (by simp [hm]))
    have hwe : ∀ w, e ≠ .writeCall i w := fun w he => hw w (by simp [he])
    cases hs <;> simp only [St.setReader, St.setPhase, List.getElem?_append, List.getElem?_set] at hx <;> grind

/-- **C89** While a write is under way and does not end, whatever else happens: no write ends at all, neither of a `Send`, nor of a reply, nor
of a refusal. -/
theorem C89_noWrite {tr t : List (LEv S)} {s s' : LSt S} (h : LExec side tr s) {w : Writer} (hu : UnderWay tr w) (hr : LRun side s t s') (hn : NotEnding w t) :
    ∀ e, LEv.ev e ∈ t → e.writer = none :=
  (lock_kept hr (underWay_lock h hu) hn).2

/-- **C89** No `Send` whose request has not yet been written returns (unless it cannot be encoded), however long it has waited: the timeout
does not apply to it.  That includes every `Send` made from then on, and the one that is writing. -/
theorem C89_noReturn {tr t : List (LEv S)} {s s' : LSt S} (h : LExec side tr s) {w : Writer} (hu : UnderWay tr w) (hr : LRun side s t s') (hn : NotEnding w t)
    {i : Nat} (hi : ∀ o, LEv.ev (Ev.writeCall i o) ∉ tr) : ∀ e, LEv.ev e ∈ t → e.returns i = false := by
  have hlk := underWay_lock h hu
  have hw := (lock_kept hr hlk hn).2
  intro e he
  obtain ⟨t1, t2, rfl⟩ := List.append_of_mem he
  rw [show t1 ++ LEv.ev e :: t2 = (t1 ++ [.ev e]) ++ t2 by simp] at hr
  obtain ⟨s2, h2, -⟩ := hr.split
  obtain ⟨s1, h1, h3⟩ := h2.split
  have hx : Exec side (evs (tr ++ t1)) s1.conn := (h.append h1).run
  have hno : ∀ o, Ev.writeCall i o ∉ evs (tr ++ t1) := by
    intro o hm
    obtain ⟨e', hm', he'⟩ := List.mem_filterMap.1 hm
    cases e' with
    | lock w => cases he'
    | ev e' =>
      cases he'
      rcases List.mem_append.1 hm' with hm' | hm'
      · exact hi o hm'
      · have := hw _ (List.mem_append_left _ hm')
        cases this
  have hst : Step side s1.conn e s2.conn := by
    cases h3.single with
    | write _ _ h => exact h
    | other _ h => exact h
  have key := fun (x : Sender S) (hx' : s1.conn.senders[i]? = some x) => written_of_phase hx hx' hno
  have hwn := hw e he
  generalize s1.conn = c1 at hst key
  generalize s2.conn = c2 at hst
  clear hx h1 h2 h3
  cases hst <;> simp only [Ev.returns, Ev.writer, reduceCtorEq] at * <;> grind

/-- The loop is not in its select. -/
def Busy : Loop S → Prop
  | .handling _ _ => True
  | .answering _ _ _ => True
  | .exited => True
  | _ => False

/-- Handler calls. -/
def Ev.calls : Ev S → Bool
  | .take _ _ _ (some _) => true
  | _ => false

theorem busy_step {s s' : St S} {e : Ev S} (h : Step side s e s') (hw : e.writer = none) :
    (Busy s.loop → Busy s'.loop ∧ e.calls = false) ∧ (e.calls = true → Busy s'.loop) := by
  cases h with
  | take h0 h1 h2 =>
    obtain ⟨k', h1⟩ := h1
    refine ⟨fun hb => by rw [h1] at hb; exact hb.elim, ?_⟩
    unfold afterTake
    simp only [St.setReader]
    split
    · exact fun _ => trivial
    · cases side
      · intro hc; cases hc
      · exact fun _ => trivial
  | _ =>
    simp only [Ev.writer, reduceCtorEq] at hw
    all_goals simp_all [Busy, Ev.calls, St.setReader, St.setPhase]

theorem busy_run {s s' : St S} {t : List (Ev S)} (h : Run side s t s') (hw : ∀ e ∈ t, e.writer = none) :
    (Busy s.loop → Busy s'.loop ∧ t.countP Ev.calls = 0) ∧ (t.countP Ev.calls = 0 ∨ t.countP Ev.calls = 1 ∧ Busy s'.loop) := by
  induction h with
  | nil => exact ⟨fun h => ⟨h, rfl⟩, .inl rfl⟩
  | snoc h1 hs ih =>
    rename_i tr e s1 s2
    obtain ⟨k1, k2⟩ := ih fun e he => hw e (by simp [he])
    obtain ⟨j1, j2⟩ := busy_step hs (hw e (by simp))
    have hc : ∀ b, e.calls = b → (tr ++ [e]).countP Ev.calls = tr.countP Ev.calls + (if b then 1 else 0) := by
      rintro b rfl
      rw [List.countP_append]; congr 1
      cases he : e.calls <;> simp [he]
    cases he : e.calls with
    | false =>
      rw [hc _ he]
      simp only [Bool.false_eq_true, if_false, Nat.add_zero]
      exact ⟨fun h => ⟨(j1 (k1 h).1).1, (k1 h).2⟩, k2.imp_right fun h => ⟨h.1, (j1 h.2).1⟩⟩
    | true =>
      rw [hc _ he]
      have hb := j2 he
      refine ⟨fun h => ?_, .inr ⟨?_, hb⟩⟩
      · have := (j1 (k1 h).1).2
        rw [he] at this
        cases this
      · rcases k2 with k2 | k2
        · rw [k2]; rfl
        · have := (j1 k2.2).2
          rw [he] at this
          cases this

theorem evs_mem {t : List (LEv S)} {e : Ev S} : e ∈ evs t ↔ LEv.ev e ∈ t := by
  unfold evs
  rw [List.mem_filterMap]
  constructor
  · rintro ⟨e', h1, h2⟩
    cases e' with
    | lock w => cases h2
    | ev e' => cases h2; exact h1
  · exact fun h => ⟨_, h, rfl⟩

/-- **C89** At most one more request is given to the handler while the write does not end. -/
theorem C89_oneMore {tr t : List (LEv S)} {s s' : LSt S} (h : LExec side tr s) {w : Writer} (hu : UnderWay tr w) (hr : LRun side s t s') (hn : NotEnding w t) :
    (handlerCalls (evs t)).length ≤ 1 := by
  have hw := (lock_kept hr (underWay_lock h hu) hn).2
  have := (busy_run hr.run fun e he => hw e (evs_mem.1 he)).2
  have e : (handlerCalls (evs t)).length = (evs t).countP Ev.calls := by
    generalize evs t = l
    induction l with
    | nil => rfl
    | cons e l ih =>
      unfold handlerCalls at *
      rw [List.filterMap_cons, List.countP_cons]
      cases e with
      | take k id r arg => cases arg <;> simp [Ev.calls, ih]
      | _ => simpa [Ev.calls] using ih
  rw [e]
  rcases this with h | h <;> omega

theorem answering_run {s s' : St S} {t : List (Ev S)} (hi : Inv s) (h : Run side s t s') (hw : ∀ e ∈ t, e.writer = none)
    (hl : ∃ id resp err, s.loop = .answering id resp err) :
    (∃ id resp err, s'.loop = .answering id resp err) ∧ Inv s' ∧
      ∀ e ∈ t, (∀ k f, e ≠ .read k f) ∧ (∀ k, e ≠ .dispatch k) ∧ (∀ k i, e ≠ .deliver k i) ∧ (∀ k id r a, e ≠ .take k id r a) ∧ e ≠ .ctxDone ∧ e ≠ .seeClosed := by
  induction h with
  | nil => exact ⟨hl, hi, by simp⟩
  | snoc h1 hs ih =>
    rename_i tr e s1 s2
    obtain ⟨⟨id, resp, err, k1⟩, k2, k3⟩ := ih fun e he => hw e (by simp [he])
    have hwe := hw e (by simp)
    have hna : ∀ (k : Nat) (p : Reader S), s1.readers[k]? = some p → p.active = false := by
      intro k p hp
      by_contra hc
      have := (k2.act k p hp (by simpa using hc)).2
      rw [k1] at this
      rcases this with h | h <;> cases h
    have hnew : (∃ id resp err, s2.loop = .answering id resp err) ∧
        ((∀ k f, e ≠ .read k f) ∧ (∀ k, e ≠ .dispatch k) ∧ (∀ k i, e ≠ .deliver k i) ∧ (∀ k id r a, e ≠ .take k id r a) ∧ e ≠ .ctxDone ∧ e ≠ .seeClosed) := by
      clear ih k3 h1 hl hw
      cases hs <;> simp only [Ev.writer, reduceCtorEq] at hwe <;> simp_all [St.setReader, St.setPhase] <;>
        first
          | (rename_i h; exact absurd (hna _ _ h) (by simp [Reader.active]))
          | (rename_i h _; exact absurd (hna _ _ h) (by simp [Reader.active]))
          | (rename_i h _ _; exact absurd (hna _ _ h) (by simp [Reader.active]))
    refine ⟨hnew.1, inv_step k2 hs, fun e' he' => ?_⟩
    rcases List.mem_append.1 he' with he' | he'
    · exact k3 e' he'
    · rw [List.mem_singleton.1 he']; exact hnew.2

/-- **C89** If it is a reply that does not get through, then nothing is read, no request is handled and no `Send` is answered, and neither
the end of the charge point's context nor a close is noticed. -/
theorem C89_reply {tr t : List (LEv S)} {s s' : LSt S} (h : LExec side tr s) (hu : UnderWay tr .loop) (hr : LRun side s t s') (hn : NotEnding .loop t) :
    ∀ e, LEv.ev e ∈ t → (∀ k f, e ≠ .read k f) ∧ (∀ k, e ≠ .dispatch k) ∧ (∀ k i, e ≠ .deliver k i) ∧ (∀ k id r a, e ≠ .take k id r a) ∧
      e ≠ .ctxDone ∧ e ≠ .seeClosed := by
  have hlk := underWay_lock h hu
  have hw := (lock_kept hr hlk hn).2
  have hat : ∃ id resp err, s.conn.loop = .answering id resp err := lock_atWrite h hlk
  intro e he
  exact (answering_run (Exec.inv h.run) hr.run (fun e he => hw e (evs_mem.1 he)) hat).2.2 e (evs_mem.2 he)

end Verif.Conn
