import Verif.Lemmas.Conn4
set_option linter.unusedSimpArgs false
namespace Verif.Conn
variable {S : Sem} {side : Side}

theorem step_not_crashed {s s' : St S} {e : Ev S} (hs : Step side s e s') : s.crashed = false := by
  cases hs <;> assumption

/-! ### Registration and clean-up in terms of the trace -/

theorem Exec.sender_of_send {s : St S} {tr : List (Ev S)} (hr : Exec side tr s) :
    ∀ (i : Nat) id r, Ev.send i id r ∈ tr →
      (∃ x, s.senders[i]? = some x ∧ x.id = id ∧ x.req = r) ∨
      (s.crashed = true ∧ i = s.senders.length) := by
  induction hr with
  | nil => simp
  | @snoc tr e s s' hr hs ih =>
    intro i id r hm
    rw [List.mem_append, List.mem_singleton] at hm
    rcases hm with hm | hm
    · rcases ih i id r hm with ⟨x, hx, h1, h2⟩ | ⟨hc, _⟩
      · obtain ⟨y, hy, h3, h4⟩ := senders_step hs hx
        exact .inl ⟨y, hy, h3.trans h1, h4.trans h2⟩
      · rw [step_not_crashed hs] at hc; simp at hc
    · subst hm
      cases hs <;> simp

/-- Registered according to the phase. -/
def Phase.registeredSent : Phase S → Bool
  | .fresh => false
  | .done .encodeErr => false
  | _ => true

/-- Registered in both maps according to the phase. -/
def Phase.registeredChan : Phase S → Bool
  | .fresh => false
  | .half => false
  | .done .encodeErr => false
  | _ => true

/-- Cleaned up according to the phase. -/
def Phase.cleaned : Phase S → Bool
  | .done (.answered _) => true
  | _ => false

/-- `q` holds of sender `i`'s phase. -/
def St.ph (s : St S) (q : Phase S → Bool) (i : Nat) : Bool :=
  match s.senders[i]? with
  | some x => q x.phase
  | none => false

theorem Exec.regSent_iff {s : St S} {tr : List (Ev S)} (hr : Exec side tr s) (i : Nat) :
    (Ev.regSent i ∈ tr ↔ s.ph Phase.registeredSent i = true) := by
  induction hr with
  | nil => simp [init, St.ph]
  | @snoc tr e s s' hr hs ih =>
    rw [List.mem_append, List.mem_singleton, ih]
    have hlt : ∀ (k : Nat) (x : Sender S), s.senders[k]? = some x → k < s.senders.length :=
      fun k p h => (List.getElem?_eq_some_iff.1 h).1
    cases hs <;>
    simp only [St.setReader, St.setPhase, List.getElem?_set, List.getElem?_append, St.ph] at * <;>
    grind [Phase.registeredSent]

theorem Exec.regChan_iff {s : St S} {tr : List (Ev S)} (hr : Exec side tr s) (i : Nat) :
    (Ev.regChan i ∈ tr ↔ s.ph Phase.registeredChan i = true) := by
  induction hr with
  | nil => simp [init, St.ph]
  | @snoc tr e s s' hr hs ih =>
    rw [List.mem_append, List.mem_singleton, ih]
    have hlt : ∀ (k : Nat) (x : Sender S), s.senders[k]? = some x → k < s.senders.length :=
      fun k p h => (List.getElem?_eq_some_iff.1 h).1
    cases hs <;>
    simp only [St.setReader, St.setPhase, List.getElem?_set, List.getElem?_append, St.ph] at * <;>
    grind [Phase.registeredChan]

theorem Exec.finish_iff {s : St S} {tr : List (Ev S)} (hr : Exec side tr s) (i : Nat) :
    ((∃ a, Ev.finish i a ∈ tr) ↔ s.ph Phase.cleaned i = true) := by
  induction hr with
  | nil => simp [init, St.ph]
  | @snoc tr e s s' hr hs ih =>
    simp only [List.mem_append, List.mem_singleton, exists_or]
    rw [ih]
    have hlt : ∀ (k : Nat) (x : Sender S), s.senders[k]? = some x → k < s.senders.length :=
      fun k p h => (List.getElem?_eq_some_iff.1 h).1
    have fin : ∀ j a, (∃ x, Ev.finish i x = Ev.finish (S := S) j a) ↔ i = j := by
      intro j a
      simp
    cases hs <;>
    simp only [St.setReader, St.setPhase, List.getElem?_set, List.getElem?_append, St.ph, fin] at * <;>
    grind [Phase.cleaned]

theorem Exec.timeout_done {s : St S} {tr : List (Ev S)} (hr : Exec side tr s) (i : Nat)
    (h : Ev.timeout i ∈ tr) : ∃ x, s.senders[i]? = some x ∧ x.phase = .done .timeout := by
  induction hr with
  | nil => simp at h
  | @snoc tr e s s' hr hs ih =>
    rw [List.mem_append, List.mem_singleton] at h
    have hlt : ∀ (k : Nat) (x : Sender S), s.senders[k]? = some x → k < s.senders.length :=
      fun k p h => (List.getElem?_eq_some_iff.1 h).1
    rcases h with h | h
    · obtain ⟨x, hx, hp⟩ := ih h
      clear ih h hr
      cases hs <;>
      simp only [St.setReader, St.setPhase, List.getElem?_set, List.getElem?_append] at * <;>
      grind
    · subst h
      cases hs with
      | timeout hc hx hp =>
        have := hlt _ _ hx
        simp [St.setPhase, this]

/-- The loop has left only if the connection is closed or the process is dead. -/
theorem Exec.exited {s : St S} {tr : List (Ev S)} (hr : Exec side tr s) (h : s.loop = .exited) :
    s.closed = true ∨ s.crashed = true := by
  induction hr with
  | nil => simp [init] at h
  | @snoc tr e s s' hr hs ih =>
    have hac : ∀ e', afterResult (S := S) side e' = .exited → side = .cs ∧ e' = .closeErr := by
      intro e'; unfold afterResult; split <;> simp_all
    cases hs <;> simp_all [St.setReader, St.setPhase]
    rename_i e' _ _ _
    exact .inr (hac e' h)

/-! ### A response nobody waits for -/

/-- The newest reader is blocked on the channel of a call that has returned. -/
def Wedged (s : St S) (k : Nat) : Prop :=
  Inv s ∧ s.loop = .sel k ∧ s.closed = false ∧
  ∃ i a x o, s.readers[k]? = some (.toSender (some i) a) ∧ s.senders[i]? = some x ∧
    x.phase = .done o

theorem wedged_step {s s' : St S} {e : Ev S} {k : Nat} (h : Wedged s k) (hs : Step side s e s')
    (he : e.isClose = false) :
    Wedged s' k ∧ (∀ j f, e ≠ .read j f) ∧ (∀ j x, e ≠ .readErr j x) ∧ (∀ j id r a, e ≠ .take j id r a) ∧
      (∀ j i, e ≠ .deliver j i) := by
  obtain ⟨hi, hl, hcl, i, a, x, o, hk, hx, hp⟩ := h
  have hact := hi.act
  have hlt : i < s.senders.length := (List.getElem?_eq_some_iff.1 hx).1
  have hklt : k < s.readers.length := (List.getElem?_eq_some_iff.1 hk).1
  have hone : ∀ (j : Nat) (p : Reader S), s.readers[j]? = some p → p.active = true →
      p = .toSender (some i) a := by
    intro j p hj hpa
    have h1 := (hact j p hj hpa).1
    have h2 := (hact k _ hk rfl).1
    have : j = k := by omega
    subst this; rw [hk] at hj; simpa using hj.symm
  have hi' := inv_step hi hs
  have mk : s'.loop = .sel k → s'.closed = false → s'.readers[k]? = some (.toSender (some i) a) →
      s'.senders[i]? = some x → Wedged s' k :=
    fun h1 h2 h3 h4 => ⟨hi', h1, h2, i, a, x, o, h3, h4, hp⟩
  have other : ∀ (j : Nat) (y : Sender S) (q : Phase S), s.senders[j]? = some y →
      (∀ o, y.phase ≠ .done o) → (s.senders.set j { y with phase := q })[i]? = some x := by
    intro j y q hy hne
    rw [List.getElem?_set]
    have : j ≠ i := by
      rintro rfl; rw [hx] at hy; cases hy; exact hne o hp
    simp [this, hx]
  cases hs
  case spawn _ h => rw [hl] at h; simp at h
  case read h => exact absurd (hone _ _ h rfl) (by simp)
  case readErr h _ => exact absurd (hone _ _ h rfl) (by simp)
  case dispatch h _ => exact absurd (hone _ _ h rfl) (by simp)
  case dispatchPanic h _ => exact absurd (hone _ _ h rfl) (by simp)
  case refuse h _ => exact absurd (hone _ _ h rfl) (by simp)
  case take h => exact absurd (hone _ _ h rfl) (by simp)
  case handlerRet _ h => rw [hl] at h; simp at h
  case answerOk h _ _ => rw [hl] at h; simp at h
  case answerFail h _ => rw [hl] at h; simp at h
  case answerPanicCs _ h _ => rw [hl] at h; simp at h
  case answerPanicCp _ h _ => rw [hl] at h; simp at h
  case handlerPanicCs _ h => rw [hl] at h; simp at h
  case handlerPanicCp _ h => rw [hl] at h; simp at h
  case result hl' hj =>
    rw [hl] at hl'; simp at hl'; subst hl'; rw [hk] at hj; simp at hj
  case seeClosed h => rw [hcl] at h; simp at h
  case ctxDone => simp [Ev.isClose] at he
  case close => simp [Ev.isClose] at he
  case deliver hj hy hyp =>
    have := hone _ _ hj rfl
    simp at this
    obtain ⟨rfl, rfl⟩ := this
    rw [hx] at hy; cases hy; rw [hp] at hyp; simp at hyp
  case send => exact ⟨mk hl hcl hk (by rw [List.getElem?_append_left hlt]; exact hx), by simp⟩
  case sendErr => exact ⟨mk hl hcl hk (by rw [List.getElem?_append_left hlt]; exact hx), by simp⟩
  case sendPanic => exact ⟨mk hl hcl hk hx, by simp⟩
  case regSent hy hyp => exact ⟨mk hl hcl hk (other _ _ _ hy (by simp [hyp])), by simp⟩
  case regChan hy hyp => exact ⟨mk hl hcl hk (other _ _ _ hy (by simp [hyp])), by simp⟩
  case writeOk hy hyp _ _ => exact ⟨mk hl hcl hk (other _ _ _ hy (by simp [hyp])), by simp⟩
  case writeFail hy hyp => exact ⟨mk hl hcl hk (other _ _ _ hy (by simp [hyp])), by simp⟩
  case finish hy hyp => exact ⟨mk hl hcl hk (other _ _ _ hy (by simp [hyp])), by simp⟩
  case timeout hy hyp => exact ⟨mk hl hcl hk (other _ _ _ hy (by simp [hyp])), by simp⟩

theorem Run.wedged {s s' : St S} {tr : List (Ev S)} {k : Nat} (h : Wedged s k)
    (hr : Run side s tr s') (hc : ∀ e ∈ tr, e.isClose = false) :
    Wedged s' k ∧ ∀ e ∈ tr, (∀ j f, e ≠ .read j f) ∧ (∀ j x, e ≠ .readErr j x) ∧
      (∀ j id r a, e ≠ .take j id r a) ∧ (∀ j i, e ≠ .deliver j i) := by
  induction hr with
  | nil => exact ⟨h, by simp⟩
  | @snoc tr e s1 s2 hr hs ih =>
    obtain ⟨h1, h2⟩ := ih (fun e he => hc e (by simp [he]))
    obtain ⟨h3, h4⟩ := wedged_step h1 hs (hc e (by simp))
    refine ⟨h3, ?_⟩
    intro e' he'
    rw [List.mem_append, List.mem_singleton] at he'
    rcases he' with he' | rfl
    · exact h2 e' he'
    · exact h4

/-! ### While the handler runs -/

theorem Run.handling {s s' : St S} {tr : List (Ev S)} {id : String} {r : Option S.Req}
    (hi : Inv s) (hl : s.loop = .handling id r) (hr : Run side s tr s')
    (hh : ∀ id' x y, Ev.handlerRet id' x y ∉ tr) :
    ((s'.loop = .handling id r ∨ s'.loop = .exited) ∧ ∀ (k : Nat) p, s'.readers[k]? = some p → p.active = false) ∧
    ∀ e ∈ tr, (∀ k f, e ≠ .read k f) ∧ (∀ k, e ≠ .dispatch k) ∧ (∀ k i, e ≠ .deliver k i) := by
  induction hr with
  | nil =>
    refine ⟨⟨.inl hl, ?_⟩, by simp⟩
    intro k p hk
    by_contra hc
    have := hi.act k p hk (by simpa using hc)
    simp [hl] at this
  | @snoc tr e s1 s2 hr hs ih =>
    obtain ⟨⟨h1, hno⟩, h2⟩ := ih (fun a b c h => hh a b c (by simp [h]))
    have hne : ∀ a b c, e ≠ .handlerRet a b c := fun a b c h => hh a b c (by simp [h])
    clear hh ih
    refine ⟨⟨?_, ?_⟩, ?_⟩
    · cases hs
      case take h _ => obtain ⟨k', h⟩ := h; rcases h1 with h1 | h1 <;> rw [h1] at h <;> simp at h
      all_goals simp_all [St.setReader, St.setPhase]
    · cases hs
      case spawn _ h => rcases h1 with h1 | h1 <;> rw [h1] at h <;> simp at h
      case take h _ => obtain ⟨k', h⟩ := h; rcases h1 with h1 | h1 <;> rw [h1] at h <;> simp at h
      case result h _ => rcases h1 with h1 | h1 <;> rw [h1] at h <;> simp at h
      case read hk => exact absurd (hno _ _ hk) (by simp [Reader.active])
      case readErr hk _ => exact absurd (hno _ _ hk) (by simp [Reader.active])
      case dispatch hk _ => exact absurd (hno _ _ hk) (by simp [Reader.active])
      case refuse hk _ => exact absurd (hno _ _ hk) (by simp [Reader.active])
      case deliver hk _ _ => exact absurd (hno _ _ hk) (by simp [Reader.active])
      all_goals exact hno
    · intro e' he'
      rw [List.mem_append, List.mem_singleton] at he'
      rcases he' with he' | rfl
      · exact h2 e' he'
      · cases hs <;> simp
        case read hk => exact absurd (hno _ _ hk) (by simp [Reader.active])
        case dispatch hk _ => exact absurd (hno _ _ hk) (by simp [Reader.active])
        case dispatchPanic hk _ => exact absurd (hno _ _ hk) (by simp [Reader.active])
        case deliver hk _ _ => exact absurd (hno _ _ hk) (by simp [Reader.active])

/-! ### Closing -/

theorem closed_step {s s' : St S} {e : Ev S} (h : s.closed = true) (hs : Step side s e s') :
    s'.closed = true ∧ e.wrote = none := by
  cases hs <;> simp_all [St.setReader, St.setPhase, Ev.wrote]

end Verif.Conn
