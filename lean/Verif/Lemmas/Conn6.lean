import Verif.Lemmas.Conn5
/-! Refusals of calls, and the ways in which the process can crash. -/
namespace Verif.Conn
variable {S : Sem} {side : Side}

/-- The refusal a reader has in hand. -/
def Reader.refusing? : Reader S → List (String × String)
  | .got f => (refusedIn f).toList
  | .refusing id c => [(id, c)]
  | _ => []

theorem Reader.refusing_of_inactive {p : Reader S} (h : p.active = false) : p.refusing? = [] := by
  cases p <;> simp_all [Reader.active, Reader.refusing?]

theorem flatMap_refusing_nil {l : List (Reader S)} (h : ∀ q ∈ l, q.active = false) :
    l.flatMap Reader.refusing? = [] := by
  induction l with
  | nil => rfl
  | cons a l ih => simp_all [Reader.refusing_of_inactive]

theorem flatMap_set_refusing {s : St S} (h : Inv s) {k : Nat} {p q : Reader S}
    (hk : s.readers[k]? = some p) (ha : p.active = true) :
    (s.readers.set k q).flatMap Reader.refusing? = q.refusing? ∧
    s.readers.flatMap Reader.refusing? = p.refusing? := by
  obtain ⟨l, hl, hlen, hq⟩ := h.split hk ha
  subst hlen
  rw [hl]
  simp [flatMap_refusing_nil hq]

theorem flatMap_set_refusing_inactive {l : List (Reader S)} {k : Nat} {p q : Reader S}
    (hk : l[k]? = some p) (ha : p.refusing? = []) (hb : q.refusing? = []) :
    (l.set k q).flatMap Reader.refusing? = l.flatMap Reader.refusing? := by
  induction l generalizing k with
  | nil => simp
  | cons a l ih =>
    cases k with
    | zero => simp_all
    | succ k => simp_all

theorem afterRead_refusing {s : St S} {f : S.Frame} {p : Reader S} (h : afterRead s f = some p) :
    p.refusing? = (refusedIn f).toList := by
  unfold afterRead at h
  unfold refusedIn
  repeat' split at h
  all_goals simp_all [Reader.refusing?]
  all_goals subst h; rfl

/-- Every bad call read so far has been refused, except one that a reader has in hand. -/
theorem Exec.refused {s : St S} {tr : List (Ev S)} (hr : Exec side tr s) :
    (framesRead tr).filterMap refusedIn = refusals tr ++ s.readers.flatMap Reader.refusing? := by
  induction hr with
  | nil => simp [framesRead, refusals, init]
  | @snoc tr e s s' hr hs ih =>
    have hi := Exec.inv hr
    cases hs
    case read k f hc hk =>
      obtain ⟨h1, h2⟩ := flatMap_set_refusing hi (q := .got f) hk rfl
      rw [h2] at ih
      simp only [framesRead, refusals, List.filterMap_append, St.setReader, h1] at ih ⊢
      rw [ih]
      cases h : refusedIn f <;> simp [Reader.refusing?, h]
    case dispatch k f p hc hk hp =>
      obtain ⟨h1, h2⟩ := flatMap_set_refusing hi (q := p) hk rfl
      rw [h2] at ih
      simp only [framesRead, refusals, List.filterMap_append, St.setReader, h1] at ih ⊢
      rw [ih, afterRead_refusing hp]
      simp [Reader.refusing?]
    case refuse k id c ok hc hk _ =>
      have := flatMap_set_refusing hi (q := .offer (if ok = true then .nil else .err)) hk rfl
      simp_all [framesRead, refusals, St.setReader, Reader.refusing?]
    case take k id r hc hl hk =>
      have := flatMap_set_refusing hi (q := .offer .nil) hk rfl
      simp_all [framesRead, refusals, St.setReader, Reader.refusing?]
    case deliver k i a x hc hk _ _ =>
      have := flatMap_set_refusing hi (q := .offer .nil) hk rfl
      simp_all [framesRead, refusals, St.setReader, Reader.refusing?, St.setPhase]
    case readErr k e hc hk _ =>
      have := flatMap_set_refusing hi (q := .offer e) hk rfl
      simp_all [framesRead, refusals, St.setReader, Reader.refusing?]
    case result k e hc hl hk =>
      have := flatMap_set_refusing_inactive hk (q := .gone) rfl rfl
      simp_all [framesRead, refusals, St.setReader]
    all_goals simp_all [framesRead, refusals, St.setPhase, Reader.refusing?]

theorem refusing_length {s : St S} (h : Inv s) : (s.readers.flatMap Reader.refusing?).length ≤ 1 := by
  by_cases hx : ∃ (k : Nat) (p : Reader S), s.readers[k]? = some p ∧ p.active = true
  · obtain ⟨k, p, hk, hp⟩ := hx
    rw [(flatMap_set_refusing h (q := p) hk hp).2]
    cases p <;> simp [Reader.refusing?]
  · rw [flatMap_refusing_nil]
    · simp
    · intro q hq
      obtain ⟨j, hj, rfl⟩ := List.getElem_of_mem hq
      by_contra hc
      exact hx ⟨j, _, List.getElem?_eq_getElem hj, by simpa using hc⟩

/-- The reasons for which an event can crash the process. -/
inductive CrashBy (side : Side) (tr : List (Ev S)) : Ev S → Prop where
  /-- a text that panics, or is turned into a nil message -/
  | text {k f} : Ev.read k f ∈ tr → (S.read f).isPanic = true ∨ S.read f = .ok none → CrashBy side tr (.dispatch k)
  /-- an answer to a registered call that panics -/
  | result {k f id p i r} : Ev.read k f ∈ tr → S.read f = .ok (some (.result id p)) →
      Ev.send i id r ∈ tr → Ev.regSent i ∈ tr → (∀ a, Ev.finish i a ∉ tr) → (S.toResponse (S.action r) p).isPanic = true → CrashBy side tr (.dispatch k)
  /-- a request that panics when it is encoded -/
  | send {i id r} : (S.encCall id r).isPanic = true → CrashBy side tr (.send i id r)
  /-- a charge point's handler that panics -/
  | handler {id} : side = .cp → id ∈ (handlerCalls tr).map (·.1) → CrashBy side tr (.handlerPanic id)
  /-- a charge point handler's response that panics when it is encoded -/
  | answer {id resp err} : side = .cp → Ev.handlerRet id resp err ∈ tr → (S.encReply id resp err).isPanic = true →
      CrashBy side tr (.answer id resp err none)

theorem Exec.answering_ret {s : St S} {tr : List (Ev S)} (hr : Exec side tr s) {id : String} {resp : Option S.Resp}
    {err : Option String} (h : s.loop = .answering id resp err) : Ev.handlerRet id resp err ∈ tr := by
  have h1 := (Exec.handler hr).2
  rw [h, replying_answering] at h1
  have : (id, resp, err) ∈ handlerRets tr := by rw [h1]; simp
  simp only [handlerRets, List.mem_filterMap] at this
  obtain ⟨e, he, hx⟩ := this
  cases e <;> simp at hx
  obtain ⟨rfl, rfl, rfl⟩ := hx
  exact he

theorem Exec.got_read {s : St S} {tr : List (Ev S)} (hr : Exec side tr s) {k : Nat} {f : S.Frame}
    (h : s.readers[k]? = some (.got f)) : Ev.read k f ∈ tr := by
  have := (Exec.pinv hr).got k f h
  simpa using this

/-- The process is crashed only right after an event that crashes it. -/
theorem Exec.crash {s : St S} {tr : List (Ev S)} (hr : Exec side tr s) (hc : s.crashed = true) :
    ∃ tr' e, tr = tr' ++ [e] ∧ CrashBy side tr' e := by
  cases hr with
  | nil => simp [init] at hc
  | @snoc tr e s s' hr hs =>
    refine ⟨tr, e, rfl, ?_⟩
    cases hs
    case dispatchPanic k f h1 h2 h3 =>
      have hread := Exec.got_read hr h2
      unfold afterRead at h3
      repeat' split at h3
      all_goals simp at h3
      · exact .text hread (.inl (by simp [GoRes.isPanic, *]))
      · exact .text hread (.inr ‹_›)
      · rename_i id p heq _ a ha _ _ hp
        obtain ⟨i, x, hx, h4, h5, h6⟩ := ((Exec.minv hr).sent id a).1 ha
        have := (Exec.sends hr i x hx).1
        subst h4 h5
        refine .result hread heq (by simpa using this) ?_ ?_ (by simp [GoRes.isPanic, hp])
        · rw [Exec.regSent_iff hr i]
          simp only [St.ph, hx]
          revert h6
          rcases x.phase with _ | _ | _ | _ | _ | (_ | _ | _ | _) <;> simp [Phase.inSent, Phase.registeredSent]
        · intro a ha'
          have h7 := (Exec.finish_iff hr i).1 ⟨a, ha'⟩
          simp only [St.ph, hx] at h7
          revert h6 h7
          rcases x.phase with _ | _ | _ | _ | _ | (_ | _ | _ | _) <;> simp [Phase.inSent, Phase.cleaned]
    case sendPanic id r m h1 h2 h3 => exact .send (by simp [GoRes.isPanic, h3])
    case answerPanicCp id resp err h1 hs h2 h3 => exact .answer hs (Exec.answering_ret hr h2) h3
    case handlerPanicCp id r h1 hs h2 =>
      refine .handler hs ?_
      obtain ⟨⟨c, p, h3, -⟩, -⟩ := Exec.handler hr
      rw [h3, h2]; simp
    all_goals simp_all [St.setReader, St.setPhase]

end Verif.Conn
