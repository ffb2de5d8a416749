import Verif.Spec.Noise
import Verif.Lemmas.Conn
/-!
# Frames that are no messages can be left out of a history
-/
set_option linter.unusedSimpArgs false
namespace Verif.Conn
variable {S : Sem} {side : Side}

/-- The readers and the loop of the history without these frames, next to those of the history with them. -/
inductive Sim (s : St S) : List (Reader S) → Loop S → Prop where
  | empty : s.readers = [] → (∀ k, s.loop ≠ .sel k) → Sim s [] s.loop
  | sel {pre pre' x} : s.readers = pre ++ [x] → s.loop = .sel pre.length → Sim s (pre' ++ [x]) (.sel pre'.length)
  | same {pre pre' x} : s.readers = pre ++ [x] → (∀ k, s.loop ≠ .sel k) → Sim s (pre' ++ [x]) s.loop
  | noise {pre pre' x} : s.readers = pre ++ [x] → ((∃ f, x = .got f ∧ noMessage f = true) ∨ x = .offer .err) → s.loop = .sel pre.length →
      Sim s (pre' ++ [.reading]) (.sel pre'.length)
  | left {pre pre' x} : s.readers = pre ++ [x] → ((∃ f, x = .got f ∧ noMessage f = true) ∨ x = .offer .err) → s.loop = .exited →
      Sim s (pre' ++ [.reading]) .exited
  | done {pre pre'} : s.readers = pre ++ [.gone] → s.loop = .top → Sim s (pre' ++ [.reading]) (.sel pre'.length)

/-- `s` with other readers and another loop. -/
def St.other (s : St S) (r : List (Reader S)) (l : Loop S) : St S := { s with readers := r, loop := l }

/-- One step more or none. -/
def Follows (side : Side) (s : St S) (r : List (Reader S)) (l : Loop S) (e : Ev S) (s2 : St S) : Prop :=
  ∃ r2 l2, Sim s2 r2 l2 ∧
    ((e.visible = none ∧ (framesRead [e]).filter (fun f => !noMessage f) = [] ∧ s.other r l = s2.other r2 l2) ∨
     ∃ e', Step side (s.other r l) e' (s2.other r2 l2) ∧ e'.visible = e.visible ∧
       framesRead [e'] = (framesRead [e]).filter (fun f => !noMessage f))

theorem get_last {pre : List (Reader S)} {x y : Reader S} {k : Nat} (h : (pre ++ [x])[k]? = some y) (hk : k + 1 = (pre ++ [x]).length) :
    k = pre.length ∧ x = y := by
  have : k = pre.length := by simpa using hk
  subst this
  simpa using h

theorem set_last (pre : List (Reader S)) (x y : Reader S) : (pre ++ [x]).set pre.length y = pre ++ [y] := by
  simp

theorem Sim.congr {s s2 : St S} {r : List (Reader S)} {l : Loop S} (h1 : s2.readers = s.readers) (h2 : s2.loop = s.loop) (h : Sim s r l) : Sim s2 r l := by
  cases h with
  | empty a b => rw [← h2]; exact .empty (h1.trans a) (by rwa [h2])
  | sel a b => exact .sel (h1.trans a) (h2.trans b)
  | same a b => rw [← h2]; exact .same (h1.trans a) (by rwa [h2])
  | noise a b c => exact .noise (h1.trans a) b (h2.trans c)
  | left a b c => exact .left (h1.trans a) b (h2.trans c)
  | done a b => exact .done (h1.trans a) (h2.trans b)

/-- An active reader is the last one; it is the same on both sides, or has a frame that is no message. -/
theorem Sim.reader {s : St S} (hi : Inv s) {r : List (Reader S)} {l : Loop S} (h : Sim s r l) {k : Nat} {x : Reader S} (hk : s.readers[k]? = some x)
    (ha : x.active = true) :
    (∃ pre pre', s.readers = pre ++ [x] ∧ k = pre.length ∧ r = pre' ++ [x] ∧
      ((s.loop = .sel pre.length ∧ l = .sel pre'.length) ∨ (s.loop = .exited ∧ l = .exited))) ∨
    (∃ pre pre' f, x = .got f ∧ noMessage f = true ∧ s.readers = pre ++ [x] ∧ k = pre.length ∧ r = pre' ++ [.reading] ∧
      ((s.loop = .sel pre.length ∧ l = .sel pre'.length) ∨ (s.loop = .exited ∧ l = .exited))) := by
  obtain ⟨h1, h2⟩ := hi.act k x hk ha
  cases h with
  | empty a b => rw [a] at hk; simp at hk
  | sel a b =>
    rw [a] at hk h1
    obtain ⟨rfl, rfl⟩ := get_last hk h1
    exact .inl ⟨_, _, a, rfl, rfl, .inl ⟨b, rfl⟩⟩
  | same a b =>
    rw [a] at hk h1
    obtain ⟨rfl, rfl⟩ := get_last hk h1
    rcases h2 with h2 | h2
    · exact absurd h2 (b _)
    · exact .inl ⟨_, _, a, rfl, rfl, .inr ⟨h2, h2⟩⟩
  | noise a b c =>
    rw [a] at hk h1
    obtain ⟨rfl, rfl⟩ := get_last hk h1
    rcases b with ⟨f, rfl, hf⟩ | rfl
    · exact .inr ⟨_, _, f, rfl, hf, a, rfl, rfl, .inl ⟨c, rfl⟩⟩
    · cases ha
  | left a b c =>
    rw [a] at hk h1
    obtain ⟨rfl, rfl⟩ := get_last hk h1
    rcases b with ⟨f, rfl, hf⟩ | rfl
    · exact .inr ⟨_, _, f, rfl, hf, a, rfl, rfl, .inr ⟨c, rfl⟩⟩
    · cases ha
  | done a b =>
    rw [a] at hk h1
    obtain ⟨rfl, rfl⟩ := get_last hk h1
    cases ha

theorem Sim.put {s2 : St S} {pre pre' : List (Reader S)} {x : Reader S} {l : Loop S} (hr : s2.readers = pre ++ [x])
    (hl : (s2.loop = .sel pre.length ∧ l = .sel pre'.length) ∨ (s2.loop = .exited ∧ l = .exited)) : Sim s2 (pre' ++ [x]) l := by
  rcases hl with ⟨a, rfl⟩ | ⟨a, rfl⟩
  · exact .sel hr a
  · rw [← a]; exact .same hr (by rw [a]; intro k; simp)

/-- The loop is not in the select: it is the same on both sides. -/
theorem Sim.loop {s : St S} {r : List (Reader S)} {l : Loop S} (h : Sim s r l) (h1 : ∀ k, s.loop ≠ .sel k) (h2 : s.loop ≠ .top) (h3 : s.loop ≠ .exited) :
    l = s.loop ∧ ∀ s2 : St S, s2.readers = s.readers → (∀ k, s2.loop ≠ .sel k) → Sim s2 r s2.loop := by
  cases h with
  | empty a b => exact ⟨rfl, fun s2 hr hl => .empty (hr.trans a) hl⟩
  | sel a b => exact absurd b (h1 _)
  | same a b => exact ⟨rfl, fun s2 hr hl => .same (hr.trans a) hl⟩
  | noise a b c => exact absurd c (h1 _)
  | left a b c => exact absurd c h3
  | done a b => exact absurd b h2

theorem follow {s s2 : St S} {e : Ev S} (hi : Inv s) (hs : Step side s e s2) {r : List (Reader S)} {l : Loop S} (h : Sim s r l) : Follows side s r l e s2 := by
  cases hs with
  | spawn hc hl =>
    cases h with
    | empty a b =>
      refine ⟨[.reading], .sel 0, ?_, .inr ⟨.spawn 0, ?_, rfl, rfl⟩⟩
      · exact .sel (pre := []) (pre' := []) (by simp [a]) (by simp [a])
      · have := Step.spawn (side := side) (s := s.other [] s.loop) hc hl
        simpa [St.other, a] using this
    | sel a b => rw [hl] at b; cases b
    | @same pre pre' x a b =>
      refine ⟨pre' ++ [x] ++ [.reading], .sel (pre' ++ [x]).length, ?_, .inr ⟨.spawn (pre' ++ [x]).length, ?_, rfl, rfl⟩⟩
      · exact .sel (pre := pre ++ [x]) (by simp [a]) (by simp [a])
      · exact Step.spawn (side := side) (s := s.other (pre' ++ [x]) s.loop) hc hl
    | noise a b c => rw [hl] at c; cases c
    | left a b c => rw [hl] at c; cases c
    | @done pre pre' a b =>
      refine ⟨pre' ++ [.reading], .sel pre'.length, ?_, .inl ⟨rfl, rfl, rfl⟩⟩
      exact .sel (pre := pre ++ [.gone]) (by simp [a]) (by simp [a])
  | @read k f hc hk =>
    rcases h.reader hi hk rfl with ⟨pre, pre', hr, rfl, rfl, hl⟩ | ⟨_, _, _, hx, _⟩
    swap
    · cases hx
    cases hf : noMessage f with
    | true =>
      refine ⟨pre' ++ [.reading], l, ?_, .inl ⟨rfl, by simp [framesRead, hf], rfl⟩⟩
      rcases hl with ⟨a, rfl⟩ | ⟨a, rfl⟩
      · exact .noise (pre := pre) (x := .got f) (by simp [St.setReader, hr]) (.inl ⟨f, rfl, hf⟩) a
      · exact .left (pre := pre) (x := .got f) (by simp [St.setReader, hr]) (.inl ⟨f, rfl, hf⟩) a
    | false =>
      refine ⟨pre' ++ [.got f], l, ?_, .inr ⟨.read pre'.length f, ?_, rfl, by simp [framesRead, hf]⟩⟩
      · exact Sim.put (pre := pre) (by simp [St.setReader, hr]) hl
      · have := Step.read (side := side) (s := s.other (pre' ++ [.reading]) l) (k := pre'.length) (f := f) hc (by simp [St.other])
        simpa [St.other, St.setReader] using this
  | @readErr k x hc hk hx =>
    rcases h.reader hi hk rfl with ⟨pre, pre', hr, rfl, rfl, hl⟩ | ⟨_, _, _, hx, _⟩
    swap
    · cases hx
    refine ⟨pre' ++ [.offer x], l, ?_, .inr ⟨.readErr pre'.length x, ?_, rfl, rfl⟩⟩
    · exact Sim.put (pre := pre) (by simp [St.setReader, hr]) hl
    · have := Step.readErr (side := side) (s := s.other (pre' ++ [.reading]) l) (k := pre'.length) (e := x) hc (by simp [St.other]) hx
      simpa [St.other, St.setReader] using this
  | @dispatch k f p hc hk hp =>
    rcases h.reader hi hk rfl with ⟨pre, pre', hr, rfl, rfl, hl⟩ | ⟨pre, pre', f', hx, hf, hr, rfl, rfl, hl⟩
    · refine ⟨pre' ++ [p], l, ?_, .inr ⟨.dispatch pre'.length, ?_, rfl, rfl⟩⟩
      · exact Sim.put (pre := pre) (by simp [St.setReader, hr]) hl
      · have := Step.dispatch (side := side) (s := s.other (pre' ++ [.got f]) l) (k := pre'.length) (f := f) (p := p) hc (by simp [St.other]) hp
        simpa [St.other, St.setReader] using this
    · cases hx
      have : p = .offer .err := by
        unfold afterRead at hp
        unfold noMessage at hf
        cases he : S.read f with
        | err m => rw [he] at hp; exact (Option.some.inj hp).symm
        | ok m => rw [he] at hf; cases hf
        | panic m => rw [he] at hf; cases hf
      subst this
      refine ⟨pre' ++ [.reading], l, ?_, .inl ⟨rfl, rfl, rfl⟩⟩
      rcases hl with ⟨a, rfl⟩ | ⟨a, rfl⟩
      · exact .noise (pre := pre) (x := .offer .err) (by simp [St.setReader, hr]) (.inr rfl) a
      · exact .left (pre := pre) (x := .offer .err) (by simp [St.setReader, hr]) (.inr rfl) a
  | @dispatchPanic k f hc hk hp =>
    rcases h.reader hi hk rfl with ⟨pre, pre', hr, rfl, rfl, hl⟩ | ⟨pre, pre', f', hx, hf, hr, rfl, rfl, hl⟩
    · refine ⟨pre' ++ [.got f], l, ?_, .inr ⟨.dispatch pre'.length, ?_, rfl, rfl⟩⟩
      · exact Sim.put (pre := pre) hr hl
      · exact Step.dispatchPanic (side := side) (s := s.other (pre' ++ [.got f]) l) (k := pre'.length) (f := f) hc (by simp [St.other]) hp
    · cases hx
      exfalso
      unfold afterRead at hp
      unfold noMessage at hf
      cases he : S.read f with
      | err m => rw [he] at hp; cases hp
      | ok m => rw [he] at hf; cases hf
      | panic m => rw [he] at hf; cases hf
  | @refuse k id c ok hc hk ho =>
    rcases h.reader hi hk rfl with ⟨pre, pre', hr, rfl, rfl, hl⟩ | ⟨_, _, _, hx, _⟩
    swap
    · cases hx
    refine ⟨pre' ++ [.offer (if ok then .nil else .err)], l, ?_, .inr ⟨.refuse pre'.length id c ok, ?_, rfl, rfl⟩⟩
    · exact Sim.put (pre := pre) (by simp [St.setReader, hr]) hl
    · have := Step.refuse (side := side) (s := s.other (pre' ++ [.refusing id c]) l) (k := pre'.length) (id := id) (c := c) ok hc (by simp [St.other]) ho
      simpa [St.other, St.setReader] using this
  | @take k id q hc hl0 hk =>
    rcases h.reader hi hk rfl with ⟨pre, pre', hr, rfl, rfl, hl⟩ | ⟨_, _, _, hx, _⟩
    swap
    · cases hx
    obtain ⟨k', hk'⟩ := hl0
    have hl' : l = .sel pre'.length := by
      rcases hl with ⟨_, h⟩ | ⟨h, _⟩
      · exact h
      · rw [hk'] at h; cases h
    refine ⟨pre' ++ [.offer .nil], afterTake side id q, ?_, .inr ⟨.take pre'.length id q (afterTake side id q).callArg, ?_, rfl, rfl⟩⟩
    · refine .same (s := { s.setReader pre.length (.offer .nil) with loop := afterTake side id q }) (pre := pre) (by simp [St.setReader, hr]) ?_
      intro k
      show afterTake side id q ≠ _
      unfold afterTake
      split
      · simp
      · cases side <;> simp
    · have := Step.take (side := side) (s := s.other (pre' ++ [.toLoop id q]) l) (k := pre'.length) (id := id) (r := q) hc ⟨_, hl'⟩ (by simp [St.other])
      simpa [St.other, St.setReader] using this
  | @handlerRet id q resp err hc hl =>
    obtain ⟨rfl, h2⟩ := h.loop (by rw [hl]; simp) (by rw [hl]; simp) (by rw [hl]; simp)
    exact ⟨r, _, h2 { s with loop := .answering id resp err } rfl (by simp),
      .inr ⟨_, Step.handlerRet (side := side) (s := s.other r s.loop) resp err hc hl, rfl, rfl⟩⟩
  | @answerOk id resp err f hc hl he hcl =>
    obtain ⟨rfl, h2⟩ := h.loop (by rw [hl]; simp) (by rw [hl]; simp) (by rw [hl]; simp)
    exact ⟨r, _, h2 { s with loop := .top } rfl (by simp),
      .inr ⟨_, Step.answerOk (side := side) (s := s.other r s.loop) hc hl he hcl, rfl, rfl⟩⟩
  | @answerFail id resp err hc hl he =>
    obtain ⟨rfl, h2⟩ := h.loop (by rw [hl]; simp) (by rw [hl]; simp) (by rw [hl]; simp)
    exact ⟨r, _, h2 { s with loop := .top } rfl (by simp),
      .inr ⟨_, Step.answerFail (side := side) (s := s.other r s.loop) hc hl he, rfl, rfl⟩⟩
  | @handlerPanicCs id q hc hsd hl =>
    obtain ⟨rfl, h2⟩ := h.loop (by rw [hl]; simp) (by rw [hl]; simp) (by rw [hl]; simp)
    exact ⟨r, _, h2 { s with loop := .exited, closed := true } rfl (by simp),
      .inr ⟨_, Step.handlerPanicCs (side := side) (s := s.other r s.loop) hc hsd hl, rfl, rfl⟩⟩
  | @handlerPanicCp id q hc hsd hl =>
    obtain ⟨rfl, h2⟩ := h.loop (by rw [hl]; simp) (by rw [hl]; simp) (by rw [hl]; simp)
    exact ⟨r, _, h2 { s with crashed := true, loop := .exited } rfl (by simp),
      .inr ⟨_, Step.handlerPanicCp (side := side) (s := s.other r s.loop) hc hsd hl, rfl, rfl⟩⟩
  | @answerPanicCs id resp err hc hsd hl he =>
    obtain ⟨rfl, h2⟩ := h.loop (by rw [hl]; simp) (by rw [hl]; simp) (by rw [hl]; simp)
    exact ⟨r, _, h2 { s with loop := .exited, closed := true } rfl (by simp),
      .inr ⟨_, Step.answerPanicCs (side := side) (s := s.other r s.loop) hc hsd hl he, rfl, rfl⟩⟩
  | @answerPanicCp id resp err hc hsd hl he =>
    obtain ⟨rfl, h2⟩ := h.loop (by rw [hl]; simp) (by rw [hl]; simp) (by rw [hl]; simp)
    exact ⟨r, _, h2 { s with crashed := true, loop := .exited } rfl (by simp),
      .inr ⟨_, Step.answerPanicCp (side := side) (s := s.other r s.loop) hc hsd hl he, rfl, rfl⟩⟩
  | @result k x hc hl hk =>
    have hlast := hi.cur k hl
    cases h with
    | empty a b => exact absurd hl (b _)
    | @sel pre pre' y a b =>
      rw [a] at hk hlast
      obtain ⟨rfl, rfl⟩ := get_last hk hlast
      refine ⟨pre' ++ [.gone], afterResult side x, ?_, .inr ⟨.result pre'.length x, ?_, rfl, rfl⟩⟩
      · refine .same (s := { s.setReader pre.length .gone with loop := afterResult side x, closed := _ }) (pre := pre) (by simp [St.setReader, a]) ?_
        intro k
        show afterResult side x ≠ _
        cases side <;> cases x <;> simp [afterResult]
      · have := Step.result (side := side) (s := s.other (pre' ++ [.offer x]) (.sel pre'.length)) (k := pre'.length) (e := x) hc rfl (by simp [St.other])
        simpa [St.other, St.setReader] using this
    | same a b => exact absurd hl (b _)
    | @noise pre pre' y a b c =>
      rw [a] at hk hlast
      obtain ⟨rfl, rfl⟩ := get_last hk hlast
      have hx : x = .err := by
        rcases b with ⟨f, h, _⟩ | h
        · cases h
        · cases h; rfl
      subst hx
      refine ⟨pre' ++ [.reading], .sel pre'.length, ?_, .inl ⟨rfl, rfl, ?_⟩⟩
      · refine .done (pre := pre) (by simp [St.setReader, a]) ?_
        cases side <;> rfl
      · simp [St.other, St.setReader]
    | left a b c => rw [hl] at c; cases c
    | done a b => rw [hl] at b; cases b
  | @seeClosed k hc hl hcl =>
    cases h with
    | empty a b => exact absurd hl (b _)
    | @sel pre pre' y a b =>
      refine ⟨pre' ++ [y], .exited, .same (s := { s with loop := .exited }) (pre := pre) a (by simp), .inr ⟨.seeClosed, ?_, rfl, rfl⟩⟩
      exact Step.seeClosed (side := side) (s := s.other (pre' ++ [y]) (.sel pre'.length)) hc rfl hcl
    | same a b => exact absurd hl (b _)
    | @noise pre pre' y a b c =>
      refine ⟨pre' ++ [.reading], .exited, .left (s := { s with loop := .exited }) (pre := pre) a b rfl, .inr ⟨.seeClosed, ?_, rfl, rfl⟩⟩
      exact Step.seeClosed (side := side) (s := s.other (pre' ++ [.reading]) (.sel pre'.length)) hc rfl hcl
    | left a b c => rw [hl] at c; cases c
    | done a b => rw [hl] at b; cases b
  | @ctxDone k hc hsd hl =>
    cases h with
    | empty a b => exact absurd hl (b _)
    | @sel pre pre' y a b =>
      refine ⟨pre' ++ [y], .exited, .same (s := { s with loop := .exited, closed := true }) (pre := pre) a (by simp), .inr ⟨.ctxDone, ?_, rfl, rfl⟩⟩
      exact Step.ctxDone (side := side) (s := s.other (pre' ++ [y]) (.sel pre'.length)) hc hsd rfl
    | same a b => exact absurd hl (b _)
    | @noise pre pre' y a b c =>
      refine ⟨pre' ++ [.reading], .exited, .left (s := { s with loop := .exited, closed := true }) (pre := pre) a b rfl, .inr ⟨.ctxDone, ?_, rfl, rfl⟩⟩
      exact Step.ctxDone (side := side) (s := s.other (pre' ++ [.reading]) (.sel pre'.length)) hc hsd rfl
    | left a b c => rw [hl] at c; cases c
    | done a b => rw [hl] at b; cases b
  | close hc => exact ⟨r, l, Sim.congr (s := s) rfl rfl h, .inr ⟨_, Step.close (s := s.other r l) hc, rfl, rfl⟩⟩
  | send hc h1 h2 => exact ⟨r, l, Sim.congr (s := s) rfl rfl h, .inr ⟨_, Step.send (s := s.other r l) hc h1 h2, rfl, rfl⟩⟩
  | sendErr hc h1 h2 => exact ⟨r, l, Sim.congr (s := s) rfl rfl h, .inr ⟨_, Step.sendErr (s := s.other r l) hc h1 h2, rfl, rfl⟩⟩
  | sendPanic hc h1 h2 => exact ⟨r, l, Sim.congr (s := s) rfl rfl h, .inr ⟨_, Step.sendPanic (s := s.other r l) hc h1 h2, rfl, rfl⟩⟩
  | regSent hc h1 h2 => exact ⟨r, l, Sim.congr (s := s) rfl rfl h, .inr ⟨_, Step.regSent (s := s.other r l) hc h1 h2, rfl, rfl⟩⟩
  | regChan hc h1 h2 => exact ⟨r, l, Sim.congr (s := s) rfl rfl h, .inr ⟨_, Step.regChan (s := s.other r l) hc h1 h2, rfl, rfl⟩⟩
  | writeOk hc h1 h2 h3 h4 => exact ⟨r, l, Sim.congr (s := s) rfl rfl h, .inr ⟨_, Step.writeOk (s := s.other r l) hc h1 h2 h3 h4, rfl, rfl⟩⟩
  | writeFail hc h1 h2 => exact ⟨r, l, Sim.congr (s := s) rfl rfl h, .inr ⟨_, Step.writeFail (s := s.other r l) hc h1 h2, rfl, rfl⟩⟩
  | @deliver k i a x hc hk h1 h2 =>
    rcases h.reader hi hk rfl with ⟨pre, pre', hr, rfl, rfl, hl⟩ | ⟨_, _, _, hx, _⟩
    swap
    · cases hx
    refine ⟨pre' ++ [.offer .nil], l, ?_, .inr ⟨.deliver pre'.length i, ?_, rfl, rfl⟩⟩
    · exact Sim.put (pre := pre) (by simp [St.setReader, St.setPhase, hr]) hl
    · have := Step.deliver (side := side) (s := s.other (pre' ++ [.toSender (some i) a]) l) (k := pre'.length) (i := i) (a := a) hc (by simp [St.other]) h1 h2
      simpa [St.other, St.setReader, St.setPhase] using this
  | finish hc h1 h2 => exact ⟨r, l, Sim.congr (s := s) rfl rfl h, .inr ⟨_, Step.finish (s := s.other r l) hc h1 h2, rfl, rfl⟩⟩
  | timeout hc h1 h2 => exact ⟨r, l, Sim.congr (s := s) rfl rfl h, .inr ⟨_, Step.timeout (s := s.other r l) hc h1 h2, rfl, rfl⟩⟩

theorem erase {tr : List (Ev S)} {s : St S} (h : Exec side tr s) : ∃ tr' r l, Exec side tr' (s.other r l) ∧ Sim s r l ∧
    tr'.filterMap Ev.visible = tr.filterMap Ev.visible ∧ framesRead tr' = (framesRead tr).filter (fun f => !noMessage f) := by
  induction h with
  | nil => exact ⟨[], _, _, .nil, .empty rfl (by simp [init]), rfl, rfl⟩
  | @snoc tr e s s2 hr hs ih =>
    obtain ⟨tr', r, l, h1, h2, h3, h4⟩ := ih
    obtain ⟨r2, l2, g1, g2⟩ := follow (Exec.inv hr) hs h2
    have happ : ∀ a b : List (Ev S), framesRead (a ++ b) = framesRead a ++ framesRead b := fun a b => List.filterMap_append
    rcases g2 with ⟨a, b, c⟩ | ⟨e', a, b, c⟩
    · refine ⟨tr', r2, l2, by rw [← c]; exact h1, g1, ?_, ?_⟩
      · rw [h3, List.filterMap_append]; simp [a]
      · rw [h4, happ, List.filter_append, b, List.append_nil]
    · refine ⟨tr' ++ [e'], r2, l2, .snoc h1 a, g1, ?_, ?_⟩
      · rw [List.filterMap_append, List.filterMap_append, h3]; simp [List.filterMap_cons, b]
      · rw [happ, happ, List.filter_append, h4, c]

end Verif.Conn
