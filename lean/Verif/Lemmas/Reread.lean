import Verif.Model.Reread
import Verif.Lemmas.Conn
import Mathlib.Data.List.TakeWhile
/-!
# Lemmas about reading again from a failed websocket
-/
set_option linter.unusedSimpArgs false
namespace Verif.Reread
open Conn
variable {S : Sem} {side : Side}

/-! ## Vocabulary: projections of the trace -/

/-- A failed read that returned. -/
def REv.isFail : REv S → Bool
  | .fail _ _ _ => true
  | _ => false

/-- The serving loop takes the result of a reader. -/
def REv.isResult : REv S → Bool
  | .conn (.result _ _) => true
  | _ => false

/-- The number of reads that failed and returned. -/
def fails (tr : List (REv S)) : Nat := tr.countP REv.isFail

/-- The part of a history from the first failed read on. -/
def down (tr : List (REv S)) : List (REv S) := tr.dropWhile fun e => !e.isFail

/-- How often, after the first failed read, the serving loop took the result of a reader. -/
def retaken (tr : List (REv S)) : Nat := (down tr).countP REv.isResult

/-- The history as the connection model sees it, up to the panic. -/
def toConn (tr : List (REv S)) : List (Ev S) :=
  tr.filterMap fun
    | .conn e => some e
    | .fail k e _ => some (.readErr k e)
    | .die _ => none

/-! ## Invariants -/

theorem RExec.conn {tr : List (REv S)} {s : RSt S} (h : RExec side tr s) : Conn.Exec side (toConn tr) s.conn := by
  induction h with
  | nil => exact .nil
  | snoc _ hs ih =>
    cases hs with
    | other _ _ h => simpa [toConn] using Conn.Run.snoc ih h
    | read _ _ h => simpa [toConn] using Conn.Run.snoc ih h
    | fail _ _ h _ => simpa [toConn] using Conn.Run.snoc ih h
    | die _ h _ => simpa [toConn] using ih

/-- What the newest reader and the loop can be doing once a read has failed. -/
inductive Down (c : St S) (e : ReadRes) : Bool → Prop where
  | offered {k} : c.readers[k]? = some (.offer e) → k + 1 = c.readers.length → (c.loop = .sel k ∨ c.loop = .exited) →
      Down c e true
  | idle : (∀ p ∈ c.readers, p.active = false) → (c.loop = .top ∨ c.loop = .exited) → Down c e false
  | reading {k} : c.readers[k]? = some .reading → k + 1 = c.readers.length → (c.loop = .sel k ∨ c.loop = .exited) →
      Down c e false

/-- The steps the connection can make once a read has failed. -/
def lateOk : Ev S → Bool
  | .spawn _ => true
  | .result _ _ => true
  | .seeClosed => true
  | .ctxDone => true
  | .close => true
  | .send _ _ _ => true
  | .regSent _ => true
  | .regChan _ => true
  | .writeCall _ none => true
  | .finish _ _ => true
  | .timeout _ => true
  | _ => false

theorem Down.step {c c' : St S} {e : ReadRes} {b : Bool} {ev : Ev S} (hi : Inv c) (hc : c.closed = true)
    (h : Down c e b) (hs : Step side c ev c') (hn : notRead ev = true) :
    lateOk ev = true ∧ c'.closed = true ∧
      (((∀ k e', ev ≠ .result k e') ∧ Down c' e b) ∨
        (∃ k, ev = .result k e ∧ b = true ∧ c.loop = .sel k ∧ c.readers[k]? = some (.offer e) ∧ Down c' e false)) := by
  have hall : ∀ (k : Nat) (p : Reader S), c.readers[k]? = some p → p.active = true → p = .reading := by
    intro k p hk ha
    have ⟨h1, _⟩ := hi.act k p hk ha
    cases h with
    | offered h2 h3 _ =>
      have : k = _ := Nat.succ.inj (h1.trans h3.symm)
      subst this
      rw [h2] at hk; cases hk; simp [Reader.active] at ha
    | idle h2 _ =>
      rw [h2 p (List.mem_of_getElem? hk)] at ha; simp at ha
    | reading h2 h3 _ =>
      have : k = _ := Nat.succ.inj (h1.trans h3.symm)
      subst this
      rw [h2] at hk; cases hk; rfl
  have hloop : c.loop = .top ∨ (∃ k, c.loop = .sel k) ∨ c.loop = .exited := by
    cases h with
    | offered _ _ h => rcases h with h | h <;> simp [h]
    | idle _ h => rcases h with h | h <;> simp [h]
    | reading _ _ h => rcases h with h | h <;> simp [h]
  cases hs with
  | spawn _ hl =>
    refine ⟨rfl, hc, .inl ⟨by simp, ?_⟩⟩
    cases h with
    | offered _ _ h => simp [hl] at h
    | idle h1 _ => exact .reading (k := c.readers.length) (by simp) (by simp) (.inl rfl)
    | reading _ _ h => simp [hl] at h
  | read => simp [notRead] at hn
  | readErr => simp [notRead] at hn
  | dispatch _ hk _ => have := hall _ _ hk rfl; simp at this
  | dispatchPanic _ hk _ => have := hall _ _ hk rfl; simp at this
  | refuse _ _ hk _ => have := hall _ _ hk rfl; simp at this
  | take _ _ hk => have := hall _ _ hk rfl; simp at this
  | handlerRet _ _ _ hl => simp [hl] at hloop
  | answerOk _ hl _ _ => simp [hl] at hloop
  | answerFail _ hl _ => simp [hl] at hloop
  | handlerPanicCs _ _ hl => simp [hl] at hloop
  | handlerPanicCp _ _ hl => simp [hl] at hloop
  | answerPanicCs _ _ hl _ => simp [hl] at hloop
  | answerPanicCp _ _ hl _ => simp [hl] at hloop
  | @result k e' _ hl hk =>
    refine ⟨rfl, by simp [St.setReader, hc], .inr ?_⟩
    have hk1 := hi.cur _ hl
    cases h with
    | @offered k' h1 h2 h3 =>
      have : k = k' := by omega
      subst this
      rw [h1] at hk; cases hk
      refine ⟨k, rfl, rfl, hl, h1, .idle ?_ ?_⟩
      · intro p hp
        by_contra ha
        simp only [Bool.not_eq_false] at ha
        simp only [St.setReader] at hp
        obtain ⟨j, hj⟩ := List.mem_iff_getElem?.mp hp
        rw [List.getElem?_set] at hj
        split at hj
        · split at hj
          · cases hj; simp [Reader.active] at ha
          · simp at hj
        · have := (hi.act j p hj ha).1
          omega
      · unfold afterResult; split <;> simp
    | idle h1 h2 => simp [hl] at h2
    | @reading k' h1 h2 _ =>
      have : k = k' := by omega
      subst this
      rw [h1] at hk; cases hk
  | seeClosed _ hl _ =>
    refine ⟨rfl, hc, .inl ⟨by simp, ?_⟩⟩
    cases h with
    | offered h1 h2 _ => exact .offered h1 h2 (.inr rfl)
    | idle h1 _ => exact .idle h1 (.inr rfl)
    | reading h1 h2 _ => exact .reading h1 h2 (.inr rfl)
  | ctxDone _ _ hl =>
    refine ⟨rfl, rfl, .inl ⟨by simp, ?_⟩⟩
    cases h with
    | offered h1 h2 _ => exact .offered h1 h2 (.inr rfl)
    | idle h1 _ => exact .idle h1 (.inr rfl)
    | reading h1 h2 _ => exact .reading h1 h2 (.inr rfl)
  | close _ =>
    refine ⟨rfl, rfl, .inl ⟨by simp, ?_⟩⟩
    cases h with
    | offered h1 h2 h3 => exact .offered h1 h2 h3
    | idle h1 h3 => exact .idle h1 h3
    | reading h1 h2 h3 => exact .reading h1 h2 h3
  | deliver _ hk _ _ => have := hall _ _ hk rfl; simp at this
  | writeOk _ _ _ _ h => simp [hc] at h
  | send =>
    refine ⟨rfl, hc, .inl ⟨by simp, ?_⟩⟩
    cases h with
    | offered h1 h2 h3 => exact .offered h1 h2 h3
    | idle h1 h3 => exact .idle h1 h3
    | reading h1 h2 h3 => exact .reading h1 h2 h3
  | sendErr =>
    refine ⟨rfl, hc, .inl ⟨by simp, ?_⟩⟩
    cases h with
    | offered h1 h2 h3 => exact .offered h1 h2 h3
    | idle h1 h3 => exact .idle h1 h3
    | reading h1 h2 h3 => exact .reading h1 h2 h3
  | sendPanic =>
    refine ⟨rfl, hc, .inl ⟨by simp, ?_⟩⟩
    cases h with
    | offered h1 h2 h3 => exact .offered h1 h2 h3
    | idle h1 h3 => exact .idle h1 h3
    | reading h1 h2 h3 => exact .reading h1 h2 h3
  | regSent =>
    refine ⟨rfl, hc, .inl ⟨by simp, ?_⟩⟩
    cases h with
    | offered h1 h2 h3 => exact .offered h1 h2 h3
    | idle h1 h3 => exact .idle h1 h3
    | reading h1 h2 h3 => exact .reading h1 h2 h3
  | regChan =>
    refine ⟨rfl, hc, .inl ⟨by simp, ?_⟩⟩
    cases h with
    | offered h1 h2 h3 => exact .offered h1 h2 h3
    | idle h1 h3 => exact .idle h1 h3
    | reading h1 h2 h3 => exact .reading h1 h2 h3
  | writeFail =>
    refine ⟨rfl, hc, .inl ⟨by simp, ?_⟩⟩
    cases h with
    | offered h1 h2 h3 => exact .offered h1 h2 h3
    | idle h1 h3 => exact .idle h1 h3
    | reading h1 h2 h3 => exact .reading h1 h2 h3
  | finish =>
    refine ⟨rfl, hc, .inl ⟨by simp, ?_⟩⟩
    cases h with
    | offered h1 h2 h3 => exact .offered h1 h2 h3
    | idle h1 h3 => exact .idle h1 h3
    | reading h1 h2 h3 => exact .reading h1 h2 h3
  | timeout =>
    refine ⟨rfl, hc, .inl ⟨by simp, ?_⟩⟩
    cases h with
    | offered h1 h2 h3 => exact .offered h1 h2 h3
    | idle h1 h3 => exact .idle h1 h3
    | reading h1 h2 h3 => exact .reading h1 h2 h3

theorem readErr_down {c c' : St S} {k : Nat} {e : ReadRes} (hi : Inv c) (hs : Step side c (.readErr k e) c') :
    c.readers[k]? = some .reading ∧ c'.closed = true ∧ e ≠ .nil ∧ c'.readers[k]? = some (.offer e) ∧ k + 1 = c'.readers.length ∧
      (c'.loop = .sel k ∨ c'.loop = .exited) := by
  cases hs with
  | readErr _ hk he =>
    have ⟨h1, h2⟩ := hi.act _ _ hk rfl
    have hlt : k < c.readers.length := by omega
    exact ⟨hk, rfl, he, by simp [St.setReader, hlt], by simp [St.setReader, h1], h2⟩

theorem down_snoc (tr : List (REv S)) (x : REv S) :
    down (tr ++ [x]) = if fails tr = 0 then (if x.isFail then [x] else []) else down tr ++ [x] := by
  unfold down fails
  rw [List.dropWhile_append]
  by_cases h : List.countP REv.isFail tr = 0
  · have h' : List.dropWhile (fun e : REv S => !e.isFail) tr = [] := by
      rw [List.dropWhile_eq_nil_iff]
      intro y hy
      simpa using (List.countP_eq_zero.mp h) y hy
    rw [h', if_pos h]
    cases hx : x.isFail <;> simp [hx]
  · have h' : List.dropWhile (fun e : REv S => !e.isFail) tr ≠ [] := by
      intro hn
      rw [List.dropWhile_eq_nil_iff] at hn
      exact h (List.countP_eq_zero.mpr fun y hy => by simpa using hn y hy)
    have : (List.dropWhile (fun e : REv S => !e.isFail) tr).isEmpty = false := by
      cases hd : List.dropWhile (fun e : REv S => !e.isFail) tr with
      | nil => exact absurd hd h'
      | cons => rfl
    rw [this, if_neg h]; simp

theorem fails_snoc (tr : List (REv S)) (x : REv S) : fails (tr ++ [x]) = fails tr + if x.isFail then 1 else 0 := by
  simp [fails, List.countP_append, List.countP_cons]

theorem retaken_snoc (tr : List (REv S)) (x : REv S) :
    retaken (tr ++ [x]) = if fails tr = 0 then 0 else retaken tr + if x.isResult then 1 else 0 := by
  unfold retaken
  rw [down_snoc]
  split
  · cases x <;> simp [REv.isFail, REv.isResult]
  · simp [List.countP_append, List.countP_cons]

/-- The counters. -/
structure Counts (tr : List (REv S)) (s : RSt S) : Prop where
  up : s.failed = none → fails tr = 0 ∧ s.count = 0
  downs : ∀ e, s.failed = some e → e ≠ .nil ∧ s.conn.closed = true ∧ 0 < fails tr ∧
    ∃ b, Down s.conn e b ∧ fails tr = retaken tr + if b then 1 else 0
  le : s.dead = false → s.count ≤ fails tr ∧ fails tr ≤ s.count + 1 ∧ s.count < readLimit
  dead : s.dead = true → readLimit ≤ fails tr + 1 ∧ fails tr = retaken tr ∧ s.failed ≠ none

theorem RExec.counts {tr : List (REv S)} {s : RSt S} (h : RExec side tr s) : Counts tr s := by
  induction h with
  | nil => exact ⟨fun _ => ⟨rfl, rfl⟩, by simp [rinit], fun _ => ⟨by simp [rinit], by simp [rinit, fails], by simp [rinit, readLimit]⟩, by simp [rinit]⟩
  | @snoc tr x s s' hr hs ih =>
    have hi : Inv s.conn := (RExec.conn hr).inv
    have hf := fails_snoc tr x
    have ht := retaken_snoc tr x
    cases hs with
    | @other e c hd hn hst =>
      have hx : (REv.conn e : REv S).isFail = false := rfl
      rw [hx] at hf
      simp only [Bool.false_eq_true, if_false, Nat.add_zero] at hf
      refine ⟨fun h => by rw [hf]; exact ih.up h, ?_, fun h => by rw [hf]; exact ih.le h, fun h => by simp [hd] at h⟩
      intro e' he'
      obtain ⟨h1, h2, h3, b, h4, h5⟩ := ih.downs e' he'
      obtain ⟨_, g2, g3⟩ := h4.step hi h2 hst hn
      refine ⟨h1, g2, by omega, ?_⟩
      rw [if_neg (by omega)] at ht
      rcases g3 with ⟨g3, g4⟩ | ⟨k, g3, g4, _, _, g5⟩
      · refine ⟨b, g4, ?_⟩
        have : (REv.conn e : REv S).isResult = false := by
          cases e <;> first | rfl | exact absurd rfl (g3 _ _)
        rw [ht, hf, this]; simpa using h5
      · subst g3; subst g4
        refine ⟨false, g5, ?_⟩
        rw [ht, hf]; simpa [REv.isResult] using h5
    | @read k f c hd hn hst =>
      have hx : (REv.conn (.read k f) : REv S).isFail = false := rfl
      rw [hx] at hf
      simp only [Bool.false_eq_true, if_false, Nat.add_zero] at hf
      exact ⟨fun h => by rw [hf]; exact ih.up h, fun e' he' => by simp [hn] at he', fun h => by rw [hf]; exact ih.le h,
        fun h => by simp [hd] at h⟩
    | @fail k e head c hd hsame hst hlim =>
      have hx : (REv.fail k e head : REv S).isFail = true := rfl
      have hy : (REv.fail k e head : REv S).isResult = false := rfl
      rw [hx] at hf
      rw [hy] at ht
      simp only [if_true, Bool.false_eq_true, if_false, Nat.add_zero] at hf ht
      obtain ⟨r1, r2, r3, r4, r5, r6⟩ := readErr_down hi hst
      obtain ⟨l1, l2, l3⟩ := ih.le hd
      refine ⟨by simp, ?_, ?_, fun h => by simp [hd] at h⟩
      · intro e' he'
        cases he'
        refine ⟨r3, r2, by omega, true, .offered r4 r5 r6, ?_⟩
        cases hfl : s.failed with
        | none => have := (ih.up hfl).1; rw [hf, ht, if_pos this, this]; rfl
        | some e₀ =>
          obtain ⟨_, _, h3, b, h4, h5⟩ := ih.downs e₀ hfl
          have hb : b = false := by
            cases h4 with
            | @offered k' h6 h7 _ =>
              have := (hi.act k _ r1 rfl).1
              have : k' = k := by omega
              subst this
              rw [h6] at r1; cases r1
            | idle => rfl
            | reading => rfl
          subst hb
          rw [hf, ht, if_neg (by omega)]; simpa using h5
      · intro _
        rw [hf]
        cases head with
        | true => exact ⟨by simpa using l1, by simpa using l2, by simpa using hlim rfl⟩
        | false =>
          have hnone : s.failed = none := by
            cases hfl : s.failed with
            | none => rfl
            | some e₀ => exact absurd (hsame e₀ hfl).2 (by simp)
          have ⟨u1, u2⟩ := ih.up hnone
          refine ⟨by simp [u1, u2], by simp [u1, u2], by simp [u2, readLimit]⟩
    | @die k e c hd hst hlim =>
      have hx : (REv.die k : REv S).isFail = false := rfl
      have hy : (REv.die k : REv S).isResult = false := rfl
      rw [hx] at hf
      rw [hy] at ht
      simp only [Bool.false_eq_true, if_false, Nat.add_zero] at hf ht
      obtain ⟨r1, r2, r3, r4, r5, r6⟩ := readErr_down hi hst
      obtain ⟨l1, l2, l3⟩ := ih.le hd
      have hne : s.failed ≠ none := fun h => by
        have := (ih.up h).2
        rw [this] at hlim; simp [readLimit] at hlim
      refine ⟨fun h => absurd h hne, ?_, by simp, ?_⟩
      · intro e' he'
        obtain ⟨h1, h2, h3, b, h4, h5⟩ := ih.downs e' he'
        exact ⟨h1, h2, by omega, b, h4, by rw [hf, ht, if_neg (by omega)]; exact h5⟩
      · intro _
        refine ⟨by omega, ?_, hne⟩
        obtain ⟨e₀, he₀⟩ := Option.ne_none_iff_exists'.mp hne
        obtain ⟨_, _, h3, b, h4, h5⟩ := ih.downs e₀ he₀
        have hb : b = false := by
          cases h4 with
          | @offered k' h6 h7 _ =>
            have := (hi.act k _ r1 rfl).1
            have : k' = k := by omega
            subst this
            rw [h6] at r1; cases r1
          | idle => rfl
          | reading => rfl
        subst hb
        rw [hf, ht, if_neg (by omega)]; simpa using h5

theorem RRun.split {s s'' : RSt S} {t : List (REv S)} (h : RRun side s t s'') :
    ∀ {t1 t2}, t = t1 ++ t2 → ∃ s', RRun side s t1 s' ∧ RRun side s' t2 s'' := by
  induction h with
  | nil =>
    intro t1 t2 he
    obtain ⟨rfl, rfl⟩ := List.append_eq_nil_iff.mp he.symm
    exact ⟨_, .nil, .nil⟩
  | @snoc tr e s' s'' hr hs ih =>
    intro t1 t2 he
    rcases List.eq_nil_or_concat t2 with rfl | ⟨t2', e', rfl⟩
    · rw [List.append_nil] at he
      exact ⟨s'', he ▸ .snoc hr hs, .nil⟩
    · rw [List.concat_eq_append, ← List.append_assoc] at he
      obtain ⟨h1, h2⟩ := List.append_inj' he rfl
      obtain ⟨m, hm1, hm2⟩ := ih h1
      cases h2
      rw [List.concat_eq_append]
      exact ⟨m, hm1, .snoc hm2 hs⟩

theorem RRun.one {s s' : RSt S} {x : REv S} (h : RRun side s [x] s') : RStep side s x s' := by
  generalize hl : [x] = l at h
  cases h with
  | nil => simp at hl
  | @snoc tr e m _ hr hs =>
    have : tr = [] ∧ e = x := by
      cases tr with
      | nil => simp at hl; exact ⟨rfl, hl.symm⟩
      | cons a t => simp at hl
    obtain ⟨rfl, rfl⟩ := this
    generalize hl2 : ([] : List (REv S)) = l2 at hr
    cases hr with
    | nil => exact hs
    | snoc => simp at hl2

theorem RRun.append {s s' s'' : RSt S} {t1 t2 : List (REv S)} (h1 : RRun side s t1 s')
    (h2 : RRun side s' t2 s'') : RRun side s (t1 ++ t2) s'' := by
  induction h2 with
  | nil => simpa using h1
  | snoc _ hs ih => rw [← List.append_assoc]; exact .snoc ih hs

end Verif.Reread
