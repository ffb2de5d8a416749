import Mathlib.Data.List.Induction
import Mathlib.Tactic.ByContra
import Verif.Spec.Conn
namespace Verif.Conn
variable {S : Sem} {side : Side}

@[simp, grind =] theorem afterTake_sel {id : String} {r : S.Req} {k : Nat} :
    (afterTake side id r = .sel k) = False := by
  unfold afterTake; split
  · simp
  · cases side <;> simp

@[simp, grind =] theorem afterTake_exited {id : String} {r : S.Req} :
    (afterTake side id r = .exited) = False := by
  unfold afterTake; split
  · simp
  · cases side <;> simp

@[simp, grind =] theorem afterResult_sel {e : ReadRes} {k : Nat} :
    (afterResult (S := S) side e = .sel k) = False := by
  unfold afterResult; split <;> simp

/-- Structural invariant: only the newest reader can be active, and only while the loop listens to
it or has left. -/
structure Inv (s : St S) : Prop where
  cur : ∀ k, s.loop = .sel k → k + 1 = s.readers.length
  act : ∀ k p, s.readers[k]? = some p → p.active = true →
    k + 1 = s.readers.length ∧ (s.loop = .sel k ∨ s.loop = .exited)

theorem inv_init : Inv (init S) := by
  constructor <;> simp [init]

theorem inv_step {s s' : St S} {e : Ev S} (h : Inv s) (hs : Step side s e s') : Inv s' := by
  obtain ⟨h1, h2⟩ := h
  cases hs <;> constructor <;>
    simp only [St.setReader, St.setPhase, List.length_set, List.length_append, List.getElem?_set,
      List.getElem?_append] at * <;>
    grind [Reader.active]

theorem Run.inv {s s' : St S} {tr : List (Ev S)} (h : Inv s) (hr : Run side s tr s') : Inv s' := by
  induction hr with
  | nil => exact h
  | snoc _ hs ih => exact inv_step ih hs

theorem Exec.inv {s : St S} {tr : List (Ev S)} (hr : Exec side tr s) : Inv s :=
  Run.inv inv_init hr

theorem Run.append {s s' s'' : St S} {t1 t2 : List (Ev S)} (h1 : Run side s t1 s')
    (h2 : Run side s' t2 s'') : Run side s (t1 ++ t2) s'' := by
  induction h2 with
  | nil => simpa using h1
  | snoc _ hs ih => rw [← List.append_assoc]; exact .snoc ih hs

theorem Run.split {s s'' : St S} {t1 t2 : List (Ev S)} (h : Run side s (t1 ++ t2) s'') :
    ∃ s', Run side s t1 s' ∧ Run side s' t2 s'' := by
  induction t2 using List.reverseRecOn generalizing s'' with
  | nil => exact ⟨s'', by simpa using h, .nil⟩
  | append_singleton t2 e ih =>
    rw [← List.append_assoc] at h
    generalize hh : t1 ++ t2 ++ [e] = t at h
    cases h with
    | nil => simp at hh
    | snoc hr hs =>
      obtain ⟨rfl, rfl⟩ : t1 ++ t2 = _ ∧ e = _ := by
        have := List.append_inj' hh rfl
        simpa using this
      obtain ⟨s', h1, h2⟩ := ih hr
      exact ⟨s', h1, .snoc h2 hs⟩

theorem Run.cons_inv {s s'' : St S} {e : Ev S} {t : List (Ev S)} (h : Run side s (e :: t) s'') :
    ∃ s', Step side s e s' ∧ Run side s' t s'' := by
  obtain ⟨s', h1, h2⟩ := Run.split (t1 := [e]) (t2 := t) h
  refine ⟨s', ?_, h2⟩
  generalize hh : [e] = t' at h1
  cases h1 with
  | nil => simp at hh
  | snoc hr hs =>
    rename_i tr e' s1
    have : tr = [] ∧ e = e' := by
      cases tr with
      | nil => simpa using hh
      | cons a b => simp at hh
    obtain ⟨rfl, rfl⟩ := this
    generalize hn : ([] : List (Ev S)) = n at hr
    cases hr with
    | nil => exact hs
    | snoc _ _ => simp at hn

/-- The active reader is the last one. -/
theorem Inv.split {s : St S} (h : Inv s) {k : Nat} {p : Reader S} (hk : s.readers[k]? = some p)
    (ha : p.active = true) :
    ∃ l, s.readers = l ++ [p] ∧ l.length = k ∧ ∀ q ∈ l, q.active = false := by
  have hl := (h.act k p hk ha).1
  refine ⟨s.readers.take k, ?_, ?_, ?_⟩
  · have hlt : k < s.readers.length := by omega
    have : s.readers.drop k = [p] := by
      rw [List.drop_eq_getElem_cons hlt]
      have : s.readers[k] = p := by
        have := List.getElem?_eq_getElem hlt
        rw [hk] at this; simpa using this.symm
      rw [this, List.drop_eq_nil_of_le (by omega)]
    calc s.readers = s.readers.take k ++ s.readers.drop k := (List.take_append_drop k _).symm
      _ = _ := by rw [this]
  · simp; omega
  · intro q hq
    by_contra hc
    simp only [Bool.not_eq_false] at hc
    obtain ⟨j, hj, rfl⟩ := List.getElem_of_mem hq
    simp only [List.length_take] at hj
    have hj' : s.readers[j]? = some (s.readers.take k)[j] := by
      rw [List.getElem_take, List.getElem?_eq_getElem (by omega)]
    have := (h.act j _ hj' hc).1
    omega

end Verif.Conn

namespace Verif.Conn
variable {S : Sem} {side : Side}

/-- The request a reader has in hand. -/
def Reader.inHand : Reader S → List (String × S.Req)
  | .got f => (requestIn f).toList
  | .toLoop id r => [(id, r)]
  | _ => []

theorem Reader.inHand_of_inactive {p : Reader S} (h : p.active = false) : p.inHand = [] := by
  cases p <;> simp_all [Reader.active, Reader.inHand]

theorem flatMap_inHand_nil {l : List (Reader S)} (h : ∀ q ∈ l, q.active = false) :
    l.flatMap Reader.inHand = [] := by
  induction l with
  | nil => rfl
  | cons a l ih => simp_all [Reader.inHand_of_inactive]

theorem flatMap_set {s : St S} (h : Inv s) {k : Nat} {p q : Reader S}
    (hk : s.readers[k]? = some p) (ha : p.active = true) :
    (s.readers.set k q).flatMap Reader.inHand = q.inHand ∧
    s.readers.flatMap Reader.inHand = p.inHand := by
  obtain ⟨l, hl, hlen, hq⟩ := h.split hk ha
  subst hlen
  rw [hl]
  simp [flatMap_inHand_nil hq]

theorem flatMap_set_inactive {l : List (Reader S)} {k : Nat} {p q : Reader S}
    (hk : l[k]? = some p) (ha : p.inHand = []) (hb : q.inHand = []) :
    (l.set k q).flatMap Reader.inHand = l.flatMap Reader.inHand := by
  induction l generalizing k with
  | nil => simp
  | cons a l ih =>
    cases k with
    | zero => simp_all
    | succ k => simp_all

theorem afterRead_inHand {s : St S} {f : S.Frame} {p : Reader S} (h : afterRead s f = some p) :
    p.inHand = (requestIn f).toList := by
  unfold afterRead at h
  unfold requestIn
  repeat' split at h
  all_goals simp_all [Reader.inHand]
  all_goals subst h; rfl

/-- Everything read so far that is a request has been taken, except what a reader has in hand. -/
theorem Exec.requests {s : St S} {tr : List (Ev S)} (hr : Exec side tr s) :
    (framesRead tr).filterMap requestIn = taken tr ++ s.readers.flatMap Reader.inHand := by
  induction hr with
  | nil => simp [framesRead, taken, init]
  | @snoc tr e s s' hr hs ih =>
    have hi := Exec.inv hr
    cases hs
    case read k f hc hk =>
      obtain ⟨h1, h2⟩ := flatMap_set hi (q := .got f) hk rfl
      rw [h2] at ih
      simp only [framesRead, taken, List.filterMap_append, St.setReader, h1] at ih ⊢
      rw [ih]
      cases h : requestIn f <;> simp [Reader.inHand, h]
    case dispatch k f p hc hk hp =>
      obtain ⟨h1, h2⟩ := flatMap_set hi (q := p) hk rfl
      rw [h2] at ih
      simp only [framesRead, taken, List.filterMap_append, St.setReader, h1] at ih ⊢
      rw [ih, afterRead_inHand hp]
      simp [Reader.inHand]
    case refuse k id c ok hc hk _ =>
      have := flatMap_set hi (q := .offer (if ok = true then .nil else .err)) hk rfl
      simp_all [framesRead, taken, St.setReader, Reader.inHand]
    case take k id r hc hl hk =>
      have := flatMap_set hi (q := .offer .nil) hk rfl
      simp_all [framesRead, taken, St.setReader, Reader.inHand]
    case deliver k i a x hc hk _ _ =>
      have := flatMap_set hi (q := .offer .nil) hk rfl
      simp_all [framesRead, taken, St.setReader, Reader.inHand, St.setPhase]
    case readErr k e hc hk _ =>
      have := flatMap_set hi (q := .offer e) hk rfl
      simp_all [framesRead, taken, St.setReader, Reader.inHand]
    case result k e hc hl hk =>
      have := flatMap_set_inactive hk (q := .gone) rfl rfl
      simp_all [framesRead, taken, St.setReader]
    all_goals simp_all [framesRead, taken, St.setPhase, Reader.inHand]

theorem inHand_length {s : St S} (h : Inv s) : (s.readers.flatMap Reader.inHand).length ≤ 1 := by
  by_cases hx : ∃ (k : Nat) (p : Reader S), s.readers[k]? = some p ∧ p.active = true
  · obtain ⟨k, p, hk, hp⟩ := hx
    rw [(flatMap_set h (q := p) hk hp).2]
    cases p <;> simp [Reader.inHand]
  · rw [flatMap_inHand_nil]
    · simp
    · intro q hq
      obtain ⟨j, hj, rfl⟩ := List.getElem_of_mem hq
      by_contra hc
      exact hx ⟨j, _, List.getElem?_eq_getElem hj, by simpa using hc⟩

end Verif.Conn

namespace Verif.Conn
variable {S : Sem} {side : Side}

/-- The handler call in progress. -/
def Loop.running : Loop S → List (String × Option S.Req)
  | .handling id r => [(id, r)]
  | _ => []

/-- The reply in progress. -/
def Loop.replying : Loop S → List (String × Option S.Resp × Option String)
  | .answering id r e => [(id, r, e)]
  | _ => []

@[simp] theorem running_top : (Loop.top : Loop S).running = [] := rfl
@[simp] theorem running_sel {k : Nat} : (Loop.sel k : Loop S).running = [] := rfl
@[simp] theorem running_handling {id : String} {r : Option S.Req} :
    (Loop.handling id r).running = [(id, r)] := rfl
@[simp] theorem running_answering {id : String} {r : Option S.Resp} {e : Option String} :
    (Loop.answering id r e).running = [] := rfl
@[simp] theorem running_exited : (Loop.exited : Loop S).running = [] := rfl
@[simp] theorem replying_top : (Loop.top : Loop S).replying = [] := rfl
@[simp] theorem replying_sel {k : Nat} : (Loop.sel k : Loop S).replying = [] := rfl
@[simp] theorem replying_handling {id : String} {r : Option S.Req} :
    (Loop.handling id r).replying = [] := rfl
@[simp] theorem replying_answering {id : String} {r : Option S.Resp} {e : Option String} :
    (Loop.answering id r e).replying = [(id, r, e)] := rfl
@[simp] theorem replying_exited : (Loop.exited : Loop S).replying = [] := rfl

theorem afterTake_running {id : String} {r : S.Req} :
    (afterTake side id r).running = (handlerArg side (id, r)).toList := by
  unfold afterTake handlerArg; split
  · simp [Loop.running, *]
  · cases side <;> simp [Loop.running, *]

theorem afterTake_replying {id : String} {r : S.Req} :
    (afterTake side id r).replying = [] := by
  unfold afterTake; split
  · simp [Loop.replying, *]
  · cases side <;> simp [Loop.replying, *]

theorem afterResult_running {e : ReadRes} : (afterResult (S := S) side e).running = [] := by
  unfold afterResult; split <;> rfl

theorem afterResult_replying {e : ReadRes} : (afterResult (S := S) side e).replying = [] := by
  unfold afterResult; split <;> rfl

theorem afterTake_callArg {id : String} {r : S.Req} :
    (afterTake side id r).callArg.map (id, ·) = handlerArg side (id, r) := by
  unfold afterTake handlerArg; split
  · simp [Loop.callArg, *]
  · cases side <;> simp [Loop.callArg, *]

theorem handlerCalls_append (tr tr' : List (Ev S)) : handlerCalls (tr ++ tr') = handlerCalls tr ++ handlerCalls tr' := by
  simp [handlerCalls]

theorem handlerCalls_take {k : Nat} {id : String} {r : S.Req} {a : Option (Option S.Req)} :
    handlerCalls [Ev.take k id r a] = (a.map (id, ·)).toList := by
  cases a <;> simp [handlerCalls]

/-- The handler is called for the requests taken, as `handlerArg` says. -/
theorem Exec.handlerCalls_eq {s : St S} {tr : List (Ev S)} (hr : Exec side tr s) :
    handlerCalls tr = (taken tr).filterMap (handlerArg side) := by
  induction hr with
  | nil => simp [handlerCalls, taken]
  | @snoc tr e s s' hr hs ih =>
    rw [handlerCalls_append, ih, taken, taken, List.filterMap_append, List.filterMap_append]
    congr 1
    cases hs
    case take k id r hc hl hk =>
      rw [handlerCalls_take, afterTake_callArg]
      cases h : handlerArg side (id, r) <;> simp [h]
    all_goals simp [handlerCalls]

/-- Handler calls, returns, panics and replies are in step. -/
theorem Exec.handler {s : St S} {tr : List (Ev S)} (hr : Exec side tr s) :
    (∃ c p, handlerCalls tr = c ++ p ++ s.loop.running ∧
      c.map (·.1) = (handlerRets tr).map (·.1) ∧ p.map (·.1) = handlerPanics tr ∧
      (p = [] ∨ p.length = 1 ∧ s.loop = .exited)) ∧
    handlerRets tr = answers tr ++ s.loop.replying := by
  induction hr with
  | nil => exact ⟨⟨[], [], by simp [handlerCalls, handlerRets, handlerPanics, init]⟩, by simp [handlerRets, answers, init]⟩
  | @snoc tr e s s' hr hs ih =>
    obtain ⟨⟨c, p, ih1, ih2, ih4, ih5⟩, ih3⟩ := ih
    cases hs
    case take k id r hc hl hk =>
      obtain ⟨k', hl⟩ := hl
      refine ⟨⟨c, p, ?_, ?_, ?_, ?_⟩, ?_⟩
      · rw [handlerCalls_append, ih1, hl, handlerCalls_take, afterTake_callArg, afterTake_running]
        simp
      · simp_all [handlerRets]
      · simp_all [handlerPanics]
      · rw [hl] at ih5; simp at ih5; exact .inl ih5
      · simp_all [handlerRets, answers, afterTake_replying]
    case handlerRet id r resp err hc hl =>
      refine ⟨⟨c ++ [(id, r)], [], ?_, ?_, ?_, .inl rfl⟩, ?_⟩
      · simp_all [handlerCalls, taken]
      · simp_all [handlerRets]
      · simp_all [handlerPanics]
      · simp_all [handlerRets, answers]
    case handlerPanicCs id r hc hl hs =>
      refine ⟨⟨c, [(id, r)], ?_, ?_, ?_, .inr ⟨rfl, rfl⟩⟩, ?_⟩
      · simp_all [handlerCalls, taken]
      · simp_all [handlerRets]
      · simp_all [handlerPanics]
      · simp_all [handlerRets, answers]
    case handlerPanicCp id r hc hl hs =>
      refine ⟨⟨c, [(id, r)], ?_, ?_, ?_, .inr ⟨rfl, rfl⟩⟩, ?_⟩
      · simp_all [handlerCalls, taken]
      · simp_all [handlerRets]
      · simp_all [handlerPanics]
      · simp_all [handlerRets, answers]
    all_goals
      refine ⟨⟨c, p, ?_, ?_, ?_, ?_⟩, ?_⟩
      · simp_all [handlerCalls, taken, St.setPhase, St.setReader,
          afterResult_running]
      · simp_all [handlerRets]
      · simp_all [handlerPanics]
      · first
        | exact ih5
        | (rcases ih5 with ih5 | ⟨-, ih5⟩
           · exact .inl ih5
           · simp_all)
      · simp_all [handlerRets, answers, St.setPhase, St.setReader,
          afterResult_replying]

/-- Reader is blocked on (or about to be blocked on) reporting its result. -/
def Reader.isOffer : Reader S → Bool
  | .offer _ => true
  | _ => false

theorem countP_set_eq {l : List (Reader S)} {k : Nat} {p q : Reader S} (hk : l[k]? = some p) :
    (l.set k q).countP Reader.isOffer + (if p.isOffer then 1 else 0)
      = l.countP Reader.isOffer + (if q.isOffer then 1 else 0) := by
  induction l generalizing k with
  | nil => simp at hk
  | cons a l ih =>
    cases k with
    | zero =>
      simp at hk; subst hk
      simp [List.countP_cons]; omega
    | succ k =>
      simp at hk
      have := ih hk
      simp only [List.set_cons_succ, List.countP_cons]; omega

end Verif.Conn
