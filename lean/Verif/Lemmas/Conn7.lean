import Verif.Lemmas.Conn6
/-!
# Frames written
-/
set_option linter.unusedSimpArgs false
namespace Verif.Conn
variable {S : Sem} {side : Side}

/-- Frames put on the wire, in order. -/
def written (tr : List (Ev S)) : List S.Frame := tr.filterMap Ev.wrote

/-- Calls put on the wire. -/
def Ev.callOut : Ev S → Option (Nat × S.Frame)
  | .writeCall i (some f) => some (i, f)
  | _ => none

/-- Calls put on the wire, in order. -/
def callsOut (tr : List (Ev S)) : List (Nat × S.Frame) := tr.filterMap Ev.callOut

/-- The call has been written, or never will. -/
def Phase.past : Phase S → Bool
  | .fresh => false
  | .half => false
  | .registered => false
  | _ => true

/-- The frame of a sender is the encoding of its request. -/
theorem Exec.frames {s : St S} {tr : List (Ev S)} (hr : Exec side tr s) :
    ∀ (i : Nat) (x : Sender S) f, s.senders[i]? = some x → x.frame = some f → S.encCall x.id x.req = .ok f := by
  induction hr with
  | nil => simp [init]
  | @snoc tr e s s' hr hs ih =>
    intro i y f hy hf
    cases hs
    case send id r f' hc hid he =>
      simp only [getElem?_append_one] at hy
      rcases hy with hy | ⟨rfl, rfl⟩
      · exact ih i y f hy hf
      · simp only [Option.some.injEq] at hf; subst hf; exact he
    case sendErr id r f' hc hid he =>
      simp only [getElem?_append_one] at hy
      rcases hy with hy | ⟨rfl, rfl⟩
      · exact ih i y f hy hf
      · cases hf
    all_goals first
      | exact ih i y f hy hf
      | (simp only [St.setPhase, St.setReader, List.getElem?_set] at hy
         grind)

/-- Each sender writes its call at most once, and what it writes is its frame. -/
theorem Exec.callsOut {s : St S} {tr : List (Ev S)} (hr : Exec side tr s) :
    ((callsOut tr).map (·.1)).Nodup ∧
    ∀ i f, (i, f) ∈ Conn.callsOut tr → ∃ x, s.senders[i]? = some x ∧ x.frame = some f ∧ x.phase.past = true := by
  induction hr with
  | nil => simp [Conn.callsOut]
  | @snoc tr e s s' hr hs ih =>
    obtain ⟨h1, h2⟩ := ih
    have hkeep : ∀ i f, (i, f) ∈ Conn.callsOut tr → ∃ x, s'.senders[i]? = some x ∧ x.frame = some f ∧ x.phase.past = true := by
      intro i f hm
      obtain ⟨x, hx, hf, hp⟩ := h2 i f hm
      have hlt : i < s.senders.length := (List.getElem?_eq_some_iff.1 hx).1
      cases hs <;> simp only [St.setReader, St.setPhase, List.getElem?_set] at * <;> grind [Phase.past]
    have hsn : Conn.callsOut (tr ++ [e]) = Conn.callsOut tr ++ e.callOut.toList := by
      unfold Conn.callsOut
      rw [List.filterMap_append]
      cases hc : e.callOut <;> simp [hc]
    rw [hsn]
    cases hs
    case writeOk i x f hc hx hp hf hcl =>
      constructor
      · simp only [Ev.callOut, Option.toList, List.map_append, List.map_cons, List.map_nil]
        rw [List.nodup_append]
        refine ⟨h1, by simp, ?_⟩
        intro a ha b hb
        simp only [List.mem_singleton] at hb
        rintro rfl
        subst hb
        rw [List.mem_map] at ha
        obtain ⟨⟨j, g⟩, hm, hj⟩ := ha
        simp only at hj
        subst hj
        obtain ⟨y, hy, -, hpa⟩ := h2 j g hm
        rw [hx] at hy
        cases hy
        rw [hp] at hpa
        cases hpa
      · intro j g hm
        rw [List.mem_append] at hm
        rcases hm with hm | hm
        · exact hkeep j g hm
        · simp only [Ev.callOut, Option.toList, List.mem_singleton, Prod.mk.injEq] at hm
          obtain ⟨rfl, rfl⟩ := hm
          have hlt : j < s.senders.length := (List.getElem?_eq_some_iff.1 hx).1
          refine ⟨{ x with phase := .waiting }, ?_, hf, rfl⟩
          simp [St.setPhase, hlt]
    all_goals
      simp only [Ev.callOut, Option.toList, List.append_nil]
      exact ⟨h1, hkeep⟩

/-- What is written is a refusal, a reply or a call. -/
theorem Exec.written {s : St S} {tr : List (Ev S)} (hr : Exec side tr s) {f : S.Frame} (hf : f ∈ written tr) :
    (∃ k id c, Ev.refuse k id c true ∈ tr ∧ f = S.encRefusal id c) ∨
    (∃ id resp err, Ev.answer id resp err (some f) ∈ tr ∧ S.encReply id resp err = .ok f ∧ (id, resp, err) ∈ handlerRets tr) ∨
    (∃ i x, (i, f) ∈ Conn.callsOut tr ∧ s.senders[i]? = some x ∧ S.encCall x.id x.req = .ok f ∧ Ev.send i x.id x.req ∈ tr) := by
  simp only [Conn.written, List.mem_filterMap] at hf
  obtain ⟨e, he, hw⟩ := hf
  cases e <;> simp only [Ev.wrote, reduceCtorEq] at hw
  case refuse k id c ok =>
    cases ok <;> simp only [Ev.wrote, reduceCtorEq, Option.some.injEq] at hw
    exact .inl ⟨k, id, c, he, hw.symm⟩
  case answer id resp err w =>
    subst hw
    refine .inr (.inl ⟨id, resp, err, he, ?_, ?_⟩)
    · induction hr with
      | nil => simp at he
      | @snoc tr e s s' hr hs ih =>
        rw [List.mem_append, List.mem_singleton] at he
        rcases he with he | he
        · exact ih he
        · subst he
          cases hs
          assumption
    · have := (Exec.handler hr).2
      rw [this, List.mem_append]
      left
      simp only [answers, List.mem_filterMap]
      exact ⟨_, he, rfl⟩
  case writeCall i w =>
    subst hw
    have hm : (i, f) ∈ Conn.callsOut tr := by
      simp only [Conn.callsOut, List.mem_filterMap]
      exact ⟨_, he, rfl⟩
    obtain ⟨x, hx, hf, -⟩ := (Exec.callsOut hr).2 i f hm
    exact .inr (.inr ⟨i, x, hm, hx, Exec.frames hr i x f hx hf, by simpa using (Exec.sends hr i x hx).1⟩)

theorem mem_handlerRets {tr : List (Ev S)} {id : String} {resp : Option S.Resp} {err : Option String} :
    (id, resp, err) ∈ handlerRets tr ↔ Ev.handlerRet id resp err ∈ tr := by
  simp only [handlerRets, List.mem_filterMap]
  constructor
  · rintro ⟨e, he, hx⟩
    cases e <;> simp at hx
    obtain ⟨rfl, rfl, rfl⟩ := hx
    exact he
  · exact fun h => ⟨_, h, rfl⟩

/-- A sender that has returned an answer is there. -/
theorem Exec.finish_sender {s : St S} {tr : List (Ev S)} (hr : Exec side tr s) {i : Nat} {a : Answer S}
    (h : Ev.finish i a ∈ tr) : ∃ x, s.senders[i]? = some x := by
  induction hr with
  | nil => simp at h
  | @snoc tr e s s' hr hs ih =>
    rw [List.mem_append, List.mem_singleton] at h
    rcases h with h | h
    · obtain ⟨x, hx⟩ := ih h
      obtain ⟨y, hy, -⟩ := senders_step hs hx
      exact ⟨y, hy⟩
    · subst h
      cases hs with
      | @finish _ _ x hc hx hp =>
        have hlt : i < s.senders.length := (List.getElem?_eq_some_iff.1 hx).1
        exact ⟨_, by simp [St.setPhase, hlt]; rfl⟩

/-- Of what is written, only calls can be taken for requests. -/
theorem written_filterMap {β : Type} (g : S.Frame → Option β) (tr : List (Ev S))
    (h1 : ∀ id c, g (S.encRefusal id c) = none) (h2 : ∀ id resp err f, Ev.answer id resp err (some f) ∈ tr → g f = none) :
    (written tr).filterMap g = (callsOut tr).filterMap (fun x => g x.2) := by
  induction tr with
  | nil => rfl
  | cons e tr ih =>
    have ih' := ih fun id resp err f hm => h2 id resp err f (List.mem_cons_of_mem _ hm)
    unfold written callsOut at *
    rw [List.filterMap_cons, List.filterMap_cons]
    cases e <;> simp only [Ev.wrote, Ev.callOut]
    case refuse k id c ok =>
      cases ok <;> simp only [Ev.wrote, Ev.callOut, List.filterMap_cons, h1, ih']
    case answer id resp err w =>
      cases w with
      | none => exact ih'
      | some f => rw [List.filterMap_cons, h2 id resp err f (by simp)]; exact ih'
    case writeCall i w =>
      cases w with
      | none => exact ih'
      | some f =>
        rw [List.filterMap_cons, List.filterMap_cons]
        cases hg : g f <;> simp only [ih']
    all_goals exact ih'

end Verif.Conn
