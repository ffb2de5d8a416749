import Verif.Lemmas.Conn3
set_option linter.unusedSimpArgs false
namespace Verif.Conn
variable {S : Sem} {side : Side}

theorem afterRead_toSender {s : St S} {f : S.Frame} {i : Nat} {a : Answer S}
    (h : afterRead s f = some (.toSender (some i) a)) :
    ∃ id act, s.sent id = some act ∧ s.chan id = some i ∧ AnswerTo id act f a := by
  unfold afterRead at h
  repeat' split at h
  all_goals simp at h
  · obtain ⟨h1, rfl⟩ := h; exact ⟨_, _, by assumption, h1, .code (by assumption) (by assumption)⟩
  · obtain ⟨h1, rfl⟩ := h; exact ⟨_, _, by assumption, h1, .resp (by assumption) (by assumption)⟩
  · obtain ⟨h1, rfl⟩ := h; exact ⟨_, _, by assumption, h1, .callErr (by assumption)⟩

/-- Every step keeps the senders' identities. -/
theorem senders_step {s s' : St S} {e : Ev S} (hs : Step side s e s') {i : Nat} {x : Sender S}
    (hx : s.senders[i]? = some x) :
    ∃ y, s'.senders[i]? = some y ∧ y.id = x.id ∧ y.req = x.req := by
  have hlt : i < s.senders.length := (List.getElem?_eq_some_iff.1 hx).1
  cases hs <;>
    simp only [St.setReader, St.setPhase, List.getElem?_set] at * <;>
    grind

/-- Origin of answers. -/
structure PInv (tr : List (Ev S)) (s : St S) : Prop where
  got : ∀ (k : Nat) (f : S.Frame), s.readers[k]? = some (.got f) → [Ev.read k f].Sublist tr
  toSender : ∀ (k i : Nat) (a : Answer S), s.readers[k]? = some (.toSender (some i) a) →
    ∃ f x, s.senders[i]? = some x ∧ AnswerTo x.id (S.action x.req) f a ∧
      [Ev.read k f, .dispatch k].Sublist tr ∧
      [Ev.send i x.id x.req, .regSent i, .dispatch k].Sublist tr
  received : ∀ (i : Nat) (x : Sender S) (a : Answer S), s.senders[i]? = some x → x.phase = .received a →
    ∃ k f, AnswerTo x.id (S.action x.req) f a ∧
      [Ev.read k f, .dispatch k, .deliver k i].Sublist tr ∧
      [Ev.send i x.id x.req, .regSent i, .dispatch k, .deliver k i].Sublist tr
  finish : ∀ (i : Nat) (a : Answer S), Ev.finish i a ∈ tr →
    ∃ k f id r, AnswerTo id (S.action r) f a ∧
      [Ev.read k f, .dispatch k, .deliver k i, .finish i a].Sublist tr ∧
      [Ev.send i id r, .regSent i, .dispatch k, .deliver k i, .finish i a].Sublist tr

theorem Exec.pinv {s : St S} {tr : List (Ev S)} (hr : Exec side tr s) : PInv tr s := by
  induction hr with
  | nil => constructor <;> simp [init]
  | @snoc tr e s s' hr hs ih =>
    have hm := Exec.minv hr
    have hsd := Exec.sends hr
    refine ⟨?_, ?_, ?_, ?_⟩
    · intro k f hk
      have hold : s.readers[k]? = some (.got f) → [Ev.read k f].Sublist (tr ++ [e]) :=
        fun h => sub_snoc (ih.got k f h)
      cases hs
      case read k' f' hc hk' =>
        simp only [St.setReader, List.getElem?_set] at hk
        by_cases hkk : k' = k
        · subst hkk
          have : f' = f := by grind
          subst this; simp
        · simp [hkk] at hk; exact hold hk
      case dispatch k' f' p hc hk' hp =>
        simp only [St.setReader, List.getElem?_set] at hk
        by_cases hkk : k' = k
        · subst hkk
          have : p = .got f := by grind
          subst this
          unfold afterRead at hp
          repeat' split at hp
          all_goals simp at hp
        · simp [hkk] at hk; exact hold hk
      all_goals
        simp only [St.setReader, St.setPhase, List.getElem?_set, getElem?_append_one] at hk
        grind
    · intro k i a hk
      have hold : s.readers[k]? = some (.toSender (some i) a) → ∃ f x, s'.senders[i]? = some x ∧
          AnswerTo x.id (S.action x.req) f a ∧
          [Ev.read k f, .dispatch k].Sublist (tr ++ [e]) ∧
          [Ev.send i x.id x.req, .regSent i, .dispatch k].Sublist (tr ++ [e]) := by
        intro h
        obtain ⟨f, x, h1, h2, h3, h4⟩ := ih.toSender k i a h
        obtain ⟨y, hy, hy1, hy2⟩ := senders_step hs h1
        exact ⟨f, y, hy, by rw [hy1, hy2]; exact h2, sub_snoc h3, by rw [hy1, hy2]; exact sub_snoc h4⟩
      by_cases hd : e = .dispatch k
      · subst hd
        cases hs with
        | dispatch hc hk' hp =>
          rename_i f p
          have hlt : k < s.readers.length := (List.getElem?_eq_some_iff.1 hk').1
          simp [St.setReader, List.getElem?_set, hlt] at hk
          subst hk
          obtain ⟨id, act, h1, h2, h3⟩ := afterRead_toSender hp
          obtain ⟨x, hx, hid, hph⟩ := (hm.chan id i).1 h2
          obtain ⟨j, y, hy, hyid, hact, hph'⟩ := (hm.sent id act).1 h1
          have hji := hm.ids _ _ _ _ hy hx (hyid.trans hid.symm)
          subst hji
          rw [hx] at hy; cases hy
          refine ⟨f, x, hx, by rw [hid, ← hact]; exact h3, ?_, ?_⟩
          · exact sub_snoc' (l := [Ev.read k f]) (ih.got k f hk')
          · exact sub_snoc' (l := [Ev.send j x.id x.req, .regSent j])
              ((hsd j x hx).2 (by intro h; simp [h, Phase.inSent] at hph')
                (by intro h; simp [h, Phase.inSent] at hph'))
        | dispatchPanic hc hk' hp => exact hold hk
      · apply hold
        clear hold ih hm hsd hr
        cases hs <;>
        simp only [St.setReader, St.setPhase, List.getElem?_set, getElem?_append_one] at hk <;>
        grind
    · intro i x a hx hp
      have hold : ∀ y, s.senders[i]? = some y → y.id = x.id → y.req = x.req → y.phase = .received a →
          ∃ k f, AnswerTo x.id (S.action x.req) f a ∧
          [Ev.read k f, .dispatch k, .deliver k i].Sublist (tr ++ [e]) ∧
          [Ev.send i x.id x.req, .regSent i, .dispatch k, .deliver k i].Sublist (tr ++ [e]) := by
        intro y h1 h2 h3 h4
        obtain ⟨k, f, h5, h6, h7⟩ := ih.received i y a h1 h4
        rw [h2, h3] at *
        exact ⟨k, f, h5, sub_snoc h6, sub_snoc h7⟩
      by_cases hd : ∃ k, e = .deliver k i
      · obtain ⟨k, rfl⟩ := hd
        cases hs with
        | deliver hc hk hy hph =>
          rename_i a' y
          obtain ⟨f, x', h1, h2, h3, h4⟩ := ih.toSender k i a' hk
          rw [hy] at h1; cases h1
          have hlt : i < s.senders.length := (List.getElem?_eq_some_iff.1 hy).1
          simp [St.setReader, St.setPhase, List.getElem?_set, hlt] at hx
          subst hx
          simp at hp; subst hp
          exact ⟨k, f, h2, sub_snoc' (l := [Ev.read k f, .dispatch k]) h3,
            sub_snoc' (l := [Ev.send i y.id y.req, .regSent i, .dispatch k]) h4⟩
      · apply hold x ?_ rfl rfl hp
        replace hd : ∀ k, e ≠ .deliver k i := fun k h => hd ⟨k, h⟩
        clear hold ih hm hsd hr
        cases hs <;>
        simp only [St.setReader, St.setPhase, List.getElem?_set, getElem?_append_one] at hx <;>
        grind
    · intro i a hf
      rw [List.mem_append] at hf
      rcases hf with hf | hf
      · obtain ⟨k, f, id, r, h1, h2, h3⟩ := ih.finish i a hf
        exact ⟨k, f, id, r, h1, sub_snoc h2, sub_snoc h3⟩
      · simp at hf; subst hf
        cases hs with
        | finish hc hx hp =>
          rename_i x
          obtain ⟨k, f, h1, h2, h3⟩ := ih.received i x a hx hp
          exact ⟨k, f, x.id, x.req, h1, sub_snoc' (l := [Ev.read k f, .dispatch k, .deliver k i]) h2,
            sub_snoc' (l := [Ev.send i x.id x.req, .regSent i, .dispatch k, .deliver k i]) h3⟩

/-! ### Each frame, each delivery, each return at most once -/

theorem Exec.reads_once {s : St S} {tr : List (Ev S)} (hr : Exec side tr s) (k : Nat) :
    tr.countP (Ev.isRead k) ≤ 1 ∧
    ((s.readers[k]? = none ∨ s.readers[k]? = some .reading) → tr.countP (Ev.isRead k) = 0) := by
  induction hr with
  | nil => simp
  | @snoc tr e s s' hr hs ih =>
    rw [List.countP_append]
    cases hs <;>
    simp only [St.setReader, St.setPhase, List.getElem?_set, List.getElem?_append] at * <;>
    grind [Ev.isRead, afterRead]

theorem Exec.deliver_once {s : St S} {tr : List (Ev S)} (hr : Exec side tr s) :
    (∀ k i i', Ev.deliver k i ∈ tr → Ev.deliver k i' ∈ tr → i = i') ∧
    (∀ k k' i, Ev.deliver k i ∈ tr → Ev.deliver k' i ∈ tr → k = k') ∧
    (∀ k i, Ev.deliver k i ∈ tr → ∃ p, s.readers[k]? = some p ∧ p.active = false) ∧
    (∀ k i, Ev.deliver k i ∈ tr → ∃ x, s.senders[i]? = some x ∧
      ((∃ a, x.phase = .received a) ∨ ∃ a, x.phase = .done (.answered a))) := by
  induction hr with
  | nil => simp
  | @snoc tr e s s' hr hs ih =>
    obtain ⟨h1, h2, h3, h4⟩ := ih
    have hr : ∀ (k : Nat) p, s.readers[k]? = some p → k < s.readers.length :=
      fun k p h => (List.getElem?_eq_some_iff.1 h).1
    have hq : ∀ (k : Nat) p, s.senders[k]? = some p → k < s.senders.length :=
      fun k p h => (List.getElem?_eq_some_iff.1 h).1
    simp only [List.mem_append, List.mem_singleton]
    refine ⟨?_, ?_, ?_, ?_⟩
    · clear h2
      cases hs <;> grind [Reader.active]
    · clear h1
      cases hs <;> grind [Reader.active]
    · clear h1 h2 h4
      cases hs <;>
      simp only [St.setReader, St.setPhase, List.getElem?_set, List.getElem?_append] at * <;>
      grind [Reader.active]
    · clear h1 h2 h3
      intro k i hd
      by_cases hd' : e = .deliver k i
      · subst hd'
        cases hs with
        | deliver hc hk hx hp =>
          have := hq _ _ hx
          simp [St.setReader, St.setPhase, this]
      · have hd'' : Ev.deliver k i ∈ tr := by
          rcases hd with h | h
          · exact h
          · exact absurd h.symm hd'
        obtain ⟨x, hx, hph⟩ := h4 k i hd''
        clear hd h4
        cases hs <;>
        simp only [St.setReader, St.setPhase, List.getElem?_set, List.getElem?_append] at * <;>
        grind

/-- The call has returned. -/
def Phase.isDone : Phase S → Bool
  | .done _ => true
  | _ => false

/-- Sender `i` exists and has returned. -/
def St.returned (s : St S) (i : Nat) : Bool :=
  match s.senders[i]? with
  | some x => x.phase.isDone
  | none => false

theorem Exec.returns_once {s : St S} {tr : List (Ev S)} (hr : Exec side tr s) (i : Nat) :
    tr.countP (Ev.returns i) ≤ 1 ∧
    (s.returned i = false → tr.countP (Ev.returns i) = 0) := by
  induction hr with
  | nil => simp
  | @snoc tr e s s' hr hs ih =>
    have hq : ∀ (k : Nat) p, s.senders[k]? = some p → k < s.senders.length :=
      fun k p h => (List.getElem?_eq_some_iff.1 h).1
    rw [List.countP_append]
    cases hs <;>
    simp only [St.setReader, St.setPhase, List.getElem?_set, List.getElem?_append,
      St.returned] at * <;>
    grind [Ev.returns, Phase.isDone]

end Verif.Conn
