import Mathlib.Tactic.ByContra
import Verif.Model.Mutex
/-! # C31: writes do not interleave -/
namespace Verif.Mutex
variable {C : Type}

/-! ### Specification -/

/-- What has been given to the socket. -/
def wire (tr : List (Ev C)) : List C := tr.filterMap fun | .chunk _ c => some c | _ => none

/-- The frames of the calls that returned nil, in the order in which they returned. -/
def completed (tr : List (Ev C)) : List (List C) := tr.filterMap fun | .done _ f => some f | _ => none

/-- The event is the return of call `i`. -/
def Ev.ends (i : Nat) : Ev C → Bool
  | .done j _ => i == j
  | .fail j => i == j
  | _ => false

/-! ### Proof -/

/-- Who holds the lock, and what is on the wire. -/
structure Inv (tr : List (Ev C)) (s : St C) : Prop where
  same : s.wire = wire tr
  holder : ∀ (i : Nat) (a b : List C), s.th[i]? = some (.inside a b) → s.lock = some i
  held : ∀ i, s.lock = some i → ∃ a b, s.th[i]? = some (.inside a b)
  wire : ∀ (i : Nat) (a b : List C), s.th[i]? = some (.inside a b) →
    s.broken = false → s.wire = (completed tr).flatten ++ a
  idle : s.lock = none → s.broken = false → s.wire = (completed tr).flatten
  pre : ∃ t, s.wire = (completed tr).flatten ++ t
  brk : s.broken = true → ∀ (i : Nat) (a b : List C), s.th[i]? = some (.inside a b) → a = []

theorem Run.inv {tr : List (Ev C)} {s : St C} (h : Run tr s) : Inv tr s := by
  induction h with
  | nil => constructor <;> simp [init, Mutex.wire, completed]
  | @snoc tr s l s' hr hs ih =>
    obtain ⟨h0, h1, h2, h3, h4, h5, h6⟩ := ih
    have hlt : ∀ (k : Nat) (x : Th C), s.th[k]? = some x → k < s.th.length :=
      fun k p h => (List.getElem?_eq_some_iff.1 h).1
    have cw : ∀ e, Mutex.wire (tr ++ [e]) = Mutex.wire tr ++ Mutex.wire [e] := fun e => List.filterMap_append ..
    have cc : ∀ e, completed (tr ++ [e]) = completed tr ++ completed [e] := fun e => List.filterMap_append ..
    cases hs with
    | call f =>
      have key : ∀ (i : Nat) a b, (s.th ++ [.want f])[i]? = some (.inside a b) ↔
          s.th[i]? = some (.inside a b) := by
        intro i a b
        rw [List.getElem?_append]; split
        · rfl
        · rename_i hi
          have hn : s.th[i]? = none := List.getElem?_eq_none (by omega)
          rw [hn]
          by_cases h : i - s.th.length = 0 <;> simp [h]
      have he : completed (tr ++ [Ev.call s.th.length f]) = completed tr := by rw [cc]; simp [completed]
      constructor <;> simp only [key, he] <;> try assumption
      rw [h0, cw]; simp [Mutex.wire]
    | @acquire i f hl hi =>
      have key : ∀ (j : Nat) a b, (s.th.set i (.inside [] f))[j]? = some (.inside a b) ↔
          j = i ∧ a = [] ∧ b = f := by
        intro j a b
        rw [List.getElem?_set]
        have := hlt i _ hi
        by_cases hij : i = j
        · subst hij; simp [this]; exact fun _ => eq_comm
        · simp [hij]; constructor
          · intro h; have := h1 j a b h; rw [hl] at this; simp at this
          · rintro ⟨rfl, _⟩; simp at hij
      have he : completed (tr ++ [Ev.lock i]) = completed tr := by rw [cc]; simp [completed]
      constructor <;> simp only [key, he]
      · rw [h0, cw]; simp [Mutex.wire]
      · rintro j a b ⟨rfl, _⟩; rfl
      · intro j hj; simp at hj; subst hj; exact ⟨[], f, rfl, rfl, rfl⟩
      · rintro j a b ⟨rfl, rfl, rfl⟩ hb; simp [h4 hl hb]
      · simp
      · exact h5
      · rintro _ j a b ⟨_, rfl, _⟩; rfl
    | @chunk i a c b hb hi =>
      have key : ∀ (j : Nat) a' b', (s.th.set i (.inside (a ++ [c]) b))[j]? = some (.inside a' b') ↔
          j = i ∧ a' = a ++ [c] ∧ b' = b := by
        intro j a' b'
        rw [List.getElem?_set]
        have := hlt i _ hi
        by_cases hij : i = j
        · subst hij; simp [this]; constructor <;> (rintro ⟨rfl, rfl⟩; simp)
        · simp [hij]; constructor
          · intro h
            have e1 := h1 j _ _ h; have e2 := h1 i _ _ hi
            rw [e1] at e2; simp at e2; exact absurd e2.symm hij
          · rintro ⟨rfl, _⟩; simp at hij
      have hl := h1 i _ _ hi
      have hw := h3 i _ _ hi hb
      have he : completed (tr ++ [Ev.chunk i c]) = completed tr := by rw [cc]; simp [completed]
      constructor <;> simp only [key, he]
      · rw [h0, cw]; simp [Mutex.wire]
      · rintro j a' b' ⟨rfl, _⟩; exact hl
      · intro j hj; rw [hl] at hj; simp at hj; subst hj; exact ⟨_, _, rfl, rfl, rfl⟩
      · rintro j a' b' ⟨rfl, rfl, rfl⟩ _; simp [hw]
      · simp [hl]
      · exact ⟨a ++ [c], by simp [hw]⟩
      · simp [hb]
    | @done i a hi =>
      have hl := h1 i _ _ hi
      have key : ∀ (j : Nat) a' b', (s.th.set i (.out true))[j]? = some (.inside a' b') ↔ False := by
        intro j a' b'
        rw [List.getElem?_set]
        have := hlt i _ hi
        by_cases hij : i = j
        · subst hij; simp [this]
        · simp [hij]
          intro h; have := h1 j _ _ h; rw [hl] at this; simp at this; exact hij this
      have he : completed (tr ++ [Ev.done i a]) = completed tr ++ [a] := by rw [cc]; simp [completed]
      constructor <;> simp only [key, he]
      · rw [h0, cw]; simp [Mutex.wire]
      · simp
      · simp
      · simp
      · intro _ hb; simp [h3 i _ _ hi hb]
      · obtain ⟨t, ht⟩ := h5
        by_cases hb : s.broken = false
        · exact ⟨[], by simp [h3 i _ _ hi hb]⟩
        · have := h6 (by simpa using hb) i _ _ hi
          exact ⟨t, by simp [this, ht]⟩
      · simp
    | @fail i a b hi =>
      have hl := h1 i _ _ hi
      have key : ∀ (j : Nat) a' b', (s.th.set i (.out false))[j]? = some (.inside a' b') ↔ False := by
        intro j a' b'
        rw [List.getElem?_set]
        have := hlt i _ hi
        by_cases hij : i = j
        · subst hij; simp [this]
        · simp [hij]
          intro h; have := h1 j _ _ h; rw [hl] at this; simp at this; exact hij this
      have he : completed (tr ++ [Ev.fail i]) = completed tr := by rw [cc]; simp [completed]
      constructor <;> simp only [key, he] <;> try simp [h5]
      rw [h0, cw]; simp [Mutex.wire]

/-- Where a call is, in terms of the schedule. -/
def Place (tr : List (Ev C)) (i : Nat) : Th C → Prop
  | .want f => Ev.call i f ∈ tr ∧ tr.countP (Ev.ends i) = 0
  | .inside a b => Ev.call i (a ++ b) ∈ tr ∧ tr.countP (Ev.ends i) = 0
  | .out true => tr.countP (Ev.ends i) = 1 ∧ ∃ f, Ev.done i f ∈ tr
  | .out false => tr.countP (Ev.ends i) = 1 ∧ Ev.fail i ∈ tr

structure Calls (tr : List (Ev C)) (s : St C) : Prop where
  place : ∀ i x, s.th[i]? = some x → Place tr i x
  known : ∀ i, s.th.length ≤ i → tr.countP (Ev.ends i) = 0 ∧ ∀ f, Ev.call i f ∉ tr
  uniq : ∀ i f g, Ev.call i f ∈ tr → Ev.call i g ∈ tr → f = g
  whole : ∀ i f, Ev.done i f ∈ tr → Ev.call i f ∈ tr
  ok : ∀ i, Ev.fail i ∈ tr → s.broken = true

theorem Run.calls {tr : List (Ev C)} {s : St C} (h : Run tr s) : Calls tr s := by
  induction h with
  | nil => constructor <;> simp [init]
  | @snoc tr s e s' hr hs ih =>
    obtain ⟨h1, h2, h3, h4, h5⟩ := ih
    have hlt : ∀ (k : Nat) (x : Th C), s.th[k]? = some x → k < s.th.length :=
      fun k p h => (List.getElem?_eq_some_iff.1 h).1
    have keep : ∀ (i : Nat) (x : Th C), Place tr i x → e.ends i = false → Place (tr ++ [e]) i x := by
      intro i x hp he
      rcases x with f | ⟨a, b⟩ | ok
      · exact ⟨by simp [hp.1], by simp [List.countP_append, hp.2, he]⟩
      · exact ⟨by simp [hp.1], by simp [List.countP_append, hp.2, he]⟩
      · cases ok
        · exact ⟨by simp [List.countP_append, hp.1, he], by simp [hp.2]⟩
        · obtain ⟨k1, f, k2⟩ := hp
          exact ⟨by simp [List.countP_append, k1, he], f, by simp [k2]⟩
    cases hs with
    | call f =>
      have hc := (h2 s.th.length (Nat.le_refl _)).2
      refine ⟨?_, ?_, ?_, ?_, ?_⟩
      · intro i x hx
        rw [List.getElem?_append] at hx
        split at hx
        · exact keep i x (h1 i x hx) rfl
        · rename_i hi
          have : i = s.th.length := by
            by_contra hne
            rw [List.getElem?_eq_none (by simp; omega)] at hx
            cases hx
          subst this
          simp at hx
          subst hx
          exact ⟨by simp, by simp [List.countP_append, (h2 _ (Nat.le_refl _)).1, Ev.ends]⟩
      · intro i hi
        simp at hi
        have := h2 i (by omega)
        refine ⟨by simp [List.countP_append, this.1, Ev.ends], fun g hg => ?_⟩
        simp at hg
        rcases hg with hg | ⟨hg, -⟩
        · exact this.2 g hg
        · omega
      · intro i g g' hg hg'
        simp at hg hg'
        rcases hg with hg | ⟨rfl, rfl⟩ <;> rcases hg' with hg' | ⟨k, rfl⟩
        · exact h3 i g g' hg hg'
        · subst k; exact absurd hg (hc g)
        · exact absurd hg' (hc g')
        · rfl
      · intro i g hg
        simp at hg
        simp [h4 i g hg]
      · intro i hi
        simp at hi
        exact h5 i hi
    | @acquire i f hl hi =>
      refine ⟨?_, ?_, ?_, ?_, ?_⟩
      · intro j x hx
        rw [List.getElem?_set] at hx
        by_cases hij : i = j
        · subst hij
          simp [hlt i _ hi] at hx
          subst hx
          have := h1 i _ hi
          exact ⟨by simp [this.1], by simp [List.countP_append, this.2, Ev.ends]⟩
        · simp [hij] at hx
          exact keep j x (h1 j x hx) rfl
      · intro j hj
        simp at hj
        have := h2 j hj
        exact ⟨by simp [List.countP_append, this.1, Ev.ends], by simp [this.2]⟩
      · intro j g g' hg hg'
        simp at hg hg'
        exact h3 j g g' hg hg'
      · intro j g hg
        simp at hg
        simp [h4 j g hg]
      · intro j hj
        simp at hj
        exact h5 j hj
    | @chunk i a c b hb hi =>
      refine ⟨?_, ?_, ?_, ?_, ?_⟩
      · intro j x hx
        rw [List.getElem?_set] at hx
        by_cases hij : i = j
        · subst hij
          simp [hlt i _ hi] at hx
          subst hx
          have := h1 i _ hi
          exact ⟨by simp [this.1], by simp [List.countP_append, this.2, Ev.ends]⟩
        · simp [hij] at hx
          exact keep j x (h1 j x hx) rfl
      · intro j hj
        simp at hj
        have := h2 j hj
        exact ⟨by simp [List.countP_append, this.1, Ev.ends], by simp [this.2]⟩
      · intro j g g' hg hg'
        simp at hg hg'
        exact h3 j g g' hg hg'
      · intro j g hg
        simp at hg
        simp [h4 j g hg]
      · intro j hj
        simp at hj
        exact h5 j hj
    | @done i a hi =>
      have hp := h1 i _ hi
      refine ⟨?_, ?_, ?_, ?_, ?_⟩
      · intro j x hx
        rw [List.getElem?_set] at hx
        by_cases hij : i = j
        · subst hij
          simp [hlt i _ hi] at hx
          subst hx
          exact ⟨by simp [List.countP_append, hp.2, Ev.ends], a, by simp⟩
        · simp [hij] at hx
          exact keep j x (h1 j x hx) (by simp [Ev.ends, Ne.symm hij])
      · intro j hj
        simp at hj
        have := h2 j hj
        have hne : j ≠ i := by have := hlt i _ hi; omega
        exact ⟨by simp [List.countP_append, this.1, Ev.ends, hne], by simp [this.2]⟩
      · intro j g g' hg hg'
        simp at hg hg'
        exact h3 j g g' hg hg'
      · intro j g hg
        simp at hg
        rcases hg with hg | ⟨rfl, rfl⟩
        · simp [h4 j g hg]
        · simpa using hp.1
      · intro j hj
        simp at hj
        exact h5 j hj
    | @fail i a b hi =>
      have hp := h1 i _ hi
      refine ⟨?_, ?_, ?_, ?_, fun _ _ => rfl⟩
      · intro j x hx
        rw [List.getElem?_set] at hx
        by_cases hij : i = j
        · subst hij
          simp [hlt i _ hi] at hx
          subst hx
          exact ⟨by simp [List.countP_append, hp.2, Ev.ends], by simp⟩
        · simp [hij] at hx
          exact keep j x (h1 j x hx) (by simp [Ev.ends, Ne.symm hij])
      · intro j hj
        simp at hj
        have := h2 j hj
        have hne : j ≠ i := by have := hlt i _ hi; omega
        exact ⟨by simp [List.countP_append, this.1, Ev.ends, hne], by simp [this.2]⟩
      · intro j g g' hg hg'
        simp at hg hg'
        exact h3 j g g' hg hg'
      · intro j g hg
        simp at hg
        simp [h4 j g hg]

/-- What is on the wire beyond the frames of the calls that returned nil. -/
theorem Run.tail {tr : List (Ev C)} {s : St C} (h : Run tr s) :
    ∃ t, Mutex.wire tr = (completed tr).flatten ++ t ∧ (t = [] ∨ ∃ i u, Ev.call i (t ++ u) ∈ tr ∧ ∀ f, Ev.done i f ∉ tr) := by
  induction h with
  | nil => exact ⟨[], rfl, .inl rfl⟩
  | @snoc tr s e s' hr hs ih =>
    have hi := hr.inv
    have hc := hr.calls
    have cw : ∀ e, Mutex.wire (tr ++ [e]) = Mutex.wire tr ++ Mutex.wire [e] := fun e => List.filterMap_append ..
    have cc : ∀ e, completed (tr ++ [e]) = completed tr ++ completed [e] := fun e => List.filterMap_append ..
    have same : ∀ e : Ev C, Mutex.wire [e] = [] → completed [e] = [] → (∀ i f, e ≠ .done i f) →
        ∃ t, Mutex.wire (tr ++ [e]) = (completed (tr ++ [e])).flatten ++ t ∧
          (t = [] ∨ ∃ i u, Ev.call i (t ++ u) ∈ tr ++ [e] ∧ ∀ f, Ev.done i f ∉ tr ++ [e]) := by
      intro e h1 h2 h3
      obtain ⟨t, k1, k2⟩ := ih
      refine ⟨t, by rw [cw, cc, h1, h2]; simpa using k1, k2.imp id ?_⟩
      rintro ⟨i, u, k3, k4⟩
      exact ⟨i, u, List.mem_append_left _ k3, fun f hf => by
        rcases List.mem_append.1 hf with hf | hf
        · exact k4 f hf
        · exact h3 i f (List.mem_singleton.1 hf).symm⟩
    have undone : ∀ i (a b : List C), s.th[i]? = some (.inside a b) → ∀ f, Ev.done i f ∉ tr := by
      intro i a b hx f hf
      have := (hc.place i _ hx).2
      rw [List.countP_eq_zero] at this
      exact this _ hf (by simp [Ev.ends])
    cases hs with
    | call f => exact same _ rfl rfl (by simp)
    | acquire => exact same _ rfl rfl (by simp)
    | fail => exact same _ rfl rfl (by simp)
    | @chunk i a c b hb hx =>
      refine ⟨a ++ [c], ?_, .inr ⟨i, b, ?_, ?_⟩⟩
      · rw [cw, cc, ← hi.same, hi.wire i _ _ hx hb]; simp [Mutex.wire, completed]
      · have := (hc.place i _ hx).1
        simp [this]
      · intro f hf
        rcases List.mem_append.1 hf with hf | hf
        · exact undone i _ _ hx f hf
        · simp at hf
    | @done i a hx =>
      by_cases hb : s.broken = false
      · exact ⟨[], by rw [cw, cc, ← hi.same, hi.wire i _ _ hx hb]; simp [Mutex.wire, completed], .inl rfl⟩
      · have ha := hi.brk (by simpa using hb) i _ _ hx
        subst ha
        obtain ⟨t, k1, k2⟩ := ih
        refine ⟨t, by rw [cw, cc]; simpa [Mutex.wire, completed] using k1, ?_⟩
        rcases k2 with rfl | ⟨j, u, k3, k4⟩
        · exact .inl rfl
        · by_cases ht : t = []
          · exact .inl ht
          refine .inr ⟨j, u, List.mem_append_left _ k3, fun f hf => ?_⟩
          rcases List.mem_append.1 hf with hf | hf
          · exact k4 f hf
          · simp at hf
            obtain ⟨rfl, rfl⟩ := hf
            have := hc.uniq j _ _ k3 (hc.place j _ hx).1
            simp [ht] at this

/-- **C31** In every schedule: at most one goroutine is inside a socket write; what the socket has been given is the
sequence of the frames of the calls that have returned nil, in the order in which they returned, followed by the beginning of the frame of
at most one further call; as long as no write failed those chunks are exactly what the goroutine inside has
written of its frame, and there are none if no goroutine is inside. -/
theorem C31_writes_do_not_interleave {tr : List (Ev C)} {s : St C} (h : Run tr s) :
    (∀ (i j : Nat) (a b a' b' : List C), s.th[i]? = some (.inside a b) →
      s.th[j]? = some (.inside a' b') → i = j) ∧
    (∃ t, wire tr = (completed tr).flatten ++ t ∧ (t = [] ∨ ∃ i u, Ev.call i (t ++ u) ∈ tr ∧ ∀ f, Ev.done i f ∉ tr)) ∧
    (s.broken = false → ∀ (i : Nat) (a b : List C), s.th[i]? = some (.inside a b) →
      wire tr = (completed tr).flatten ++ a ∧ Ev.call i (a ++ b) ∈ tr) ∧
    (s.broken = false → (∀ (i : Nat) (a b : List C), s.th[i]? ≠ some (.inside a b)) →
      wire tr = (completed tr).flatten) := by
  have hi := Run.inv h
  have htail := h.tail
  rw [← hi.same] at htail ⊢
  refine ⟨?_, htail, fun hb i a b hia => ⟨hi.wire i a b hia hb, ((Run.calls h).place i _ hia).1⟩, ?_⟩
  · intro i j a b a' b' h1 h2
    have e1 := hi.holder _ _ _ h1
    have e2 := hi.holder _ _ _ h2
    rw [e1] at e2; simpa using e2
  · intro hb hno
    apply hi.idle _ hb
    by_contra hc
    obtain ⟨i, hl⟩ := Option.ne_none_iff_exists'.1 hc
    obtain ⟨a, b, hab⟩ := hi.held i hl
    exact hno i a b hab

/-- **C31** Every call returns at most once, and when it returns nil it has written exactly its own frame. -/
theorem C31_own_frame {tr : List (Ev C)} {s : St C} (h : Run tr s) (i : Nat) :
    tr.countP (Ev.ends i) ≤ 1 ∧ ∀ f, Ev.done i f ∈ tr → Ev.call i f ∈ tr ∧ ∀ g, Ev.call i g ∈ tr → g = f := by
  have hc := Run.calls h
  refine ⟨?_, fun f hf => ⟨hc.whole i f hf, fun g hg => hc.uniq i g f hg (hc.whole i f hf)⟩⟩
  by_cases hlt : s.th.length ≤ i
  · rw [(hc.known i hlt).1]; omega
  · have hx := List.getElem?_eq_getElem (Nat.lt_of_not_le hlt)
    have := hc.place i _ hx
    revert this
    rcases s.th[i] with f | ⟨a, b⟩ | ok
    · intro hp; rw [hp.2]; omega
    · intro hp; rw [hp.2]; omega
    · cases ok <;> (intro hp; exact Nat.le_of_eq hp.1)

/-- Non-vacuity: two goroutines want to send; the first completes a two-chunk frame. -/
example : ∃ s : St Nat, Run [.call 0 [1, 2], .call 1 [3], .lock 0, .chunk 0 1, .chunk 0 2, .done 0 [1, 2]] s ∧ s.wire = [1, 2] ∧ s.th.length = 2 := by
  have r0 : Run (C := Nat) [] (init Nat) := .nil
  have r1 := Run.snoc r0 (Step.call [1, 2])
  have r2 := Run.snoc r1 (Step.call [3])
  have r3 := Run.snoc r2 (Step.acquire (i := 0) (f := [1, 2]) rfl rfl)
  have r4 := Run.snoc r3 (Step.chunk (i := 0) (a := []) (c := 1) (b := [2]) rfl rfl)
  have r5 := Run.snoc r4 (Step.chunk (i := 0) (a := [1]) (c := 2) (b := []) rfl rfl)
  have r6 := Run.snoc r5 (Step.done (i := 0) (a := [1, 2]) rfl)
  exact ⟨_, r6, rfl, rfl⟩

end Verif.Mutex
