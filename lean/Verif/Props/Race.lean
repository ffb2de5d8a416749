import Verif.Spec.Race
import Mathlib.Data.List.Basic
/-!
# Which shared data are accessed without synchronisation (C91)
-/
namespace Verif.Race
section
variable {Op V : Type}

/-- How a function accesses a variable: not at all, only with the mutex, or in any way. -/
inductive Mode where
  | never | inside | free
  deriving DecidableEq

/-- The actions keep to the modes, the mutex being held at first if `b`. -/
def Keeps (mode : V → Bool → Mode) : Bool → List (Act V) → Prop
  | b, [] => b = false
  | b, .lock :: p => b = false ∧ Keeps mode true p
  | b, .unlock :: p => b = true ∧ Keeps mode false p
  | b, .acc v w :: p => mode v w ≠ .never ∧ (mode v w = .inside → b = true) ∧ Keeps mode b p

instance (mode : V → Bool → Mode) : (b : Bool) → (p : List (Act V)) → Decidable (Keeps mode b p)
  | b, [] => inferInstanceAs (Decidable (b = false))
  | b, .lock :: p => have := instDecidableKeeps mode true p; inferInstanceAs (Decidable (b = false ∧ Keeps mode true p))
  | b, .unlock :: p => have := instDecidableKeeps mode false p; inferInstanceAs (Decidable (b = true ∧ Keeps mode false p))
  | b, .acc v w :: p =>
    have := instDecidableKeeps mode b p
    inferInstanceAs (Decidable (mode v w ≠ .never ∧ (mode v w = .inside → b = true) ∧ Keeps mode b p))

theorem keeps_append {mode : V → Bool → Mode} {p q : List (Act V)} (b : Bool) (hp : Keeps mode b p) (hq : Keeps mode false q) : Keeps mode b (p ++ q) := by
  induction p generalizing b with
  | nil => cases hp; exact hq
  | cons a p ih =>
    cases a with
    | lock => exact ⟨hp.1, ih _ hp.2⟩
    | unlock => exact ⟨hp.1, ih _ hp.2⟩
    | acc v w => exact ⟨hp.1, hp.2.1, ih _ hp.2.2⟩

/-- What holds of all goroutines. -/
def Ok (mode : Op → V → Bool → Mode) (s : St Op V) : Prop := ∀ (i : Nat) (t : Thread Op V), s.threads[i]? = some t → Keeps (mode t.op) (decide (s.holder = some i)) t.rest

theorem ok_step {start : Op → Prop} {paths : Op → List (Act V) → Prop} {mode : Op → V → Bool → Mode} {s t : St Op V}
    (hp : ∀ op p, paths op p → Keeps (mode op) false p) (hb : ∀ i, s.holder = some i → i < s.threads.length) (h : Ok mode s) (hs : Step start paths s t) :
    Ok mode t ∧ ∀ i, t.holder = some i → i < t.threads.length := by
  cases hs with
  | call h1 h2 =>
    rename_i op p
    refine ⟨?_, fun i hi => by have := hb i hi; simp only [List.length_append, List.length_singleton]; omega⟩
    intro i t ht
    rcases Nat.lt_trichotomy i s.threads.length with hi | hi | hi
    · rw [List.getElem?_append_left hi] at ht
      exact h i t ht
    · subst hi
      simp only [List.getElem?_append_right (Nat.le_refl _), Nat.sub_self, List.getElem?_cons_zero, Option.some.injEq] at ht
      subst ht
      have : s.holder ≠ some s.threads.length := fun hh => absurd (hb _ hh) (Nat.lt_irrefl _)
      simp only [this, decide_false]
      exact hp _ _ h2
    · rw [List.getElem?_eq_none (by simp only [List.length_append, List.length_singleton]; omega)] at ht
      cases ht
  | acc h1 =>
    rename_i i op v w p
    refine ⟨?_, fun k hk => by simp only [List.length_set]; exact hb k hk⟩
    intro k t ht
    rw [List.getElem?_set] at ht
    by_cases hik : i = k
    · subst hik
      have hlt : i < s.threads.length := (List.getElem?_eq_some_iff.1 h1).1
      simp only [hlt, if_true, Option.some.injEq] at ht
      subst ht
      exact (h i _ h1).2.2
    · rw [if_neg hik] at ht
      exact h k t ht
  | lock h1 h2 =>
    rename_i i op p
    have hlt : i < s.threads.length := (List.getElem?_eq_some_iff.1 h1).1
    refine ⟨?_, fun k hk => by simp only [List.length_set]; cases hk; exact hlt⟩
    intro k t ht
    rw [List.getElem?_set] at ht
    by_cases hik : i = k
    · subst hik
      simp only [hlt, if_true, Option.some.injEq] at ht
      subst ht
      simp only [decide_true]
      exact (h i _ h1).2
    · rw [if_neg hik] at ht
      have := h k t ht
      rw [h2] at this
      simpa [hik] using this
  | unlock h1 h2 =>
    rename_i i op p
    have hlt : i < s.threads.length := (List.getElem?_eq_some_iff.1 h1).1
    refine ⟨?_, fun k hk => by cases hk⟩
    intro k t ht
    rw [List.getElem?_set] at ht
    by_cases hik : i = k
    · subst hik
      simp only [hlt, if_true, Option.some.injEq] at ht
      subst ht
      simpa using (h i _ h1).2
    · rw [if_neg hik] at ht
      have := h k t ht
      rw [h2] at this
      simpa [hik] using this

theorem ok_steps {start : Op → Prop} {paths : Op → List (Act V) → Prop} {mode : Op → V → Bool → Mode} {s t : St Op V}
    (hp : ∀ op p, paths op p → Keeps (mode op) false p) (hb : ∀ i, s.holder = some i → i < s.threads.length) (h : Ok mode s) (hs : Steps start paths s t) :
    Ok mode t ∧ ∀ i, t.holder = some i → i < t.threads.length := by
  induction hs with
  | refl => exact ⟨h, hb⟩
  | step _ h2 ih => exact ok_step hp ih.2 ih.1 h2

/-- No race where both keep to the mutex. -/
theorem race_mode {mode : Op → V → Bool → Mode} {s : St Op V} (h : Ok mode s) {v : V} {i j : Nat} {a b : Op} {w : Bool} (hr : Race s v i j a b w) :
    mode a v true ≠ .never ∧ mode b v w ≠ .never ∧ ¬ (mode a v true = .inside ∧ mode b v w = .inside) := by
  obtain ⟨hij, ⟨p, h1⟩, q, h2⟩ := hr
  have k1 := h i _ h1
  have k2 := h j _ h2
  refine ⟨k1.1, k2.1, ?_⟩
  rintro ⟨m1, m2⟩
  have e1 := k1.2.1 m1
  have e2 := k2.2.1 m2
  simp only [decide_eq_true_eq] at e1 e2
  rw [e1] at e2
  exact hij (Option.some.inj e2)

/-- Goroutines that were not there at first run functions that can be called. -/
theorem start_steps {start : Op → Prop} {paths : Op → List (Act V) → Prop} {s t : St Op V} (hs : Steps start paths s t) :
    s.threads.length ≤ t.threads.length ∧ (∀ (i : Nat) (x : Thread Op V), s.threads.length ≤ i → t.threads[i]? = some x → start x.op) ∧
      ∀ (i : Nat) (x : Thread Op V), t.threads[i]? = some x → i < s.threads.length → ∃ y, s.threads[i]? = some y ∧ y.op = x.op := by
  induction hs with
  | refl => exact ⟨Nat.le_refl _, ⟨fun i x hi hx => (by rw [List.getElem?_eq_none hi] at hx; cases hx), fun i x hx _ => ⟨x, hx, rfl⟩⟩⟩
  | step _ h2 ih =>
    obtain ⟨h0, h1, h3⟩ := ih
    cases h2 with
    | call g1 g2 =>
      refine ⟨by simp only [List.length_append]; omega, ?_, ?_⟩
      · intro i x hi hx
        rw [List.getElem?_append] at hx
        split at hx
        · exact h1 i x hi hx
        · have := List.mem_of_getElem? hx
          rw [List.mem_singleton.1 this]
          exact g1
      · intro i x hx hi
        rw [List.getElem?_append_left (by omega)] at hx
        exact h3 i x hx hi
    | acc g | lock g _ | unlock g _ =>
      refine ⟨by simpa only [List.length_set] using h0, ?_, ?_⟩
      · intro i x hi hx
        rw [List.getElem?_set] at hx
        split at hx
        · split at hx
          · rename_i e _
            subst e
            cases hx
            have := h1 _ _ hi g
            exact this
          · cases hx
        · exact h1 i x hi hx
      · intro i x hx hi
        rw [List.getElem?_set] at hx
        split at hx
        · split at hx
          · rename_i e _
            subst e
            cases hx
            have := h3 _ _ g hi
            exact this
          · cases hx
        · exact h3 i x hx hi

/-! ### Reaching a race -/

/-- Whether the mutex is held after these actions. -/
def held : Bool → List (Act V) → Bool
  | b, [] => b
  | _, .lock :: p => held true p
  | _, .unlock :: p => held false p
  | b, .acc _ _ :: p => held b p

/-- A goroutine runs up to some point of its path while the mutex is its own or free. -/
theorem advance {start : Op → Prop} {paths : Op → List (Act V) → Prop} {mode : V → Bool → Mode} {i : Nat} {op : Op} (pre : List (Act V)) :
    ∀ {b : Bool} {rest : List (Act V)} {s : St Op V}, s.threads[i]? = some ⟨op, pre ++ rest⟩ → Keeps mode b (pre ++ rest) →
      s.holder = (if b then some i else none) →
      ∃ t, Steps start paths s t ∧ t.threads = s.threads.set i ⟨op, rest⟩ ∧ t.holder = (if held b pre then some i else none) := by
  induction pre with
  | nil =>
    intro b rest s h1 h2 h3
    refine ⟨s, .refl, ?_, h3⟩
    obtain ⟨hi, he⟩ := List.getElem?_eq_some_iff.1 h1
    have e : (⟨op, rest⟩ : Thread Op V) = s.threads[i] := he.symm
    rw [e, List.set_getElem_self]
  | cons a pre ih =>
    intro b rest s h1 h2 h3
    have hlt : i < s.threads.length := (List.getElem?_eq_some_iff.1 h1).1
    have trans : ∀ {x y z : St Op V}, Step start paths x y → Steps start paths y z → Steps start paths x z := by
      intro x y z hxy hyz
      induction hyz with
      | refl => exact .step .refl hxy
      | step _ h ih => exact .step ih h
    cases a with
    | lock =>
      obtain ⟨hb, h2⟩ := h2
      subst hb
      obtain ⟨t, k1, k2, k3⟩ := ih (b := true) (s := ⟨s.threads.set i ⟨op, pre ++ rest⟩, some i⟩) (by simp [hlt]) h2 rfl
      exact ⟨t, trans (.lock h1 h3) k1, by simpa using k2, k3⟩
    | unlock =>
      obtain ⟨hb, h2⟩ := h2
      subst hb
      obtain ⟨t, k1, k2, k3⟩ := ih (b := false) (s := ⟨s.threads.set i ⟨op, pre ++ rest⟩, none⟩) (by simp [hlt]) h2 rfl
      exact ⟨t, trans (.unlock h1 h3) k1, by simpa using k2, k3⟩
    | acc v w =>
      obtain ⟨-, -, h2⟩ := h2
      obtain ⟨t, k1, k2, k3⟩ := ih (b := b) (s := { s with threads := s.threads.set i ⟨op, pre ++ rest⟩ }) (by simp [hlt]) h2 h3
      exact ⟨t, trans (.acc h1) k1, by simpa using k2, k3⟩

theorem Steps.trans {start : Op → Prop} {paths : Op → List (Act V) → Prop} {x y z : St Op V} (h : Steps start paths x y) (h' : Steps start paths y z) :
    Steps start paths x z := by
  induction h' with
  | refl => exact h
  | step _ h2 ih => exact .step ih h2

/-- Two goroutines get to a race if the second reaches its access without the mutex. -/
theorem race_reach {start : Op → Prop} {paths : Op → List (Act V) → Prop} {mode : Op → V → Bool → Mode}
    (hp : ∀ op p, paths op p → Keeps (mode op) false p) {s : St Op V} (hh : s.holder = none) {a b : Op} {v : V} {w : Bool} {i : Nat}
    {pre pre' post post' : List (Act V)} (hi : s.threads[i]? = some ⟨a, pre ++ .acc v true :: post⟩) (hk : Keeps (mode a) false (pre ++ .acc v true :: post))
    (hb : start b) (hq : paths b (pre' ++ .acc v w :: post')) (hout : held false pre' = false) :
    ∃ t, Steps start paths s t ∧ Race t v i s.threads.length a b w := by
  have hlt : i < s.threads.length := (List.getElem?_eq_some_iff.1 hi).1
  have c1 : Step start paths s { s with threads := s.threads ++ [⟨b, pre' ++ .acc v w :: post'⟩] } := .call hb hq
  obtain ⟨t1, k1, k2, k3⟩ := advance (start := start) (paths := paths) (mode := mode b) (i := s.threads.length) (op := b) pre' (b := false)
    (rest := .acc v w :: post') (s := { s with threads := s.threads ++ [⟨b, pre' ++ .acc v w :: post'⟩] }) (by simp) (hp _ _ hq) hh
  rw [hout] at k3
  obtain ⟨t2, l1, l2, l3⟩ := advance (start := start) (paths := paths) (mode := mode a) (i := i) (op := a) pre (b := false)
    (rest := .acc v true :: post) (s := t1) (by rw [k2]; simp [List.getElem?_append_left hlt, List.getElem?_set, hi, Nat.ne_of_gt hlt]) hk k3
  refine ⟨t2, (Steps.step .refl c1).trans (k1.trans l1), Nat.ne_of_lt hlt, ⟨post, ?_⟩, post', ?_⟩
  · rw [l2, List.getElem?_set]
    simp only [if_true, k2, List.length_set, List.length_append, List.length_singleton]
    rw [if_pos (by omega)]
  · rw [l2, List.getElem?_set, if_neg (Nat.ne_of_lt hlt), k2, List.getElem?_set]
    simp

/-- The same from the beginning. -/
theorem race_reach' {start : Op → Prop} {paths : Op → List (Act V) → Prop} {mode : Op → V → Bool → Mode}
    (hp : ∀ op p, paths op p → Keeps (mode op) false p) {a b : Op} {v : V} {w : Bool}
    {pre pre' post post' : List (Act V)} (ha : start a) (hi : paths a (pre ++ .acc v true :: post))
    (hb : start b) (hq : paths b (pre' ++ .acc v w :: post')) (hout : held false pre' = false) :
    ∃ t i j, Steps start paths ⟨[], none⟩ t ∧ Race t v i j a b w := by
  have c1 : Step start paths ⟨[], none⟩ ⟨[⟨a, pre ++ .acc v true :: post⟩], none⟩ := .call ha hi
  obtain ⟨t, k1, k2⟩ := race_reach (s := ⟨[⟨a, pre ++ .acc v true :: post⟩], none⟩) hp rfl (i := 0) rfl (hp _ _ hi) hb hq hout
  exact ⟨t, 0, 1, (Steps.step .refl c1).trans k1, k2⟩

end

namespace Cs

/-- How the functions access the fields. -/
def mode (debug : Bool) : Op → Var → Bool → Mode
  | .handshake, .conns, true => .inside
  | .handshake, .conns, false => if debug then .free else .never
  | .handshake, .connChans, _ => .inside
  | .handshake, .connsCount, _ => .inside
  | .handshake, .connsConnected, _ => .inside
  | .handshake, .connListener, false => .free
  | .handshake, .disconnListener, false => .free
  | .landing, .conns, false => .free
  | .getServiceOf, .conns, false => .inside
  | .waitDisconnect, .conns, false => .inside
  | .waitConnect, .connChans, _ => .inside
  | .setConnListener, .connListener, true => .free
  | .setDisconnListener, .disconnListener, true => .free
  | _, _, _ => .never

theorem keeps (debug : Bool) (op : Op) (p : List (Act Var)) (h : Path debug op p) : Keeps (mode debug op) false p := by
  cases h with
  | refused => revert debug; decide
  | served fresh first last => revert debug fresh first last; decide
  | waitConnect fresh => revert debug fresh; decide
  | landing | getServiceOf | waitDisconnect | setConnListener | setDisconnListener => revert debug; decide

theorem mode_racy (debug : Bool) (v : Var) (a b : Op) (w : Bool) (h : mode debug a v true ≠ .never ∧ mode debug b v w ≠ .never ∧
    ¬ (mode debug a v true = .inside ∧ mode debug b v w = .inside)) : Racy debug v a b w := by
  cases debug <;> cases a <;> cases v <;> simp [mode] at h <;> cases b <;> cases w <;> simp [mode] at h <;> constructor <;> rfl

/-- **C91** The races of the central system are exactly these: in every state that any number of concurrent connections, disconnections and
calls of its functions can reach, two goroutines are about to access the same field, one of them to write it, only as `Racy` says, and all
that happens.  (So `connChans`, `connsCount` and `connsConnected` are never raced for; and `conns` only with a reader.) -/
theorem C91_centralSystem (debug : Bool) (v : Var) (a b : Op) (w : Bool) :
    (∃ s i j, Reach debug s ∧ Race s v i j a b w) ↔ Racy debug v a b w := by
  constructor
  · rintro ⟨s, i, j, hs, hr⟩
    have := (ok_steps (mode := mode debug) (keeps debug) (by intro i hi; cases hi) (by intro i t ht; simp at ht) hs).1
    exact mode_racy debug v a b w (race_mode this hr)
  · intro h
    cases h with
    | landing =>
      exact race_reach' (keeps debug) (pre := hello debug ++ [.lock]) (pre' := []) trivial (by simpa [enter] using Path.served (debug := debug) true true true)
        trivial Path.landing rfl
    | logged hd =>
      subst hd
      exact race_reach' (keeps true) (pre := hello true ++ [.lock]) (pre' := []) trivial (by simpa [enter] using Path.served (debug := true) true true true)
        trivial (Path.refused (debug := true)) rfl
    | connListener =>
      exact race_reach' (keeps debug) (pre := []) (pre' := hello debug ++ (enter true true).dropLast) trivial Path.setConnListener
        trivial (by simpa [enter] using Path.served (debug := debug) true true true) (by cases debug <;> rfl)
    | connListener' =>
      exact race_reach' (keeps debug) (pre := []) (pre' := []) trivial Path.setConnListener trivial Path.setConnListener rfl
    | disconnListener =>
      exact race_reach' (keeps debug) (pre := []) (pre' := hello debug ++ enter true true) trivial Path.setDisconnListener
        trivial (by simpa [enter, leave] using Path.served (debug := debug) true true true) (by cases debug <;> rfl)
    | disconnListener' =>
      exact race_reach' (keeps debug) (pre := []) (pre' := []) trivial Path.setDisconnListener trivial Path.setDisconnListener rfl

end Cs

namespace Cp

/-- How the functions access the fields. -/
def mode : Op → Var → Bool → Mode
  | .loop, .conn, _ => .free
  | .loop, .service, true => .free
  | .loop, .connectedChan, _ => .free
  | .send, .service, false => .free
  | .connection, .conn, false => .free
  | .waitDisconnect, .conn, false => .free
  | .waitConnect, .connectedChan, false => .free
  | _, _, _ => .never

theorem keeps (op : Op) (p : List (Act Var)) (h : Path op p) : Keeps (mode op) false p := by
  cases h with
  | loop rounds =>
    induction rounds with
    | nil => rfl
    | cons r rs ih =>
      rw [List.flatMap_cons]
      refine keeps_append _ ?_ ih
      cases r <;> decide
  | send | connection | waitConnect | waitDisconnect => decide

/-- **C91** The races of a charge point are exactly these: its goroutine, when it reconnects, writes what `Send`, `Connection`, `WaitConnect`
and `WaitDisconnect` read. -/
theorem C91_chargePoint (v : Var) (a b : Op) (w : Bool) :
    (∃ s i j, Reach s ∧ Race s v i j a b w) ↔ Racy v a b w := by
  constructor
  · rintro ⟨s, i, j, ⟨p, hp, hs⟩, hr⟩
    have hok : Ok mode (⟨[⟨.loop, p⟩], none⟩ : St Op Var) := by
      intro i t ht
      cases i with
      | zero => cases ht; exact keeps _ _ hp
      | succ i => simp at ht
    have := race_mode (ok_steps keeps (by intro i hi; cases hi) hok hs).1 hr
    have hst := (start_steps hs).2.1
    have hloop : ¬ (a = .loop ∧ b = .loop) := by
      rintro ⟨rfl, rfl⟩
      obtain ⟨hij, ⟨p1, h1⟩, q1, h2⟩ := hr
      have e1 : i = 0 := by
        by_contra hc
        exact hst i _ (by simp; omega) h1 rfl
      have e2 : j = 0 := by
        by_contra hc
        exact hst j _ (by simp; omega) h2 rfl
      exact hij (e1.trans e2.symm)
    cases a <;> cases v <;> simp [mode] at this <;> cases b <;> cases w <;> simp [mode] at this hloop <;> constructor
  · intro h
    have key : ∀ {v : Var} {b : Op} {w : Bool} (pre post : List (Act Var)), pre ++ .acc v true :: post = Round.reconnect.acts → b ≠ .loop →
        Path b [.acc v w] → ∃ s i j, Reach s ∧ Race s v i j .loop b w := by
      intro v b w pre post he hb hq
      have hl : Path .loop (pre ++ .acc v true :: post) := by
        have := Path.loop [.reconnect]
        rw [he]
        simpa using this
      obtain ⟨t, k1, k2⟩ := race_reach (start := (· ≠ Op.loop)) (paths := Path) keeps (s := ⟨[⟨.loop, pre ++ .acc v true :: post⟩], none⟩) rfl (i := 0) rfl (keeps _ _ hl) hb
        (pre' := []) hq rfl
      exact ⟨t, _, _, ⟨_, hl, k1⟩, k2⟩
    cases h with
    | send => exact key [rd .conn, rd .conn, rd .conn, wr .connectedChan, wr .conn, rd .conn] [rd .connectedChan] rfl (by decide) .send
    | connection => exact key [rd .conn, rd .conn, rd .conn, wr .connectedChan] [rd .conn, wr .service, rd .connectedChan] rfl (by decide) .connection
    | waitDisconnect => exact key [rd .conn, rd .conn, rd .conn, wr .connectedChan] [rd .conn, wr .service, rd .connectedChan] rfl (by decide) .waitDisconnect
    | waitConnect => exact key [rd .conn, rd .conn, rd .conn] [wr .conn, rd .conn, wr .service, rd .connectedChan] rfl (by decide) .waitConnect

end Cp

namespace Ws

/-- How the functions access the fields. -/
def mode : Op → Var → Bool → Mode
  | .sendRequest, .sentMessages, true => .free
  | .sendRequest, .responsesOf, _ => .free
  | .readMessage, .sentMessages, false => .free
  | .readMessage, .responsesOf, false => .free
  | _, .socket, true => .inside
  | _, _, _ => .never

theorem keeps (op : Op) (p : List (Act Var)) (h : Path op p) : Keeps (mode op) false p := by
  cases h with
  | failed ok => revert ok; decide
  | refused ok => revert ok; decide
  | sendResponse ok => revert ok; decide
  | _ => decide

/-- **C91** The races of a connection are exactly these: concurrent `Send`s race for both maps with each other, and with the reader; the socket
is never written to by two at a time. -/
theorem C91_connection (v : Var) (a b : Op) (w : Bool) :
    (∃ s i j, Reach s ∧ Race s v i j a b w) ↔ Racy v a b w := by
  constructor
  · rintro ⟨s, i, j, hs, hr⟩
    have := race_mode (ok_steps (mode := mode) keeps (by intro i hi; cases hi) (by intro i t ht; simp at ht) hs).1 hr
    cases a <;> cases v <;> simp [mode] at this <;> cases b <;> cases w <;> simp [mode] at this <;> constructor
  · intro h
    cases h with
    | sends => exact race_reach' keeps (pre := []) (pre' := []) trivial .answered trivial .answered rfl
    | reader => exact race_reach' keeps (pre := []) (pre' := []) trivial .answered trivial .error rfl
    | sends' => exact race_reach' keeps (pre := [wr .sentMessages]) (pre' := [wr .sentMessages]) trivial .answered trivial .answered rfl
    | select =>
      exact race_reach' keeps (pre := [wr .sentMessages]) (pre' := [wr .sentMessages, wr .responsesOf, .lock, wr .socket, .unlock]) trivial .answered trivial .timedOut rfl
    | reader' => exact race_reach' keeps (pre := [wr .sentMessages]) (pre' := [rd .sentMessages]) trivial .answered trivial .error rfl

end Ws

namespace Log

/-- How the functions access the loggers. -/
def mode : Op → Var → Bool → Mode
  | .setError, .errorLog, true => .free
  | .setDebug, .debugLog, true => .free
  | .debug, .debugLog, false => .free
  | .error, .errorLog, false => .free
  | _, _, _ => .never

theorem keeps (op : Op) (p : List (Act Var)) (h : Path op p) : Keeps (mode op) false p := by
  cases h <;> decide

/-- **C91** The races of the loggers are exactly these: setting one while it is set or used. -/
theorem C91_loggers (v : Var) (a b : Op) (w : Bool) :
    (∃ s i j, Reach s ∧ Race s v i j a b w) ↔ Racy v a b w := by
  constructor
  · rintro ⟨s, i, j, hs, hr⟩
    have := race_mode (ok_steps (mode := mode) keeps (by intro i hi; cases hi) (by intro i t ht; simp at ht) hs).1 hr
    cases a <;> cases v <;> simp [mode] at this <;> cases b <;> cases w <;> simp [mode] at this <;> constructor
  · intro h
    cases h with
    | error => exact race_reach' keeps (pre := []) (pre' := []) trivial .setError trivial .error rfl
    | setError => exact race_reach' keeps (pre := []) (pre' := []) trivial .setError trivial .setError rfl
    | debug => exact race_reach' keeps (pre := []) (pre' := []) trivial .setDebug trivial .debug rfl
    | setDebug => exact race_reach' keeps (pre := []) (pre' := []) trivial .setDebug trivial .setDebug rfl

end Log
end Verif.Race
