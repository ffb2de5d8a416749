import Verif.Props.Stall
import Verif.Props.System
/-!
# Two ends that block each other (C90)
-/
namespace Verif.Ocppj
open Conn Codec

variable {F : FloatFmt} {o₁ o₂ : Order} {cap₁ cap₂ : Nat}

/-- The event without the beginnings of writes. -/
def unlocked {α β : Sem} : LEv α ⊕ LEv β → Option (Ev α ⊕ Ev β)
  | .inl e => (LEv.ev? e).map .inl
  | .inr e => (LEv.ev? e).map .inr

/-- The state without the holders of the mutexes. -/
def BSys.sys (x : BSys F o₁ o₂) : Sys F o₁ o₂ := ⟨x.cp.conn, x.cs.conn, x.toCs, x.toCp⟩

theorem LStep.step {S : Sem} {side : Side} {s s' : LSt S} {e : Ev S} (h : LStep side s (.ev e) s') : Conn.Step side s.conn e s'.conn := by
  cases h with
  | write _ _ h => exact h
  | other _ h => exact h

theorem LStep.lock_conn {S : Sem} {side : Side} {s s' : LSt S} {w : Writer} (h : LStep side s (.lock w) s') : s'.conn = s.conn := by
  cases h
  rfl

/-- **C90** What happens with a limited stream is also a schedule of the model without limits (so C57, C65, C66 and what follows from
them hold here too); -/
theorem C90_refines {tr : List (LEv (ocppj F o₁ .cp) ⊕ LEv (ocppj F o₂ .cs))} {x : BSys F o₁ o₂} (h : BSys.Exec cap₁ cap₂ tr x) :
    Sys.Exec (tr.filterMap unlocked) x.sys := by
  induction h with
  | nil => exact .nil
  | snoc h1 hs ih =>
    rw [List.filterMap_append]
    cases hs with
    | cpLock h =>
      simp only [List.filterMap_cons, unlocked, LEv.ev?, Option.map_none, List.filterMap_nil, List.append_nil]
      simpa [BSys.sys, LStep.lock_conn h] using ih
    | csLock h =>
      simp only [List.filterMap_cons, unlocked, LEv.ev?, Option.map_none, List.filterMap_nil, List.append_nil]
      simpa [BSys.sys, LStep.lock_conn h] using ih
    | cp h hc hr => exact .snoc ih (.cp (LStep.step h) hc)
    | cs h hc hr => exact .snoc ih (.cs (LStep.step h) hc)

theorem Room.none (cap : Nat) (l : List Text) : Room cap l none := by
  intro f h
  cases h

theorem room_large (cap : Nat) (l : List Text) (w : Option Text) : ∃ n, ∀ cap, n ≤ cap → Room cap l w := by
  cases w with
  | none => exact ⟨0, fun c _ => Room.none c l⟩
  | some f =>
    refine ⟨(l.map frameSize).sum + frameSize f, fun c hc g hg => ?_⟩
    cases hg
    exact .inr hc

/-- **C90** and every schedule of the model without limits is one of this model if the streams hold enough. -/
theorem C90_enough {tr : List (Ev (ocppj F o₁ .cp) ⊕ Ev (ocppj F o₂ .cs))} {x : Sys F o₁ o₂} (h : Sys.Exec tr x) :
    ∃ n, ∀ cap₁ cap₂, n ≤ cap₁ → n ≤ cap₂ → ∃ tr' y, BSys.Exec cap₁ cap₂ tr' y ∧ tr'.filterMap unlocked = tr ∧ y.sys = x := by
  suffices ∃ n, ∀ cap₁ cap₂, n ≤ cap₁ → n ≤ cap₂ → ∃ tr' y, BSys.Exec cap₁ cap₂ tr' y ∧ tr'.filterMap unlocked = tr ∧ y.sys = x ∧
      y.cp.lock = none ∧ y.cs.lock = none by
    obtain ⟨n, h⟩ := this
    refine ⟨n, fun c1 c2 h1 h2 => ?_⟩
    obtain ⟨tr', y, a, b, c, -⟩ := h c1 c2 h1 h2
    exact ⟨tr', y, a, b, c⟩
  induction h with
  | nil => exact ⟨0, fun c1 c2 _ _ => ⟨[], _, .nil, rfl, rfl, rfl, rfl⟩⟩
  | snoc h1 hs ih =>
    rename_i tr0 e x0 x1
    obtain ⟨n, ih⟩ := ih
    cases hs with
    | cp h hc =>
      rename_i e s' l
      obtain ⟨m, hm⟩ := room_large 0 x0.toCs e.wrote
      refine ⟨max n m, fun c1 c2 k1 k2 => ?_⟩
      obtain ⟨tr', y, g1, g2, rfl, g4, g5⟩ := ih c1 c2 (by omega) (by omega)
      have hroom := hm c1 (by omega)
      cases hw : e.writer with
      | none =>
        refine ⟨tr' ++ [.inl (.ev e)], { y with cp := ⟨s', y.cp.lock⟩, toCp := l, toCs := y.toCs ++ Option.toList (α := Text) e.wrote }, .snoc g1 (.cp (.other hw h) hc hroom), ?_, rfl, g4, g5⟩
        rw [List.filterMap_append, g2]; rfl
      | some w =>
        obtain ⟨a1, a2⟩ := step_atWrite h hw
        have s1 : BSys.Step c1 c2 y (.inl (.lock w)) { y with cp := { y.cp with lock := some w } } := .cpLock (.lock a2 g4 a1)
        refine ⟨tr' ++ [.inl (.lock w)] ++ [.inl (.ev e)], { y with cp := ⟨s', none⟩, toCp := l, toCs := y.toCs ++ Option.toList (α := Text) e.wrote }, .snoc (.snoc g1 s1) (.cp (x := { y with cp := { y.cp with lock := some w } }) (.write hw rfl h) hc hroom), ?_, rfl, rfl, g5⟩
        rw [List.filterMap_append, List.filterMap_append, g2]
        simp [unlocked, LEv.ev?]
    | cs h hc =>
      rename_i e s' l
      obtain ⟨m, hm⟩ := room_large 0 x0.toCp e.wrote
      refine ⟨max n m, fun c1 c2 k1 k2 => ?_⟩
      obtain ⟨tr', y, g1, g2, rfl, g4, g5⟩ := ih c1 c2 (by omega) (by omega)
      have hroom := hm c2 (by omega)
      cases hw : e.writer with
      | none =>
        refine ⟨tr' ++ [.inr (.ev e)], { y with cs := ⟨s', y.cs.lock⟩, toCs := l, toCp := y.toCp ++ Option.toList (α := Text) e.wrote }, .snoc g1 (.cs (.other hw h) hc hroom), ?_, rfl, g4, g5⟩
        rw [List.filterMap_append, g2]; rfl
      | some w =>
        obtain ⟨a1, a2⟩ := step_atWrite h hw
        have s1 : BSys.Step c1 c2 y (.inr (.lock w)) { y with cs := { y.cs with lock := some w } } := .csLock (.lock a2 g5 a1)
        refine ⟨tr' ++ [.inr (.lock w)] ++ [.inr (.ev e)], { y with cs := ⟨s', none⟩, toCs := l, toCp := y.toCp ++ Option.toList (α := Text) e.wrote }, .snoc (.snoc g1 s1) (.cs (x := { y with cs := { y.cs with lock := some w } }) (.write hw rfl h) hc hroom), ?_, rfl, g4, rfl⟩
        rw [List.filterMap_append, List.filterMap_append, g2]
        simp [unlocked, LEv.ev?]

/-! ### The deadlock -/

/-- One end as long as it reads nothing. -/
inductive OutRun (cap : Nat) {o : Order} {a side : Side} (s : LSt (ocppj F o a)) (l : List Text) : List (LEv (ocppj F o a)) → LSt (ocppj F o a) → List Text → Prop where
  | nil : OutRun cap s l [] s l
  | lock {tr w s' s'' l'} : OutRun cap s l tr s' l' → LStep side s' (.lock w) s'' → OutRun cap s l (tr ++ [.lock w]) s'' l'
  | ev {tr e s' s'' l'} : OutRun cap s l tr s' l' → LStep side s' (.ev e) s'' → (∀ k f, e ≠ .read k f) →
      Room cap l' e.wrote → OutRun cap s l (tr ++ [.ev e]) s'' (l' ++ Option.toList (α := Text) e.wrote)

theorem OutRun.quiet {o : Order} {a side : Side} {cap : Nat} {s s' s'' : LSt (ocppj F o a)} {l l' : List Text} {tr : List (LEv (ocppj F o a))}
    {e : Ev (ocppj F o a)} (h : OutRun (side := side) cap s l tr s' l') (hs : LStep side s' (.ev e) s'') (hr : ∀ k f, e ≠ .read k f) (hw : e.wrote = none) :
    OutRun (side := side) cap s l (tr ++ [.ev e]) s'' l' := by
  have := OutRun.ev h hs hr (by rw [hw]; intro f hf; cases hf)
  have e1 : l' ++ Option.toList (α := Text) e.wrote = l' := by
    have : Option.toList (α := Text) e.wrote = [] := by rw [hw]; rfl
    rw [this, List.append_nil]
  exact e1 ▸ this

theorem BSys.Run.append {x y z : BSys F o₁ o₂} {t1 t2 : List (LEv (ocppj F o₁ .cp) ⊕ LEv (ocppj F o₂ .cs))} (h1 : BSys.Run cap₁ cap₂ x t1 y)
    (h2 : BSys.Run cap₁ cap₂ y t2 z) : BSys.Run cap₁ cap₂ x (t1 ++ t2) z := by
  induction h2 with
  | nil => simpa using h1
  | snoc _ hs ih => rw [← List.append_assoc]; exact .snoc ih hs

theorem OutRun.cp {x : BSys F o₁ o₂} {tr : List (LEv (ocppj F o₁ .cp))} {s' : LSt (ocppj F o₁ .cp)} {l' : List Text}
    (h : OutRun (side := .cp) cap₁ x.cp x.toCs tr s' l') : BSys.Run cap₁ cap₂ x (tr.map .inl) { x with cp := s', toCs := l' } := by
  induction h with
  | nil => exact .nil
  | lock h1 hs ih =>
    rw [List.map_append]
    exact .snoc ih (.cpLock hs)
  | ev h1 hs hr hroom ih =>
    rw [List.map_append]
    exact .snoc ih (BSys.Step.cp (l := x.toCp) hs (.other hr) hroom)

theorem OutRun.cs {x : BSys F o₁ o₂} {tr : List (LEv (ocppj F o₂ .cs))} {s' : LSt (ocppj F o₂ .cs)} {l' : List Text}
    (h : OutRun (side := .cs) cap₂ x.cs x.toCp tr s' l') : BSys.Run cap₁ cap₂ x (tr.map .inr) { x with cs := s', toCp := l' } := by
  induction h with
  | nil => exact .nil
  | lock h1 hs ih =>
    rw [List.map_append]
    exact .snoc ih (.csLock hs)
  | ev h1 hs hr hroom ih =>
    rw [List.map_append]
    exact .snoc ih (BSys.Step.cs (l := x.toCs) hs (.other hr) hroom)

/-- Ids to use. -/
def idNo (n : Nat) : String := String.ofList (List.replicate n 'x')

theorem idNo_inj {n m : Nat} (h : idNo n = idNo m) : n = m := by
  have := congrArg (fun s => s.toList.length) h
  simpa [idNo] using this

/-- An end in a handler call, whose mutex is free, and which has not used the ids from `n` on. -/
structure Ready {o : Order} {a : Side} (s : LSt (ocppj F o a)) (id : String) (r : Option Req) (n : Nat) : Prop where
  alive : s.conn.crashed = false
  opened : s.conn.closed = false
  handling : s.conn.loop = .handling id r
  free : s.lock = none
  ids : ∀ y ∈ s.conn.senders, ∀ k, n ≤ k → y.id ≠ idNo k

/-- An end in a handler call and in the middle of a write for which there is no room. -/
structure Full {o : Order} {a : Side} (cap : Nat) (s : LSt (ocppj F o a)) (l : List Text) (id : String) (r : Option Req) (i : Nat) : Prop where
  alive : s.conn.crashed = false
  opened : s.conn.closed = false
  handling : s.conn.loop = .handling id r
  held : s.lock = some (.sender i)
  at_ : ∃ y, s.conn.senders[i]? = some y ∧ y.phase = .registered ∧ ∀ f, y.frame = some f → ¬ Room cap l (some f)

/-- Not a fault, no other request than `q` is sent and no other response than `resp` returned. -/
def Nice {o : Order} {a : Side} (q : Req) (resp : Resp) : LEv (ocppj F o a) → Prop
  | .lock _ => True
  | .ev (.send _ _ r) => r = q
  | .ev (.handlerRet _ x err) => x = some resp ∧ err = none
  | .ev e => Fault e = false

/-- What happens is innocent. -/
def Innocent {o : Order} {a : Side} (q : Req) (resp : Resp) (t : List (LEv (ocppj F o a))) : Prop := ∀ e ∈ t, Nice q resp e

theorem Innocent.append {o : Order} {a : Side} {q : Req} {resp : Resp} {t t' : List (LEv (ocppj F o a))} (h : Innocent q resp t) (h' : Innocent q resp t') :
    Innocent q resp (t ++ t') := by
  intro e he
  rcases List.mem_append.1 he with he | he
  · exact h e he
  · exact h' e he

theorem Innocent.one {o : Order} {a : Side} {q : Req} {resp : Resp} {e : LEv (ocppj F o a)} (h : Nice q resp e) : Innocent q resp [e] := by
  intro e' he
  rw [List.mem_singleton.1 he]
  exact h

/-- A state with one more `Send`. -/
def withSend {S : Sem} (c : St S) (id : String) (r : S.Req) (f : S.Frame) (p : Phase S) (m1 : String → Option String) (m2 : String → Option Nat) : St S :=
  { c with senders := c.senders ++ [⟨id, r, some f, p⟩], sent := m1, chan := m2 }

theorem sendSteps {S : Sem} {side : Side} (c : St S) {id : String} {r : S.Req} {f : S.Frame} (hc : c.crashed = false)
    (hi : ∀ x ∈ c.senders, x.id ≠ id) (he : S.encCall id r = .ok f) :
    ∃ m1 m2, Conn.Step side c (.send c.senders.length id r) (withSend c id r f .fresh c.sent c.chan) ∧
      Conn.Step side (withSend c id r f .fresh c.sent c.chan) (.regSent c.senders.length) (withSend c id r f .half m1 c.chan) ∧
      Conn.Step side (withSend c id r f .half m1 c.chan) (.regChan c.senders.length) (withSend c id r f .registered m1 m2) ∧
      (c.closed = false → Conn.Step side (withSend c id r f .registered m1 m2) (.writeCall c.senders.length (some f)) (withSend c id r f .waiting m1 m2)) := by
  have hget : ∀ p m1 m2, (withSend c id r f p m1 m2).senders[c.senders.length]? = some ⟨id, r, some f, p⟩ := by intros; simp [withSend]
  have hset : ∀ p p' m1 m2, (withSend c id r f p m1 m2).setPhase c.senders.length ⟨id, r, some f, p⟩ p' = withSend c id r f p' m1 m2 := by
    intros; simp [withSend, St.setPhase]
  refine ⟨upd c.sent id (some (S.action r)), upd c.chan id (some c.senders.length), .send hc hi he, ?_, ?_, fun hcl => ?_⟩
  · have := Conn.Step.regSent (side := side) (s := withSend c id r f .fresh c.sent c.chan) (i := c.senders.length) hc (hget _ _ _) rfl
    rw [hset] at this
    exact this
  · have := Conn.Step.regChan (side := side) (s := withSend c id r f .half (upd c.sent id (some (S.action r))) c.chan) (i := c.senders.length) hc (hget _ _ _) rfl
    rw [hset] at this
    exact this
  · have := Conn.Step.writeOk (side := side) (s := withSend c id r f .registered (upd c.sent id (some (S.action r))) (upd c.chan id (some c.senders.length)))
      (i := c.senders.length) hc (hget _ _ _) rfl rfl hcl
    rw [hset] at this
    exact this

/-- One more `Send`, up to the beginning of its write; and what the write would do. -/
theorem block {o : Order} {a : Side} {q : Req} {text : Text} (hv : HasTy q.type.ty q.val) (hm : marshal F q.type.ty q.val = .ok text) (cap : Nat)
    {id : String} {r : Option Req} {resp : Resp} {s : LSt (ocppj F o a)} (l : List Text) {n : Nat} (h : Ready s id r n) :
    ∃ t s' f, OutRun (side := a) cap s l t s' l ∧ Innocent q resp t ∧ (¬ Room cap l (some f) → Full cap s' l id r s.conn.senders.length) ∧
      (Room cap l (some f) → ∃ s'', OutRun (side := a) cap s l (t ++ [.ev (Ev.writeCall (S := ocppj F o a) s.conn.senders.length (some f))]) s'' (l ++ [f]) ∧
        Ready s'' id r (n + 1)) := by
  obtain ⟨f, hf⟩ := encCall_ok (id := idNo n) hv hm
  obtain ⟨c, lk⟩ := s
  obtain ⟨h1, h2, h3, h4, h5⟩ := h
  simp only at h1 h2 h3 h4 h5
  subst h4
  obtain ⟨m1, m2, s1, s2, s3, s4⟩ := sendSteps (S := ocppj F o a) (side := a) c h1 (fun y hy => h5 y hy n (le_refl _)) hf
  have hget : ∀ p m1 m2, (withSend (S := ocppj F o a) c (idNo n) q f p m1 m2).senders[c.senders.length]? = some ⟨idNo n, q, some f, p⟩ := by intros; simp [withSend]
  have r1 := OutRun.quiet (OutRun.nil (cap := cap) (side := a) (s := ⟨c, none⟩) (l := l)) (.other rfl s1) (by intros; simp) rfl
  have r2 := OutRun.quiet r1 (.other rfl s2) (by intros; simp) rfl
  have r3 := OutRun.quiet r2 (.other rfl s3) (by intros; simp) rfl
  have r4 := OutRun.lock r3 (LStep.lock (w := .sender c.senders.length) h1 rfl ⟨_, hget _ _ _, rfl⟩)
  refine ⟨_, _, f, r4, ?_, fun hn => ⟨h1, h2, h3, rfl, _, hget _ _ _, rfl, ?_⟩, fun hr => ⟨⟨withSend (S := ocppj F o a) c (idNo n) q f .waiting m1 m2, none⟩, OutRun.ev r4 (.write rfl rfl (s4 h2)) (by intros; simp) hr, ?_⟩⟩
  · intro e he
    simp only [List.nil_append, List.append_assoc, List.mem_append, List.mem_singleton] at he
    rcases he with rfl | rfl | rfl | rfl
    · exact rfl
    · exact rfl
    · exact rfl
    · trivial
  · intro g hg
    cases hg
    exact hn
  · refine ⟨h1, h2, h3, rfl, ?_⟩
    intro y hy k hk
    rcases List.mem_append.1 hy with hy | hy
    · exact h5 y hy k (by omega)
    · rw [List.mem_singleton.1 hy]
      intro he
      have := idNo_inj he
      omega

theorem OutRun.append {o : Order} {a : Side} {cap : Nat} {s s' s'' : LSt (ocppj F o a)} {l l' l'' : List Text} {t1 t2 : List (LEv (ocppj F o a))}
    (h1 : OutRun (side := a) cap s l t1 s' l') (h2 : OutRun (side := a) cap s' l' t2 s'' l'') : OutRun (side := a) cap s l (t1 ++ t2) s'' l'' := by
  induction h2 with
  | nil => simpa using h1
  | lock _ hs ih => rw [← List.append_assoc]; exact .lock ih hs
  | ev _ hs h1 h2 ih => rw [← List.append_assoc]; exact .ev ih hs h1 h2

/-- `Send`s until there is no room. -/
theorem pump {o : Order} {a : Side} {q : Req} {text : Text} (hv : HasTy q.type.ty q.val) (hm : marshal F q.type.ty q.val = .ok text) (cap : Nat)
    {id : String} {r : Option Req} {resp : Resp} :
    ∀ (k : Nat) (s : LSt (ocppj F o a)) (l : List Text) (n : Nat), cap + 1 - (l.map frameSize).sum ≤ k → Ready s id r n →
    ∃ t s' l' i, OutRun (side := a) cap s l t s' l' ∧ Full cap s' l' id r i ∧ Innocent q resp t := by
  intro k
  induction k with
  | zero =>
    intro s l n hk hr
    obtain ⟨t, s', f, h1, h2, h3, -⟩ := block hv hm cap l hr
    refine ⟨t, s', l, _, h1, h3 ?_, h2⟩
    intro hroom
    rcases hroom f rfl with rfl | h
    · simp at hk
    · have : 2 ≤ frameSize f := by simp [frameSize]
      omega
  | succ k ih =>
    intro s l n hk hr
    obtain ⟨t, s', f, h1, h2, h3, h4⟩ := block hv hm cap l hr
    by_cases hroom : Room cap l (some f)
    · obtain ⟨s'', h5, h6⟩ := h4 hroom
      have : 2 ≤ frameSize f := by simp [frameSize]
      obtain ⟨t', s3, l', i, k1, k2, k3⟩ := ih s'' (l ++ [f]) (n + 1) (by simp only [List.map_append, List.map_cons, List.map_nil, List.sum_append, List.sum_cons, List.sum_nil]; omega) h6
      exact ⟨_, s3, l', i, h5.append k1, k2, (Innocent.append h2 (Innocent.one (show Nice q resp (LEv.ev (Ev.writeCall (S := ocppj F o a) _ (some f))) from rfl))).append k3⟩
    · exact ⟨t, s', l, _, h1, h3 hroom, h2⟩

/-- Nobody closes the connection, and no write fails. -/
def Undisturbed {S : Sem} (t : List (Ev S)) : Prop := ∀ e ∈ t, e ≠ .close ∧ (e.writer ≠ none → e.wrote ≠ none)

/-- Nothing comes of it: nothing is read or written, no request reaches the handler, no answer a `Send`. -/
def Idle {S : Sem} (t : List (Ev S)) : Prop :=
  ∀ e ∈ t, (∀ k f, e ≠ .read k f) ∧ (∀ k x, e ≠ .readErr k x) ∧ e.writer = none ∧ (∀ k id r a, e ≠ .take k id r a) ∧ (∀ k i, e ≠ .deliver k i) ∧
    e ≠ .ctxDone

/-- An end that waits with its reply for a write for which there is no room. -/
structure Jam {o : Order} {a : Side} (cap : Nat) (s : LSt (ocppj F o a)) (l : List Text) : Prop where
  inv : Inv s.conn
  answering : ∃ id resp err, s.conn.loop = .answering id resp err
  held : ∃ i y, s.lock = some (.sender i) ∧ s.conn.senders[i]? = some y ∧ y.phase = .registered ∧ ∀ f, y.frame = some f → ¬ Room cap l (some f)

theorem Jam.ev {o : Order} {a : Side} {cap : Nat} {s s' : LSt (ocppj F o a)} {l : List Text} (h : Jam cap s l) {e : Ev (ocppj F o a)}
    (hs : LStep a s (.ev e) s') (hr : Room cap l e.wrote) (hu : e ≠ .close ∧ (e.writer ≠ none → e.wrote ≠ none)) :
    Jam cap s' l ∧ e.wrote = none ∧ ((∀ k f, e ≠ .read k f) ∧ (∀ k x, e ≠ .readErr k x) ∧ e.writer = none ∧ (∀ k id r a, e ≠ .take k id r a) ∧ (∀ k i, e ≠ .deliver k i) ∧
      e ≠ .ctxDone) := by
  obtain ⟨hi, ⟨id, resp, err, hl⟩, i, y, h1, h2, h3, h4⟩ := h
  have hst := LStep.step hs
  cases hs with
  | write k1 k2 k3 =>
    rename_i c' w
    rw [h1] at k2
    cases k2
    cases k3 with
    | writeOk g1 g2 g3 g4 g5 =>
      cases k1
      rw [h2] at g2
      cases g2
      exact absurd hr (h4 _ g4)
    | writeFail g1 g2 g3 => exact absurd rfl (hu.2 (by simp [Ev.writer]))
    | _ => cases k1
  | other k1 k2 =>
    rename_i c'
    obtain ⟨hl', hi', hn⟩ := answering_run hi (.snoc .nil k2) (by simpa using k1) ⟨id, resp, err, hl⟩
    obtain ⟨n1, n2, n3, n4, n5, n6⟩ := hn e (by simp)
    have hne : ∀ k x, e ≠ .readErr k x := by
      rintro k x rfl
      cases k2 with
      | readErr g1 g2 g3 =>
        have := (hi.act _ _ g2 rfl).2
        rw [hl] at this
        rcases this with h | h <;> cases h
    refine ⟨⟨hi', hl', ?_⟩, ?_, n1, hne, k1, n4, n3, n5⟩
    · obtain ⟨y', hy1, hy2, hy3⟩ : ∃ y', c'.senders[i]? = some y' ∧ y'.phase = .registered ∧ y'.frame = y.frame := by
        clear hl' hi' hn hst h4 hr hu
        cases k2 <;> simp only [Ev.writer, St.setReader, St.setPhase, List.getElem?_append, List.getElem?_set, reduceCtorEq] at * <;> grind
      exact ⟨i, y', h1, hy1, hy2, fun f hf => h4 f (hy3 ▸ hf)⟩
    · cases e <;> first | rfl | cases k1

theorem Jam.lock {o : Order} {a : Side} {cap : Nat} {s s' : LSt (ocppj F o a)} {l : List Text} (h : Jam cap s l) {w : Writer} (hs : LStep a s (.lock w) s') : False := by
  obtain ⟨-, -, i, y, h1, -⟩ := h
  cases hs with
  | lock _ h _ => rw [h1] at h; cases h

theorem evsCp_inl {α β : Sem} (tr : List (LEv α ⊕ LEv β)) (e : Ev α) : evsCp (tr ++ [.inl (.ev e)]) = evsCp tr ++ [e] := by simp [evsCp, atCp, LEv.ev?]
theorem evsCs_inl {α β : Sem} (tr : List (LEv α ⊕ LEv β)) (e : LEv α) : evsCs (tr ++ [.inl e]) = evsCs tr := by simp [evsCs, atCs]
theorem evsCp_inr {α β : Sem} (tr : List (LEv α ⊕ LEv β)) (e : LEv β) : evsCp (tr ++ [.inr e]) = evsCp tr := by simp [evsCp, atCp]
theorem evsCs_inr {α β : Sem} (tr : List (LEv α ⊕ LEv β)) (e : Ev β) : evsCs (tr ++ [.inr (.ev e)]) = evsCs tr ++ [e] := by simp [evsCs, atCs, LEv.ev?]

theorem consumes_same {S : Sem} {e : Ev S} {l l' : List S.Frame} (h : Consumes e l l') (hn : ∀ k f, e ≠ .read k f) : l' = l := by
  cases h with
  | read => exact absurd rfl (hn _ _)
  | other _ => rfl

/-- Two ends that jam stay so. -/
theorem jam_run {x y : BSys F o₁ o₂} {t : List (LEv (ocppj F o₁ .cp) ⊕ LEv (ocppj F o₂ .cs))} (h : BSys.Run cap₁ cap₂ x t y)
    (h1 : Jam cap₁ x.cp x.toCs) (h2 : Jam cap₂ x.cs x.toCp) (hu1 : Undisturbed (evsCp t)) (hu2 : Undisturbed (evsCs t)) :
    Jam cap₁ y.cp y.toCs ∧ Jam cap₂ y.cs y.toCp ∧ Idle (evsCp t) ∧ Idle (evsCs t) := by
  induction h with
  | nil => exact ⟨h1, h2, by simp [Idle, evsCp, atCp], by simp [Idle, evsCs, atCs]⟩
  | snoc h0 hs ih =>
    rename_i tr e y0 z
    cases hs with
    | cpLock hs =>
      have e1 : evsCp (tr ++ [Sum.inl (LEv.lock (S := ocppj F o₁ .cp) ‹Writer›)]) = evsCp (β := ocppj F o₂ .cs) tr := by simp [evsCp, atCp, LEv.ev?]
      rw [e1] at hu1
      rw [evsCs_inl] at hu2
      exact ((ih hu1 hu2).1.lock hs).elim
    | csLock hs =>
      have e1 : evsCs (tr ++ [Sum.inr (LEv.lock (S := ocppj F o₂ .cs) ‹Writer›)]) = evsCs (α := ocppj F o₁ .cp) tr := by simp [evsCs, atCs, LEv.ev?]
      rw [e1] at hu2
      rw [evsCp_inr] at hu1
      exact ((ih hu1 hu2).2.1.lock hs).elim
    | cp hs hc hr =>
      rename_i e s' l
      rw [evsCp_inl] at hu1 ⊢
      rw [evsCs_inl] at hu2 ⊢
      obtain ⟨j1, j2, i1, i2⟩ := ih (fun e he => hu1 e (by simp [he])) hu2
      obtain ⟨k1, k2, k3⟩ := j1.ev hs hr (hu1 e (by simp))
      have e1 : l = y0.toCp := consumes_same hc k3.1
      have e2 : y0.toCs ++ Option.toList (α := Text) e.wrote = y0.toCs := by
        have : Option.toList (α := Text) e.wrote = [] := by rw [k2]; rfl
        rw [this, List.append_nil]
      subst e1
      refine ⟨?_, j2, ?_, i2⟩
      · show Jam cap₁ s' (y0.toCs ++ Option.toList (α := Text) e.wrote)
        rw [e2]; exact k1
      · intro e' he'
        rcases List.mem_append.1 he' with he' | he'
        · exact i1 e' he'
        · rw [List.mem_singleton.1 he']; exact k3
    | cs hs hc hr =>
      rename_i e s' l
      rw [evsCs_inr] at hu2 ⊢
      rw [evsCp_inr] at hu1 ⊢
      obtain ⟨j1, j2, i1, i2⟩ := ih hu1 (fun e he => hu2 e (by simp [he]))
      obtain ⟨k1, k2, k3⟩ := j2.ev hs hr (hu2 e (by simp))
      have e1 : l = y0.toCs := consumes_same hc k3.1
      have e2 : y0.toCp ++ Option.toList (α := Text) e.wrote = y0.toCp := by
        have : Option.toList (α := Text) e.wrote = [] := by rw [k2]; rfl
        rw [this, List.append_nil]
      subst e1
      refine ⟨j1, ?_, i1, ?_⟩
      · show Jam cap₂ s' (y0.toCp ++ Option.toList (α := Text) e.wrote)
        rw [e2]; exact k1
      · intro e' he'
        rcases List.mem_append.1 he' with he' | he'
        · exact i2 e' he'
        · rw [List.mem_singleton.1 he']; exact k3

/-- An end that has started and waits for what is to be read, with its mutex free. -/
structure Begun {o : Order} {a : Side} (s : LSt (ocppj F o a)) : Prop where
  alive : s.conn.crashed = false
  opened : s.conn.closed = false
  waits : s.conn.loop = .sel 0
  reads : s.conn.readers = [.reading]
  free : s.lock = none
  ids : ∀ y ∈ s.conn.senders, ∀ k, 1 ≤ k → y.id ≠ idNo k

/-- An end starts and calls `Send`. -/
theorem start {o : Order} {a : Side} {q : Req} {resp : Resp} {f : Text} (hf : encCall F (idNo 0) q = .ok f) (cap : Nat) :
    ∃ t s', OutRun (side := a) cap (LSt.init (ocppj F o a)) [] t s' [f] ∧ Innocent q resp t ∧ Begun s' := by
  have s0 : Conn.Step a (Conn.init (ocppj F o a)) (.spawn 0) { Conn.init (ocppj F o a) with loop := .sel 0, readers := [.reading] } := Conn.Step.spawn rfl rfl
  obtain ⟨m1, m2, s1, s2, s3, s4⟩ := sendSteps (S := ocppj F o a) (side := a) { Conn.init (ocppj F o a) with loop := .sel 0, readers := [.reading] } (id := idNo 0) rfl
    (by simp [Conn.init]) hf
  have r0 := OutRun.quiet (OutRun.nil (cap := cap) (side := a) (s := LSt.init (ocppj F o a)) (l := [])) (.other rfl s0) (by intros; simp) rfl
  have r1 := OutRun.quiet r0 (.other rfl s1) (by intros; simp) rfl
  have r2 := OutRun.quiet r1 (.other rfl s2) (by intros; simp) rfl
  have r3 := OutRun.quiet r2 (.other rfl s3) (by intros; simp) rfl
  have r4 := OutRun.lock r3 (LStep.lock (w := .sender 0) rfl rfl ⟨_, rfl, rfl⟩)
  have r5 := OutRun.ev r4 (.write rfl rfl (s4 rfl)) (by intros; simp) (fun _ _ => .inl rfl)
  refine ⟨_, _, r5, ?_, rfl, rfl, rfl, rfl, rfl, ?_⟩
  · refine Innocent.append (Innocent.append (Innocent.append (Innocent.append (Innocent.append (Innocent.append ?_ ?_) ?_) ?_) ?_) ?_) ?_
    · intro e he; cases he
    · exact Innocent.one rfl
    · exact Innocent.one rfl
    · exact Innocent.one rfl
    · exact Innocent.one rfl
    · exact Innocent.one trivial
    · exact Innocent.one rfl
  · intro y hy k hk
    rw [List.mem_singleton.1 hy]
    intro h
    have := idNo_inj h
    omega

/-- The steps by which a request reaches the handler. -/
theorem inSteps {o : Order} {a : Side} {s : LSt (ocppj F o a)} (h : Begun s) {id action : String} {f : Text} {j : Payload} {q' : Req}
    (hq : q'.type.isChargePoint = true ↔ a = .cs) (h2 : receive f = .ok (some (.call id action j))) (h3 : callToRequest F o action j = .ok q') :
    ∃ s1 s2 s3, LStep a s (.ev (Ev.read (S := ocppj F o a) 0 f)) s1 ∧ LStep a s1 (.ev (.dispatch 0)) s2 ∧
      LStep a s2 (.ev (Ev.take (S := ocppj F o a) 0 id q' (some (some q')))) s3 ∧ Ready s3 id (some q') 1 := by
  obtain ⟨c, lk⟩ := s
  obtain ⟨g1, g2, g3, g4, g5, g6⟩ := h
  simp only at g1 g2 g3 g4 g5 g6
  have t1 := Conn.Step.read (S := ocppj F o a) (side := a) (s := c) (k := 0) (f := f) g1 (by rw [g4]; rfl)
  have t2 := Conn.Step.dispatch (S := ocppj F o a) (side := a) (s := c.setReader 0 (.got f)) (k := 0) (f := f) (p := .toLoop id q') g1 (by simp [St.setReader, g4])
    (afterRead_call o _ h2 h3)
  have hat : afterTake (S := ocppj F o a) a id q' = .handling id (some q') := by
    cases a with
    | cp => exact if_pos (by simp [ocppj]; simpa using hq)
    | cs => exact if_pos (by simpa [ocppj] using hq)
  have t3 := Conn.Step.take (S := ocppj F o a) (side := a) (s := (c.setReader 0 (.got f)).setReader 0 (.toLoop id q')) (k := 0) (id := id) (r := q') g1 ⟨0, g3⟩
    (by simp [St.setReader, g4])
  rw [hat] at t3
  exact ⟨_, _, _, .other rfl t1, .other rfl t2, .other rfl t3, ⟨g1, g2, rfl, g5, g6⟩⟩

theorem nice_of {S : Sem} {t : List (LEv S)} {e : Ev S} : e ∈ t.filterMap LEv.ev? ↔ .ev e ∈ t := by
  rw [List.mem_filterMap]
  constructor
  · rintro ⟨x, hx, he⟩
    cases x with
    | lock => cases he
    | ev y => cases he; exact hx
  · exact fun h => ⟨_, h, rfl⟩

theorem Innocent.proper {o : Order} {a : Side} {q : Req} {resp : Resp} {t : List (LEv (ocppj F o a))} (h : Innocent q resp t)
    (hq : HasTy q.type.ty q.val) (hr : HasTy resp.type.ty resp.val) (hs : q.type.isChargePoint = true ↔ a = .cp) : Proper (t.filterMap LEv.ev?) := by
  refine ⟨⟨?_, ?_⟩, ?_⟩
  · intro i id r hm
    have : r = q := h _ (nice_of.1 hm)
    rw [this]; exact hq
  · intro id r e hm
    have : some r = some resp ∧ e = none := h _ (nice_of.1 hm)
    cases this.1
    exact hr
  · intro i id r hm
    have : r = q := h _ (nice_of.1 hm)
    rw [this]; exact hs

theorem Innocent.smooth {o : Order} {a : Side} {q : Req} {resp : Resp} {t : List (LEv (ocppj F o a))} (h : Innocent q resp t)
    (hq : ∃ t, marshal F q.type.ty q.val = .ok t) (hr : ∃ t, marshal F resp.type.ty resp.val = .ok t) : Smooth (t.filterMap LEv.ev?) := by
  refine ⟨?_, ?_, ?_⟩
  · intro e he
    have := h _ (nice_of.1 he)
    cases e <;> first | rfl | exact this
  · intro i id r hm
    have : r = q := h _ (nice_of.1 hm)
    rw [this]; exact hq
  · intro id r e hm
    have : r = some resp ∧ e = none := h _ (nice_of.1 hm)
    obtain ⟨t, ht⟩ := hr
    exact .inr ⟨resp, t, this.1, ht⟩

theorem atCp_append {α β : Type} (l l' : List (α ⊕ β)) : atCp (l ++ l') = atCp l ++ atCp l' := List.filterMap_append
theorem atCs_append {α β : Type} (l l' : List (α ⊕ β)) : atCs (l ++ l') = atCs l ++ atCs l' := List.filterMap_append
theorem atCp_inls {α β : Type} (l : List α) : atCp (l.map (Sum.inl (β := β))) = l := by
  induction l with
  | nil => rfl
  | cons a l ih => exact congrArg (a :: ·) ih
theorem atCs_inrs {α β : Type} (l : List β) : atCs (l.map (Sum.inr (α := α))) = l := by
  induction l with
  | nil => rfl
  | cons a l ih => exact congrArg (a :: ·) ih
theorem atCs_inls {α β : Type} (l : List α) : atCs (l.map (Sum.inl (β := β))) = [] := by
  induction l with
  | nil => rfl
  | cons a l ih => exact ih
theorem atCp_inrs {α β : Type} (l : List β) : atCp (l.map (Sum.inr (α := α))) = [] := by
  induction l with
  | nil => rfl
  | cons a l ih => exact ih

theorem cpQuiet {c c' : LSt (ocppj F o₁ .cp)} {d : LSt (ocppj F o₂ .cs)} {l l' : List Text} {e : Ev (ocppj F o₁ .cp)} (h : LStep .cp c (.ev e) c')
    (hr : ∀ k f, e ≠ .read k f) (hw : Option.toList (α := Text) e.wrote = []) : BSys.Step cap₁ cap₂ (⟨c, d, l, l'⟩ : BSys F o₁ o₂) (.inl (.ev e)) ⟨c', d, l, l'⟩ := by
  have hw' : e.wrote = none := by
    cases hh : e.wrote with
    | none => rfl
    | some f => rw [hh] at hw; cases hw
  have := BSys.Step.cp (cap₁ := cap₁) (cap₂ := cap₂) (x := (⟨c, d, l, l'⟩ : BSys F o₁ o₂)) h (.other hr) (hw' ▸ Room.none _ _)
  simp only [hw, List.append_nil] at this
  exact this

theorem csQuiet {c : LSt (ocppj F o₁ .cp)} {d d' : LSt (ocppj F o₂ .cs)} {l l' : List Text} {e : Ev (ocppj F o₂ .cs)} (h : LStep .cs d (.ev e) d')
    (hr : ∀ k f, e ≠ .read k f) (hw : Option.toList (α := Text) e.wrote = []) : BSys.Step cap₁ cap₂ (⟨c, d, l, l'⟩ : BSys F o₁ o₂) (.inr (.ev e)) ⟨c, d', l, l'⟩ := by
  have hw' : e.wrote = none := by
    cases hh : e.wrote with
    | none => rfl
    | some f => rw [hh] at hw; cases hw
  have := BSys.Step.cs (cap₁ := cap₁) (cap₂ := cap₂) (x := (⟨c, d, l, l'⟩ : BSys F o₁ o₂)) h (.other hr) (hw' ▸ Room.none _ _)
  simp only [hw, List.append_nil] at this
  exact this

theorem cpRead {c c' : LSt (ocppj F o₁ .cp)} {d : LSt (ocppj F o₂ .cs)} {l l' : List Text} {k : Nat} {f : Text}
    (h : LStep .cp c (.ev (Ev.read (S := ocppj F o₁ .cp) k f)) c') :
    BSys.Step cap₁ cap₂ (⟨c, d, l, f :: l'⟩ : BSys F o₁ o₂) (.inl (.ev (Ev.read (S := ocppj F o₁ .cp) k f))) ⟨c', d, l, l'⟩ := by
  have := BSys.Step.cp (cap₁ := cap₁) (cap₂ := cap₂) (x := (⟨c, d, l, f :: l'⟩ : BSys F o₁ o₂)) h .read (Room.none _ _)
  rw [show ∀ m : List Text, m ++ Option.toList (α := Text) (Ev.wrote (Ev.read (S := ocppj F o₁ .cp) k f)) = m from fun m => List.append_nil m] at this
  exact this

theorem csRead {c : LSt (ocppj F o₁ .cp)} {d d' : LSt (ocppj F o₂ .cs)} {l l' : List Text} {k : Nat} {f : Text}
    (h : LStep .cs d (.ev (Ev.read (S := ocppj F o₂ .cs) k f)) d') :
    BSys.Step cap₁ cap₂ (⟨c, d, f :: l, l'⟩ : BSys F o₁ o₂) (.inr (.ev (Ev.read (S := ocppj F o₂ .cs) k f))) ⟨c, d', l, l'⟩ := by
  have := BSys.Step.cs (cap₁ := cap₁) (cap₂ := cap₂) (x := (⟨c, d, f :: l, l'⟩ : BSys F o₁ o₂)) h .read (Room.none _ _)
  rw [show ∀ m : List Text, m ++ Option.toList (α := Text) (Ev.wrote (Ev.read (S := ocppj F o₂ .cs) k f)) = m from fun m => List.append_nil m] at this
  exact this

/-- **C90** Two ends can block each other for good although nothing goes wrong.  Whatever the capacity of the streams, for every charge
point request `q` and central system request `p` other than DataTransfer and all responses, all encodable, there is a schedule, without any
fault and with no objects but these, such that afterwards, as long as nobody closes the connection and no write fails, nothing is read or
written at either end, nothing given to a handler, no `Send` answered, and the end of the charge point's context not noticed. -/
theorem C90_deadlock (F : FloatFmt) (o₁ o₂ : Order) (cap₁ cap₂ : Nat) (q p : Req) (resp₁ resp₂ : Resp)
    (hcp : q.type.isChargePoint = true) (hcs : p.type.isChargePoint = false)
    (hd : q.type.action ≠ "DataTransfer".toList) (hd' : p.type.action ≠ "DataTransfer".toList)
    (hq : HasTy q.type.ty q.val) (hp : HasTy p.type.ty p.val)
    (hi : q.val.IntsAll fun n => |n| ≤ 2 ^ 53) (hi' : p.val.IntsAll fun n => |n| ≤ 2 ^ 53)
    (ht : q.val.TimesAll GoTime.Plain) (ht' : p.val.TimesAll GoTime.Plain)
    (hm : ∃ t, marshal F q.type.ty q.val = .ok t) (hm' : ∃ t, marshal F p.type.ty p.val = .ok t)
    (hr1 : HasTy resp₁.type.ty resp₁.val) (hr2 : HasTy resp₂.type.ty resp₂.val)
    (hm1 : ∃ t, marshal F resp₁.type.ty resp₁.val = .ok t) (hm2 : ∃ t, marshal F resp₂.type.ty resp₂.val = .ok t) :
    ∃ tr : List (LEv (ocppj F o₁ .cp) ⊕ LEv (ocppj F o₂ .cs)), ∃ x, BSys.Exec cap₁ cap₂ tr x ∧
      Proper (evsCp tr) ∧ Proper (evsCs tr) ∧ Smooth (evsCp tr) ∧ Smooth (evsCs tr) ∧
      (∀ i id (r : Req), Ev.send (S := ocppj F o₁ .cp) i id r ∈ evsCp tr → r = q) ∧
      (∀ i id (r : Req), Ev.send (S := ocppj F o₂ .cs) i id r ∈ evsCs tr → r = p) ∧
      (∃ id, Ev.handlerRet (S := ocppj F o₁ .cp) id (some resp₁) none ∈ evsCp tr) ∧
      (∃ id, Ev.handlerRet (S := ocppj F o₂ .cs) id (some resp₂) none ∈ evsCs tr) ∧
      ∀ t y, BSys.Run cap₁ cap₂ x t y → Undisturbed (evsCp t) → Undisturbed (evsCs t) → Idle (evsCp t) ∧ Idle (evsCs t) := by
  obtain ⟨tq, hmq⟩ := hm
  obtain ⟨tp, hmp⟩ := hm'
  obtain ⟨f, jq, vq, a1, a2, a3, -, -⟩ := C14_request F o₂ (idNo 0) q hd hq hi ht tq hmq
  obtain ⟨g, jp, vp, b1, b2, b3, -, -⟩ := C14_request F o₁ (idNo 0) p hd' hp hi' ht' tp hmp
  obtain ⟨u1, c1, st1, in1, bg1⟩ := start (o := o₁) (a := .cp) (resp := resp₁) a1 cap₁
  obtain ⟨u2, d1, st2, in2, bg2⟩ := start (o := o₂) (a := .cs) (resp := resp₂) b1 cap₂
  obtain ⟨c2, c3, c4, k1, k2, k3, rc⟩ := inSteps bg1 (q' := ⟨p.type, vp⟩) (by simp [hcs]) b2 b3
  obtain ⟨d2, d3, d4, l1, l2, l3, rd⟩ := inSteps bg2 (q' := ⟨q.type, vq⟩) (by simp [hcp]) a2 a3
  obtain ⟨v1, c5, lc, i1, p1, f1, n1⟩ := pump (a := .cp) (resp := resp₁) hq hmq cap₁ _ c4 [] 1 (le_refl _) rc
  obtain ⟨v2, d5, ld, i2, p2, f2, n2⟩ := pump (a := .cs) (resp := resp₂) hp hmp cap₂ _ d4 [] 1 (le_refl _) rd
  have e1 : BSys.Exec cap₁ cap₂ (u1.map .inl) (⟨c1, LSt.init _, [f], []⟩ : BSys F o₁ o₂) := OutRun.cp (x := BSys.init F o₁ o₂) st1
  have e2 : BSys.Exec cap₁ cap₂ (u1.map .inl ++ u2.map .inr) (⟨c1, d1, [f], [g]⟩ : BSys F o₁ o₂) := e1.append (OutRun.cs (x := ⟨c1, LSt.init _, [f], []⟩) st2)
  have w1 : BSys.Run cap₁ cap₂ (⟨c1, d1, [f], [g]⟩ : BSys F o₁ o₂)
      ([.ev (Ev.read (S := ocppj F o₁ .cp) 0 g), .ev (.dispatch 0), .ev (Ev.take (S := ocppj F o₁ .cp) 0 (idNo 0) ⟨p.type, vp⟩ (some (some ⟨p.type, vp⟩)))].map .inl)
      (⟨c4, d1, [f], []⟩ : BSys F o₁ o₂) :=
    ((BSys.Run.nil.snoc (cpRead k1)).snoc (cpQuiet k2 (by intros; simp) rfl)).snoc (cpQuiet k3 (by intros; simp) rfl)
  have w2 : BSys.Run cap₁ cap₂ (⟨c4, d1, [f], []⟩ : BSys F o₁ o₂)
      ([.ev (Ev.read (S := ocppj F o₂ .cs) 0 f), .ev (.dispatch 0), .ev (Ev.take (S := ocppj F o₂ .cs) 0 (idNo 0) ⟨q.type, vq⟩ (some (some ⟨q.type, vq⟩)))].map .inr)
      (⟨c4, d4, [], []⟩ : BSys F o₁ o₂) :=
    ((BSys.Run.nil.snoc (csRead l1)).snoc (csQuiet l2 (by intros; simp) rfl)).snoc (csQuiet l3 (by intros; simp) rfl)
  have e4 : BSys.Exec cap₁ cap₂ _ (⟨c5, d5, lc, ld⟩ : BSys F o₁ o₂) :=
    (((e2.append w1).append w2).append (OutRun.cp (x := ⟨c4, d4, [], []⟩) p1)).append (OutRun.cs (x := ⟨c5, d4, lc, []⟩) p2)
  have hc := Conn.Step.handlerRet (S := ocppj F o₁ .cp) (side := .cp) (some resp₁) none f1.alive f1.handling
  have hd := Conn.Step.handlerRet (S := ocppj F o₂ .cs) (side := .cs) (some resp₂) none f2.alive f2.handling
  have e5 := (e4.append (.snoc .nil (cpQuiet (.other rfl hc) (by intros; simp) rfl))).append (.snoc .nil (csQuiet (.other rfl hd) (by intros; simp) rfl))
  obtain ⟨tr, x, e5, htr1, htr2, hx1, hx2, hx3, hx4⟩ : ∃ tr : List (LEv (ocppj F o₁ .cp) ⊕ LEv (ocppj F o₂ .cs)), ∃ x : BSys F o₁ o₂, BSys.Exec cap₁ cap₂ tr x ∧
      atCp tr = u1 ++ [.ev (Ev.read (S := ocppj F o₁ .cp) 0 g), .ev (.dispatch 0), .ev (Ev.take (S := ocppj F o₁ .cp) 0 (idNo 0) ⟨p.type, vp⟩ (some (some ⟨p.type, vp⟩)))] ++ v1 ++
        [.ev (Ev.handlerRet (S := ocppj F o₁ .cp) (idNo 0) (some resp₁) none)] ∧
      atCs tr = u2 ++ [.ev (Ev.read (S := ocppj F o₂ .cs) 0 f), .ev (.dispatch 0), .ev (Ev.take (S := ocppj F o₂ .cs) 0 (idNo 0) ⟨q.type, vq⟩ (some (some ⟨q.type, vq⟩)))] ++ v2 ++
        [.ev (Ev.handlerRet (S := ocppj F o₂ .cs) (idNo 0) (some resp₂) none)] ∧
      x.cp = ⟨{ c5.conn with loop := .answering (idNo 0) (some resp₁) none }, c5.lock⟩ ∧ x.cs = ⟨{ d5.conn with loop := .answering (idNo 0) (some resp₂) none }, d5.lock⟩ ∧
      x.toCs = lc ∧ x.toCp = ld := by
    refine ⟨_, _, e5, ?_, ?_, rfl, rfl, rfl, rfl⟩
    · simp only [atCp_append, atCp_inls, atCp_inrs]
      simp [atCp]
    · simp only [atCs_append, atCs_inls, atCs_inrs]
      simp [atCs]
  have ncp : Innocent q resp₁ (atCp tr) := by
    rw [htr1]
    refine ((in1.append ?_).append n1).append (Innocent.one ⟨rfl, rfl⟩)
    intro e he
    simp only [List.mem_cons, List.not_mem_nil, or_false] at he
    rcases he with rfl | rfl | rfl <;> rfl
  have ncs : Innocent p resp₂ (atCs tr) := by
    rw [htr2]
    refine ((in2.append ?_).append n2).append (Innocent.one ⟨rfl, rfl⟩)
    intro e he
    simp only [List.mem_cons, List.not_mem_nil, or_false] at he
    rcases he with rfl | rfl | rfl <;> rfl
  refine ⟨tr, x, e5, ncp.proper hq hr1 (by simp [hcp]), ncs.proper hp hr2 (by simp [hcs]), ncp.smooth ⟨tq, hmq⟩ hm1, ncs.smooth ⟨tp, hmp⟩ hm2,
    fun i id r hm => ncp _ (nice_of.1 hm), fun i id r hm => ncs _ (nice_of.1 hm), ⟨idNo 0, ?_⟩, ⟨idNo 0, ?_⟩, ?_⟩
  · exact nice_of.2 (htr1 ▸ by simp)
  · exact nice_of.2 (htr2 ▸ by simp)
  · intro t y hrun hu1 hu2
    obtain ⟨x1, x2, -, -⟩ := (C90_refines e5).ends
    have j1 : Jam cap₁ x.cp x.toCs := by
      refine ⟨Exec.inv x1, ?_, ?_⟩
      · rw [hx1]; exact ⟨_, _, _, rfl⟩
      · rw [hx1, hx3]
        obtain ⟨y, g⟩ := f1.at_
        exact ⟨i1, y, f1.held, g⟩
    have j2 : Jam cap₂ x.cs x.toCp := by
      refine ⟨Exec.inv x2, ?_, ?_⟩
      · rw [hx2]; exact ⟨_, _, _, rfl⟩
      · rw [hx2, hx4]
        obtain ⟨y, g⟩ := f2.at_
        exact ⟨i2, y, f2.held, g⟩
    obtain ⟨-, -, z1, z2⟩ := jam_run hrun j1 j2 hu1 hu2
    exact ⟨z1, z2⟩

/-- A charge point and a central system that send heartbeats and requests to clear the cache, until they block each other. -/
example (F : FloatFmt) (o₁ o₂ : Order) (cap₁ cap₂ : Nat) :
    ∃ tr : List (LEv (ocppj F o₁ .cp) ⊕ LEv (ocppj F o₂ .cs)), ∃ x, BSys.Exec cap₁ cap₂ tr x ∧ Smooth (evsCp tr) ∧ Smooth (evsCs tr) ∧
      ∀ t y, BSys.Run cap₁ cap₂ x t y → Undisturbed (evsCp t) → Undisturbed (evsCs t) → Idle (evsCp t) ∧ Idle (evsCs t) := by
  have e : ∀ (m : MsgType) (v : Val), HasTy m.ty v → (∃ j, wire F m.ty v = .ok j) → ∃ t, marshal F m.ty v = .ok t := by
    intro m v hv ⟨j, hj⟩
    rcases C01_wellformed F m v hv with ⟨t, ms, h, -⟩ | ⟨e, -, h⟩ | ⟨e, -, h⟩
    · exact ⟨t, h⟩
    · rw [hj] at h; cases h
    · rw [hj] at h; cases h
  have h1 : HasTy (MsgType.req .cpreqHeartbeat).ty (.struct []) := by
    simp [MsgType.ty, ReqType.ty, cpreq.Heartbeat, HasTy, HasTys]
  have h2 : HasTy (MsgType.req .csreqClearCache).ty (.struct []) := by
    simp [MsgType.ty, ReqType.ty, csreq.ClearCache, HasTy, HasTys]
  have h3 : HasTy (MsgType.resp .csrespClearCache).ty (.struct [.str "Accepted".toList]) := by
    simp [MsgType.ty, RespType.ty, csresp.ClearCache, HasTy, HasTys]
  have h4 : HasTy (MsgType.resp .cprespHeartbeat).ty (.struct [.time ⟨1700000000, 0, 0⟩]) := by
    simp [MsgType.ty, RespType.ty, cpresp.Heartbeat, HasTy, HasTys]
  obtain ⟨tr, x, k1, -, -, k2, k3, -, -, -, -, k4⟩ := C90_deadlock F o₁ o₂ cap₁ cap₂ ⟨.cpreqHeartbeat, .struct []⟩ ⟨.csreqClearCache, .struct []⟩
    ⟨.csrespClearCache, .struct [.str "Accepted".toList]⟩ ⟨.cprespHeartbeat, .struct [.time ⟨1700000000, 0, 0⟩]⟩ rfl rfl (by decide) (by decide) h1 h2
    (by simp [Val.IntsAll, Val.IntsAlls]) (by simp [Val.IntsAll, Val.IntsAlls]) (by simp [Val.TimesAll, Val.TimesAlls]) (by simp [Val.TimesAll, Val.TimesAlls])
    (e (.req .cpreqHeartbeat) _ h1 ⟨_, rfl⟩) (e (.req .csreqClearCache) _ h2 ⟨_, rfl⟩) h3 h4
    (e (.resp .csrespClearCache) _ h3 ⟨_, rfl⟩) (e (.resp .cprespHeartbeat) _ h4 ⟨_, rfl⟩)
  exact ⟨tr, x, k1, k2, k3, k4⟩

/-- C89 is not about nothing: for every request that can be encoded there is a schedule with the write of a `Send` under way, and another
`Send` meanwhile. -/
theorem C89_possible {F : FloatFmt} {o : Order} {a : Side} {q : Req} {text : Text} (hv : HasTy q.type.ty q.val) (hm : marshal F q.type.ty q.val = .ok text) :
    ∃ (tr t : List (LEv (ocppj F o a))) (s s' : LSt (ocppj F o a)), LExec a tr s ∧ UnderWay tr (.sender 0) ∧ LRun a s t s' ∧ NotEnding (.sender 0) t ∧
      Ev.send (S := ocppj F o a) 1 (idNo 1) q ∈ Conn.evs t := by
  obtain ⟨f, hf⟩ := encCall_ok (id := idNo 0) hv hm
  obtain ⟨g, hg⟩ := encCall_ok (id := idNo 1) hv hm
  obtain ⟨m1, m2, s1, s2, s3, -⟩ := sendSteps (S := ocppj F o a) (side := a) (Conn.init (ocppj F o a)) (id := idNo 0) rfl (by simp [Conn.init]) hf
  have r1 : LExec a _ _ := (((LRun.nil (side := a) (s := LSt.init (ocppj F o a))).snoc (.other rfl s1)).snoc (.other rfl s2)).snoc (.other rfl s3)
  have r2 := r1.snoc (LStep.lock (w := .sender 0) rfl rfl ⟨_, rfl, rfl⟩)
  have t1 := Conn.Step.send (S := ocppj F o a) (side := a) (s := withSend (Conn.init (ocppj F o a)) (idNo 0) q f .registered m1 m2) (id := idNo 1) (r := q) rfl
    (by
      intro x hx
      rw [List.mem_singleton.1 hx]
      exact fun h => absurd (idNo_inj h) (by omega)) hg
  refine ⟨_, [.ev (Ev.send (S := ocppj F o a) 1 (idNo 1) q)], _, _, r2, ⟨_, [], rfl, by simp⟩, LRun.nil.snoc (.other rfl t1), ?_, ?_⟩
  · intro e he
    cases List.mem_singleton.1 he
    simp [Ev.writer]
  · simp [Conn.evs, LEv.ev?]

/-- And there is one with the write of a reply under way. -/
theorem C89_replyPossible {F : FloatFmt} {o : Order} (resp : Option Resp) (err : Option String) {id action : String} {f : Text} {j : Payload} {q' : Req}
    (hq : q'.type.isChargePoint = true) (h2 : receive f = .ok (some (.call id action j))) (h3 : callToRequest F o action j = .ok q') :
    ∃ (tr : List (LEv (ocppj F o .cs))) (s : LSt (ocppj F o .cs)), LExec .cs tr s ∧ UnderWay tr .loop ∧
      Ev.handlerRet (S := ocppj F o .cs) id resp err ∈ Conn.evs tr := by
  have s0 : LStep .cs (LSt.init (ocppj F o .cs)) (.ev (.spawn 0)) ⟨{ Conn.init (ocppj F o .cs) with loop := .sel 0, readers := [.reading] }, none⟩ :=
    .other rfl (Conn.Step.spawn rfl rfl)
  obtain ⟨s1, s2, s3, k1, k2, k3, hr⟩ := inSteps (o := o) (a := .cs) (s := ⟨{ Conn.init (ocppj F o .cs) with loop := .sel 0, readers := [.reading] }, none⟩)
    ⟨rfl, rfl, rfl, rfl, rfl, by simp [Conn.init]⟩ (by simp [hq]) h2 h3
  have r1 : LExec .cs _ _ := (((LRun.nil (side := .cs) (s := LSt.init (ocppj F o .cs))).snoc s0).snoc k1).snoc k2 |>.snoc k3
  have k4 := Conn.Step.handlerRet (S := ocppj F o .cs) (side := .cs) resp err hr.alive hr.handling
  have r2 := (r1.snoc (.other rfl k4)).snoc (LStep.lock (w := .loop) hr.alive hr.free ⟨_, _, _, rfl⟩)
  refine ⟨_, _, r2, ⟨_, [], rfl, by simp⟩, ?_⟩
  simp [Conn.evs, LEv.ev?]

end Verif.Ocppj
