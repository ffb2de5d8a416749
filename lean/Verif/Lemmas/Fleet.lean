import Verif.Props.World
import Verif.Props.ChargePoint
import Verif.Spec.Fleet
/-!
# Invariants of the composition
-/
set_option linter.unusedSimpArgs false
namespace Verif.Fleet
open Codec Ocppj World

variable {F : FloatFmt} {o₁ o₂ : Order} {csURL : Text} {ids : List Text}

/-! ### Steps of a charge point's end -/

/-- What a serving loop is doing. -/
inductive Kind where
  | idle
  | busy
  | out
  deriving DecidableEq

/-- What it is doing. -/
def kind {S : Sem} : Conn.Loop S → Kind
  | .top => .idle
  | .sel _ => .idle
  | .handling _ _ => .busy
  | .answering _ _ _ => .busy
  | .exited => .out

/-- The event closes the charge point's end. -/
def shuts {S : Sem} : Conn.Ev S → Bool
  | .close => true
  | .readErr _ _ => true
  | .ctxDone => true
  | _ => false

theorem cp_closed {S : Sem} {s s' : Conn.St S} {e : Conn.Ev S} (h : Conn.Step .cp s e s') : s'.closed = (s.closed || shuts e) := by
  cases h with
  | result h1 h2 h3 => simp [shuts, Conn.St.setReader]
  | handlerPanicCs _ h => cases h
  | answerPanicCs _ h => cases h
  | _ => simp [shuts, Conn.St.setReader, Conn.St.setPhase]

/-- What an event does to the loop. -/
def moves {S : Sem} (s s' : Conn.St S) : Conn.Ev S → Prop
  | .spawn _ => s.loop = .top ∧ kind s'.loop = .idle
  | .take _ _ _ _ => (∃ j, s.loop = .sel j) ∧ kind s'.loop = .busy
  | .handlerRet _ _ _ => kind s.loop = .busy ∧ kind s'.loop = .busy
  | .handlerPanic _ => False
  | .answer _ _ _ _ => kind s.loop = .busy ∧ kind s'.loop = .idle
  | .result _ _ => (∃ j, s.loop = .sel j) ∧ kind s'.loop = .idle
  | .seeClosed => (∃ j, s.loop = .sel j) ∧ kind s'.loop = .out ∧ s.closed = true
  | .ctxDone => (∃ j, s.loop = .sel j) ∧ kind s'.loop = .out
  | _ => s'.loop = s.loop

theorem cp_loop {S : Sem} {s s' : Conn.St S} {e : Conn.Ev S} (h : Conn.Step .cp s e s') (hc : s'.crashed = false) : moves s s' e := by
  cases h with
  | result h1 h2 h3 => exact ⟨⟨_, h2⟩, by simp [Conn.afterResult, kind]⟩
  | handlerPanicCs _ h => cases h
  | answerPanicCs _ h => cases h
  | handlerPanicCp => cases hc
  | answerPanicCp => cases hc
  | dispatchPanic => cases hc
  | sendPanic => cases hc
  | spawn _ h => exact ⟨h, rfl⟩
  | take _ h _ =>
    refine ⟨h, ?_⟩
    simp only [Conn.afterTake]
    split <;> rfl
  | handlerRet _ _ _ h => exact ⟨by rw [h]; rfl, rfl⟩
  | answerOk _ h => exact ⟨by rw [h]; rfl, rfl⟩
  | answerFail _ h => exact ⟨by rw [h]; rfl, rfl⟩
  | seeClosed _ h h2 => exact ⟨⟨_, h⟩, rfl, h2⟩
  | ctxDone _ _ h => exact ⟨⟨_, h⟩, rfl⟩
  | _ => rfl

theorem cp_not_crashed {S : Sem} {side : Side} {s s' : Conn.St S} {e : Conn.Ev S} (h : Conn.Step side s e s') : s.crashed = false :=
  Conn.step_not_crashed h

/-! ### The loop of each connection of a charge point -/

/-- What the loop of connection `k` has to be doing, by the charge point's goroutine. -/
def kindOf (st : ChargePoint.St) (k : Nat) : Kind :=
  if st.conn = some k then
    match st.phase with
    | .select | .connSet | .serviceSet => .idle
    | .handling => .busy
    | _ => .out
  else if st.phase = .dialled k then .idle
  else .out

/-- What holds after every history. -/
structure Inv (csURL : Text) (ids : List Text) (tr : List (Ev F o₁ o₂)) (s : St F o₁ o₂) : Prop where
  world : World.Exec csURL (worldEvents tr) s.world
  ids : s.cps.map Cp.identity = ids
  own : ∀ (i : Nat) c, s.cps[i]? = some c → ChargePoint.Exec (ownEvents i tr) c.st
  links : ∀ (i : Nat) c, s.cps[i]? = some c → c.links = connsOf i tr
  none : ∀ i : Nat, s.cps.length ≤ i → connsOf i tr = []
  cnt : ∀ (i : Nat) c, s.cps[i]? = some c → c.st.conns.length = c.links.length
  link : ∀ (i k n : Nat) c, s.cps[i]? = some c → c.links[k]? = some n →
    ∃ l, s.world.links[n]? = some l ∧ l.identity = c.identity ∧ c.st.conns[k]? = some l.ends.cp.closed
  inj : ∀ (i j k m n : Nat) c d, s.cps[i]? = some c → s.cps[j]? = some d → c.links[k]? = some n → d.links[m]? = some n → i = j ∧ k = m
  loop : ∀ (i k n : Nat) c l, s.cps[i]? = some c → c.alive s.world → c.links[k]? = some n → s.world.links[n]? = some l →
    kind l.ends.cp.loop = kindOf c.st k
  foreign : ∀ (n : Nat) l, s.world.links[n]? = some l → (∀ (i k : Nat) c, s.cps[i]? = some c → c.links[k]? ≠ some n) → l.ends.cp = Conn.init _

theorem worldEvents_snoc (tr : List (Ev F o₁ o₂)) (e : Ev F o₁ o₂) : worldEvents (tr ++ [e]) = worldEvents tr ++ worldEvents [e] := by
  simp [worldEvents]

theorem ownEvents_snoc (i : Nat) (tr : List (Ev F o₁ o₂)) (e : Ev F o₁ o₂) : ownEvents i (tr ++ [e]) = ownEvents i tr ++ ownEvents i [e] := by
  simp [ownEvents]

theorem connsOf_snoc (i : Nat) (tr : List (Ev F o₁ o₂)) (e : Ev F o₁ o₂) : connsOf i (tr ++ [e]) = connsOf i tr ++ connsOf i [e] := by
  simp [connsOf]

theorem inv_nil : Inv csURL ids [] (init F o₁ o₂ ids) := by
  have hget : ∀ (i : Nat) c, (init F o₁ o₂ ids).cps[i]? = some c → ∃ a, c = ⟨a, ChargePoint.init, []⟩ := by
    intro i c h
    simp only [init, List.getElem?_map] at h
    cases hi : ids[i]? with
    | none => rw [hi] at h; cases h
    | some a => rw [hi] at h; cases h; exact ⟨a, rfl⟩
  refine ⟨.nil, ?_, ?_, ?_, ?_, ?_, ?_, ?_, ?_, ?_⟩
  · simp [init, Function.comp_def]
  · intro i c h; obtain ⟨a, rfl⟩ := hget i c h; exact .nil
  · intro i c h; obtain ⟨a, rfl⟩ := hget i c h; rfl
  · intro i _; rfl
  · intro i c h; obtain ⟨a, rfl⟩ := hget i c h; rfl
  · intro i k n c h; obtain ⟨a, rfl⟩ := hget i c h; simp
  · intro i j k m n c d h; obtain ⟨a, rfl⟩ := hget i c h; simp
  · intro i k n c l h; obtain ⟨a, rfl⟩ := hget i c h; simp
  · intro n l h; simp [init, World.init] at h

/-- The identity of every charge point stays. -/
theorem set_ids {l : List Cp} {i : Nat} {c c' : Cp} (h : l[i]? = some c) (h' : c'.identity = c.identity) : (l.set i c').map Cp.identity = l.map Cp.identity := by
  apply List.ext_getElem?
  intro m
  rw [List.getElem?_map, List.getElem?_map, List.getElem?_set]
  split
  · rename_i e; subst e
    split
    · rw [h]; simp [h']
    · rename_i hlt; simp [List.getElem?_eq_none (Nat.le_of_not_lt hlt)]
  · rfl

/-- How a step at the charge point's end of connection `n` changes the links. -/
theorem cp_world {w w' : World.St F o₁ o₂} {n : Nat} {e : Conn.Ev (ocppj F o₁ .cp)} (h : World.Step csURL w (.cp n e) w') :
    ∃ l s', w.links[n]? = some l ∧ Conn.Step .cp l.ends.cp e s' ∧
      ∃ l', w'.links = w.links.set n l' ∧ l'.identity = l.identity ∧ l'.reg = l.reg ∧ l'.ends.cp = s' ∧ l'.ends.cs = l.ends.cs := by
  generalize hev : World.Ev.cp (o₂ := o₂) n e = ev at h
  cases h <;> cases hev
  rename_i l ends' hl hst
  generalize hev : (Sum.inl e : Conn.Ev (ocppj F o₁ .cp) ⊕ Conn.Ev (ocppj F o₂ .cs)) = ev at hst
  cases hst <;> cases hev
  rename_i s' l2 h1 h2
  exact ⟨l, s', hl, h1, _, rfl, rfl, rfl, rfl, rfl⟩

/-- Steps of the central system leave the charge points' ends alone. -/
theorem cs_world {w w' : World.St F o₁ o₂} {e : World.Ev F o₁ o₂} (h : World.Step csURL w e w') (ha : atCentral e = true) :
    (∀ (n : Nat) l', w'.links[n]? = some l' → ∃ l, w.links[n]? = some l ∧ l'.identity = l.identity ∧ l'.ends.cp = l.ends.cp) ∧
    (∀ (n : Nat) l, w.links[n]? = some l → ∃ l', w'.links[n]? = some l' ∧ l'.identity = l.identity ∧ l'.ends.cp = l.ends.cp) := by
  have key : ∀ {n : Nat} {l l₀ : Link F o₁ o₂}, w.links[n]? = some l → l₀.identity = l.identity → l₀.ends.cp = l.ends.cp →
      (∀ (m : Nat) l', (w.links.set n l₀)[m]? = some l' → ∃ l, w.links[m]? = some l ∧ l'.identity = l.identity ∧ l'.ends.cp = l.ends.cp) ∧
      (∀ (m : Nat) l, w.links[m]? = some l → ∃ l', (w.links.set n l₀)[m]? = some l' ∧ l'.identity = l.identity ∧ l'.ends.cp = l.ends.cp) := by
    intro n l l₀ hl h1 h2
    refine ⟨?_, ?_⟩
    · intro m l' hm
      rcases get_set hm with ⟨_, h4⟩ | ⟨rfl, rfl⟩
      · exact ⟨l', h4, rfl, rfl⟩
      · exact ⟨l, hl, h1, h2⟩
    · intro m l' hm
      refine ⟨_, set_get hm, ?_⟩
      split
      · rename_i e; subst e; rw [hl] at hm; cases hm; exact ⟨h1, h2⟩
      · exact ⟨rfl, rfl⟩
  cases h with
  | dial => cases ha
  | cp => cases ha
  | register _ hl _ _ _ => exact key hl rfl rfl
  | reg => exact ⟨fun n l' h => ⟨l', h, rfl, rfl⟩, fun n l h => ⟨l, h, rfl, rfl⟩⟩
  | @cs n k e l c ends' _ hl _ _ hst _ =>
    refine key hl rfl ?_
    generalize hev : (Sum.inr e : Conn.Ev (ocppj F o₁ .cp) ⊕ Conn.Ev (ocppj F o₂ .cs)) = ev at hst
    cases hst <;> cases hev
    rfl

theorem dial_world {w w' : World.St F o₁ o₂} {n : Nat} {identity : Text} (h : World.Step csURL w (.dial n identity) w') :
    n = w.links.length ∧ w'.links = w.links ++ [⟨identity, Sys.init F o₁ o₂, none⟩] := by
  generalize hev : World.Ev.dial (F := F) (o₁ := o₁) (o₂ := o₂) n identity = ev at h
  cases h <;> cases hev
  exact ⟨rfl, rfl⟩

theorem dialled_new {t : List ChargePoint.Ev} {st : ChargePoint.St} (h : ChargePoint.Exec t st) :
    ∀ n, st.phase = .dialled n → ∀ m, st.conn = some m → m < n := by
  induction h with
  | nil => simp [ChargePoint.init]
  | @snoc tr e s s' hx hs ih =>
    have hb := (ChargePoint.Exec.bound hx).1
    cases hs <;> intro n hp m hm <;> (try simp only [ChargePoint.Phase.dialled.injEq, reduceCtorEq] at hp) <;> (try exact ih n hp m hm)
    subst hp; exact hb m hm

theorem kind_local {t : List ChargePoint.Ev} {st st' : ChargePoint.St} {f : ChargePoint.Ev} (hi : ChargePoint.Exec t st) (h : ChargePoint.Step st f st')
    (hf : isLocal f = true) : st'.conns = st.conns ∧ ∀ k, k < st.conns.length → kindOf st' k = kindOf st k := by
  have hinv := hi.inv
  cases h with
  | dialOk => cases hf
  | seeClosed => cases hf
  | drop => cases hf
  | read => cases hf
  | handle => cases hf
  | handled => cases hf
  | stop => cases hf
  | send => cases hf
  | dialFail => exact ⟨rfl, fun _ _ => rfl⟩
  | cancel => exact ⟨rfl, fun _ _ => rfl⟩
  | waitConnect => exact ⟨rfl, fun _ _ => rfl⟩
  | waitDisconnect => exact ⟨rfl, fun _ _ => rfl⟩
  | @setConn n hp =>
    refine ⟨rfl, fun k hk => ?_⟩
    have hl := hinv.dl n hp
    simp only [kindOf, hp]
    by_cases hkn : n = k
    · subst hkn
      have : st.conn ≠ some n := by
        intro hc
        exact absurd (dialled_new hi n hp n hc) (Nat.lt_irrefl _)
      simp [this]
    · have : ¬ (some n = some k) := by simpa using hkn
      simp only [this, if_false, reduceCtorEq, ChargePoint.Phase.dialled.injEq, hkn, ite_self]
  | setService hp =>
    refine ⟨rfl, fun k hk => ?_⟩
    simp [kindOf, hp]
  | announce hp =>
    refine ⟨rfl, fun k hk => ?_⟩
    simp [kindOf, hp]
  | renew hp =>
    refine ⟨rfl, fun k hk => ?_⟩
    simp [kindOf, hp]

theorem kind_dial {t : List ChargePoint.Ev} {st st' : ChargePoint.St} {n : Nat} (hi : ChargePoint.Exec t st) (h : ChargePoint.Step st (.dialOk n) st') :
    n = st.conns.length ∧ st'.conns = st.conns ++ [false] ∧ kindOf st' n = .idle ∧ ∀ k, k < st.conns.length → kindOf st' k = kindOf st k := by
  have hb := (ChargePoint.Exec.bound hi).1
  generalize hev : ChargePoint.Ev.dialOk n = ev at h
  cases h <;> cases hev
  rename_i hp
  refine ⟨rfl, rfl, ?_, ?_⟩
  · have : st.conn ≠ some st.conns.length := by intro hc; have := hb _ hc; omega
    simp [kindOf, this]
  · intro k hk
    have : st.conns.length ≠ k := by omega
    simp [kindOf, hp, this]

theorem kind_face {S : Sem} {t : List ChargePoint.Ev} {st st' : ChargePoint.St} {s s' : Conn.St S} {e : Conn.Ev S} {k : Nat} (hi : ChargePoint.Exec t st)
    (hk : k < st.conns.length) (hf : Faced k e st st') (hl : ofLoop e = true → st.conn = some k ∧ (st.phase = .select ∨ st.phase = .handling))
    (hm : moves s s' e) (hkind : kind s.loop = kindOf st k) :
    kind s'.loop = kindOf st' k ∧ ∀ m, m ≠ k → kindOf st' m = kindOf st m := by
  have quiet : s'.loop = s.loop → st'.conn = st.conn → st'.phase = st.phase → kind s'.loop = kindOf st' k ∧ ∀ m, m ≠ k → kindOf st' m = kindOf st m := by
    intro h1 h2 h3
    refine ⟨?_, fun m _ => ?_⟩
    · rw [h1, hkind]; simp only [kindOf, h2, h3]
    · simp only [kindOf, h2, h3]
  have same : kind s'.loop = kind s.loop → st' = st → kind s'.loop = kindOf st' k ∧ ∀ m, m ≠ k → kindOf st' m = kindOf st m := by
    intro h1 h2
    subst h2; exact ⟨h1.trans hkind, fun _ _ => rfl⟩
  have other : ofLoop e = true → st'.conn = st.conn → (st'.phase = .select ∨ st'.phase = .handling ∨ st'.phase = .lost ∨ st'.phase = .stopped) →
      ∀ m, m ≠ k → kindOf st' m = kindOf st m := by
    intro h1 h2 h3 m hm
    obtain ⟨h4, h5⟩ := hl h1
    have h6 : st.conn ≠ some m := by rw [h4]; simpa using Ne.symm hm
    simp only [kindOf, h2, h6, if_false]
    rcases h3 with h3 | h3 | h3 | h3 <;> rcases h5 with h5 | h5 <;> simp [h3, h5]
  cases hf with
  | silent h1 h2 =>
    cases e <;> simp only [face, reduceCtorEq] at h1 <;> simp only [moves] at hm
    case spawn => exact same (by rw [hm.1, hm.2]; rfl) h2
    case handlerRet => exact same (by rw [hm.1, hm.2]) h2
    all_goals exact same (by rw [hm]) h2
  | @step f h1 h2 =>
    cases e <;> simp only [face, Option.some.injEq, reduceCtorEq] at h1 <;> subst h1
    case readErr => cases h2; exact quiet hm rfl rfl
    case close => cases h2; exact quiet hm rfl rfl
    case send => cases h2; exact quiet hm rfl rfl
    case take =>
      obtain ⟨h4, h5⟩ := hl rfl
      cases h2
      refine ⟨by rw [hm.2]; simp [kindOf, h4], other rfl rfl (by simp)⟩
    case answer =>
      obtain ⟨h4, h5⟩ := hl rfl
      cases h2
      refine ⟨by rw [hm.2]; simp [kindOf, h4], other rfl rfl (by simp)⟩
    case result =>
      obtain ⟨h4, h5⟩ := hl rfl
      cases h2
      rename_i hp
      refine ⟨by rw [hm.2]; simp [kindOf, h4, hp], other rfl rfl (by simp [hp])⟩
    case seeClosed =>
      obtain ⟨h4, h5⟩ := hl rfl
      cases h2
      refine ⟨by rw [hm.2.1]; simp [kindOf, h4], other rfl rfl (by simp)⟩
    case ctxDone =>
      obtain ⟨h4, h5⟩ := hl rfl
      cases h2
      refine ⟨by rw [hm.2]; simp [kindOf, h4], other rfl rfl (by simp)⟩

theorem face_conns {S : Sem} {st st' : ChargePoint.St} {e : Conn.Ev S} {k : Nat} (hf : Faced k e st st')
    (hl : ofLoop e = true → st.conn = some k ∧ (st.phase = .select ∨ st.phase = .handling)) :
    st'.conns = if shuts e = true then st.conns.set k true else st.conns := by
  cases hf with
  | silent h1 h2 => subst h2; cases e <;> simp [face, shuts] at h1 ⊢
  | step h1 h2 =>
    cases e <;> simp only [face, Option.some.injEq, reduceCtorEq] at h1 <;> subst h1 <;> cases h2 <;> simp [shuts]
    · rename_i hc
      rw [(hl rfl).1] at hc; cases hc; rfl

/-- Another charge point's process is as alive as before. -/
theorem alive_iff {w w' : World.St F o₁ o₂} {c : Cp} (h : ∀ n ∈ c.links, ∀ l', w'.links[n]? = some l' → ∃ l, w.links[n]? = some l ∧ l'.ends.cp.crashed = l.ends.cp.crashed)
    (hc : c.alive w) : c.alive w' := by
  intro n hn l' hl'
  obtain ⟨l, h1, h2⟩ := h n hn l' hl'
  rw [h2]; exact hc n hn l h1

theorem inv_step {tr : List (Ev F o₁ o₂)} {s s' : St F o₁ o₂} {e : Ev F o₁ o₂} (h : Inv csURL ids tr s) (hs : Step csURL s e s') :
    Inv csURL ids (tr ++ [e]) s' := by
  obtain ⟨hworld, hids, hown, hlinks, hnone, hcnt, hlink, hinj, hloop, hforeign⟩ := h
  cases hs with
  | @dialled i c w' st' hc hal hw hst =>
    obtain ⟨-, hwl⟩ := dial_world hw
    obtain ⟨hn, hconns, hk0, hk⟩ := kind_dial (hown i c hc) hst
    have hbnd : ∀ (j k n : Nat) d, s.cps[j]? = some d → d.links[k]? = some n → n < s.world.links.length := by
      intro j k n d hd hkn
      obtain ⟨l, h1, -⟩ := hlink j k n d hd hkn
      exact lt_of_get h1
    have hcl : ∀ j, connsOf j [Ev.dialled (F := F) (o₁ := o₁) (o₂ := o₂) i c.links.length s.world.links.length c.identity] =
        if i = j then [s.world.links.length] else [] := by intro j; by_cases h : i = j <;> simp [connsOf, h]
    -- links of a charge point after the step
    have hnew : ∀ (j k n : Nat) d, (s.cps.set i { c with st := st', links := c.links ++ [s.world.links.length] })[j]? = some d → d.links[k]? = some n →
        (∃ d₀, s.cps[j]? = some d₀ ∧ d₀.links[k]? = some n ∧ d.identity = d₀.identity ∧ (d = d₀ ∨ (j = i ∧ d₀ = c ∧ d.st = st'))) ∨
        (j = i ∧ k = c.links.length ∧ n = s.world.links.length ∧ d.identity = c.identity ∧ d.st = st') := by
      intro j k n d hd hkn
      rcases get_set hd with ⟨h1, h2⟩ | ⟨rfl, rfl⟩
      · exact .inl ⟨d, h2, hkn, rfl, .inl rfl⟩
      · rcases get_snoc hkn with h3 | ⟨h3, h4⟩
        · exact .inl ⟨c, hc, h3, rfl, .inr ⟨rfl, rfl, rfl⟩⟩
        · exact .inr ⟨rfl, h3, h4, rfl, rfl⟩
    refine ⟨?_, ?_, ?_, ?_, ?_, ?_, ?_, ?_, ?_, ?_⟩
    · rw [worldEvents_snoc]; exact hworld.snoc hw
    · rw [← hids]; exact set_ids hc rfl
    · intro j d hd
      rw [ownEvents_snoc]
      rcases get_set hd with ⟨h1, h2⟩ | ⟨rfl, rfl⟩
      · simp [ownEvents, Ne.symm h1]
        exact hown j d h2
      · have : ownEvents (F := F) (o₁ := o₁) (o₂ := o₂) j [Ev.dialled j c.links.length s.world.links.length c.identity] = [.dialOk c.links.length] := by simp [ownEvents]
        rw [this]
        exact (hown j c hc).snoc hst
    · intro j d hd
      rw [connsOf_snoc, hcl]
      rcases get_set hd with ⟨h1, h2⟩ | ⟨rfl, rfl⟩
      · rw [if_neg (Ne.symm h1), List.append_nil]; exact hlinks j d h2
      · rw [if_pos rfl, ← hlinks j c hc]
    · intro j hj
      simp only [List.length_set] at hj
      have := lt_of_get hc
      rw [connsOf_snoc, hcl, if_neg (by omega), List.append_nil]
      exact hnone j hj
    · intro j d hd
      rcases get_set hd with ⟨h1, h2⟩ | ⟨rfl, rfl⟩
      · exact hcnt j d h2
      · simp [hconns, hcnt j c hc]
    · intro j k n d hd hkn
      simp only [hwl]
      rcases hnew j k n d hd hkn with ⟨d₀, h1, h2, h3, h4⟩ | ⟨rfl, rfl, rfl, h3, h4⟩
      · obtain ⟨l, h5, h6, h7⟩ := hlink j k n d₀ h1 h2
        refine ⟨l, get_left h5, h6.trans h3.symm, ?_⟩
        rcases h4 with rfl | ⟨rfl, rfl, h4⟩
        · exact h7
        · rw [h4, hconns]; exact get_left h7
      · refine ⟨⟨c.identity, Sys.init F o₁ o₂, none⟩, by simp, h3.symm, ?_⟩
        rw [h4, hconns, hn]; simp [Sys.init, Conn.init]
    · intro j j' k m n d d' hd hd' hkn hmn
      rcases hnew j k n d hd hkn with ⟨d₀, h1, h2, h3, h4⟩ | ⟨rfl, rfl, rfl, h3, h4⟩ <;>
        rcases hnew j' m _ d' hd' hmn with ⟨d₁, a1, a2, a3, a4⟩ | ⟨a1, a2, a3, a4, a5⟩
      · exact hinj j j' k m n d₀ d₁ h1 a1 h2 a2
      · have := hbnd j k n d₀ h1 h2; omega
      · have := hbnd j' m _ d₁ a1 a2; omega
      · exact ⟨a1.symm, a2.symm⟩
    · intro j k n d l hd hda hkn hl
      simp only [hwl] at hl
      have hal' : ∀ d₀, s.cps[j]? = some d₀ → (∀ x ∈ d₀.links, x ∈ d.links) → d₀.alive s.world := by
        intro d₀ hd₀ hsub x hx lx hlx
        exact hda x (hsub x hx) lx (by simp only [hwl]; exact get_left hlx)
      rcases hnew j k n d hd hkn with ⟨d₀, h1, h2, h3, h4⟩ | ⟨rfl, rfl, rfl, h3, h4⟩
      · have hlt := hbnd j k n d₀ h1 h2
        rcases get_snoc hl with h5 | ⟨h5, -⟩
        · have := hloop j k n d₀ l h1 (hal' d₀ h1 ?_) h2 h5
          · rw [this]
            rcases h4 with rfl | ⟨rfl, rfl, h4⟩
            · rfl
            · rw [h4, hk k (by rw [hcnt j d₀ h1]; exact lt_of_get h2)]
          · rcases h4 with rfl | ⟨rfl, rfl, h4⟩
            · exact fun x hx => hx
            · rcases get_set hd with ⟨g1, -⟩ | ⟨-, rfl⟩
              · exact absurd rfl g1
              · intro x hx; exact List.mem_append_left _ hx
        · omega
      · rcases get_snoc hl with h5 | ⟨-, rfl⟩
        · have := lt_of_get h5; omega
        · rw [h4, hk0]; rfl
    · intro n l hl hno
      simp only [hwl] at hl
      have hN : s.world.links.length ≠ n := by
        intro hE
        refine hno i c.links.length { c with st := st', links := c.links ++ [s.world.links.length] } ?_ ?_
        · simp [lt_of_get hc]
        · simp [hE]
      rcases get_snoc hl with h5 | ⟨h5, -⟩
      · refine hforeign n l h5 ?_
        intro j k d hd hkn
        by_cases hji : j = i
        · subst hji
          rw [hc] at hd; cases hd
          exact hno j k { c with st := st', links := c.links ++ [s.world.links.length] } (by simp [lt_of_get hc]) (by exact get_left hkn)
        · exact hno j k d (by simp only; rw [List.getElem?_set_ne (Ne.symm hji)]; exact hd) hkn
      · exact absurd h5.symm hN
  | @halfDialled i c w' st' hc hal hw hst =>
    obtain ⟨-, hwl⟩ := dial_world hw
    have hst0 : st' = c.st := by
      generalize hev : ChargePoint.Ev.dialFail = ev at hst
      cases hst <;> cases hev
      rfl
    subst hst0
    have hsame : s.cps.set i { c with st := c.st } = s.cps := by
      rw [List.getElem?_eq_some_iff] at hc
      obtain ⟨h1, h2⟩ := hc
      subst h2
      simp
    have hbnd : ∀ (j k n : Nat) d, s.cps[j]? = some d → d.links[k]? = some n → n < s.world.links.length := by
      intro j k n d hd hkn
      obtain ⟨l, h1, -⟩ := hlink j k n d hd hkn
      exact lt_of_get h1
    have hcl : ∀ j, connsOf j [Ev.halfDialled (F := F) (o₁ := o₁) (o₂ := o₂) i s.world.links.length c.identity] = [] := by intro j; rfl
    rw [hsame]
    refine ⟨?_, hids, ?_, ?_, ?_, hcnt, ?_, hinj, ?_, ?_⟩
    · rw [worldEvents_snoc]; exact hworld.snoc hw
    · intro j d hd
      rw [ownEvents_snoc]
      by_cases hji : i = j
      · subst hji
        have : ownEvents (F := F) (o₁ := o₁) (o₂ := o₂) i [Ev.halfDialled i s.world.links.length c.identity] = [.dialFail] := by simp [ownEvents]
        rw [hc] at hd; cases hd
        rw [this]; exact (hown i c hc).snoc hst
      · simp [ownEvents, hji]
        exact hown j d hd
    · intro j d hd; rw [connsOf_snoc, hcl, List.append_nil]; exact hlinks j d hd
    · intro j hj; rw [connsOf_snoc, hcl, List.append_nil]; exact hnone j hj
    · intro j k n d hd hkn
      obtain ⟨l, h1, h2, h3⟩ := hlink j k n d hd hkn
      exact ⟨l, by simp only [hwl]; exact get_left h1, h2, h3⟩
    · intro j k n d l hd hda hkn hl
      simp only [hwl] at hl
      rcases get_snoc hl with h5 | ⟨h5, -⟩
      · exact hloop j k n d l hd (fun x hx lx hlx => hda x hx lx (by simp only [hwl]; exact get_left hlx)) hkn h5
      · have := hbnd j k n d hd hkn; omega
    · intro n l hl hno
      simp only [hwl] at hl
      rcases get_snoc hl with h5 | ⟨-, rfl⟩
      · exact hforeign n l h5 hno
      · rfl
  | @self i c e st' hc hal hloc hst =>
    obtain ⟨hconns, hk⟩ := kind_local (hown i c hc) hst hloc
    have hcl : ∀ j, connsOf j [Ev.self (F := F) (o₁ := o₁) (o₂ := o₂) i e] = [] := by intro j; rfl
    have hget : ∀ (j : Nat) d, (s.cps.set i { c with st := st' })[j]? = some d → ∃ d₀, s.cps[j]? = some d₀ ∧ d.identity = d₀.identity ∧ d.links = d₀.links ∧
        d.st.conns = d₀.st.conns ∧ ∀ k, k < d₀.st.conns.length → kindOf d.st k = kindOf d₀.st k := by
      intro j d hd
      rcases get_set hd with ⟨h1, h2⟩ | ⟨rfl, rfl⟩
      · exact ⟨d, h2, rfl, rfl, rfl, fun _ _ => rfl⟩
      · exact ⟨c, hc, rfl, rfl, hconns, hk⟩
    refine ⟨?_, ?_, ?_, ?_, ?_, ?_, ?_, ?_, ?_, ?_⟩
    · rw [worldEvents_snoc]
      have : worldEvents (F := F) (o₁ := o₁) (o₂ := o₂) [Ev.self i e] = [] := rfl
      rw [this, List.append_nil]; exact hworld
    · rw [← hids]; exact set_ids hc rfl
    · intro j d hd
      rw [ownEvents_snoc]
      rcases get_set hd with ⟨h1, h2⟩ | ⟨rfl, rfl⟩
      · simp [ownEvents, Ne.symm h1]
        exact hown j d h2
      · have : ownEvents (F := F) (o₁ := o₁) (o₂ := o₂) j [Ev.self j e] = [e] := by simp [ownEvents]
        rw [this]
        exact (hown j c hc).snoc hst
    · intro j d hd
      obtain ⟨d₀, h1, h2, h3, -⟩ := hget j d hd
      rw [connsOf_snoc, hcl, List.append_nil, h3]; exact hlinks j d₀ h1
    · intro j hj; simp at hj; rw [connsOf_snoc, hcl, List.append_nil]; exact hnone j hj
    · intro j d hd
      obtain ⟨d₀, h1, h2, h3, h4, -⟩ := hget j d hd
      rw [h3, h4]; exact hcnt j d₀ h1
    · intro j k n d hd hkn
      obtain ⟨d₀, h1, h2, h3, h4, -⟩ := hget j d hd
      rw [h3] at hkn
      obtain ⟨l, h5, h6, h7⟩ := hlink j k n d₀ h1 hkn
      exact ⟨l, h5, h6.trans h2.symm, by rw [h4]; exact h7⟩
    · intro j j' k m n d d' hd hd' hkn hmn
      obtain ⟨d₀, h1, h2, h3, h4, -⟩ := hget j d hd
      obtain ⟨d₁, a1, a2, a3, a4, -⟩ := hget j' d' hd'
      rw [h3] at hkn; rw [a3] at hmn
      exact hinj j j' k m n d₀ d₁ h1 a1 hkn hmn
    · intro j k n d l hd hda hkn hl
      obtain ⟨d₀, h1, h2, h3, h4, h5⟩ := hget j d hd
      rw [h3] at hkn
      rw [h5 k (by rw [hcnt j d₀ h1]; exact lt_of_get hkn)]
      refine hloop j k n d₀ l h1 ?_ hkn hl
      intro x hx; exact hda x (by rw [h3]; exact hx)
    · intro n l hl hno
      refine hforeign n l hl ?_
      intro j k d hd hkn
      by_cases hji : j = i
      · subst hji
        rw [hc] at hd; cases hd
        exact hno j k { c with st := st' } (by simp [lt_of_get hc]) hkn
      · exact hno j k d (by simp only; rw [List.getElem?_set_ne (Ne.symm hji)]; exact hd) hkn
  | @on i k n c w' st' e hc hal hkn hw hlo hfa =>
    obtain ⟨l₀, s₁, hl₀, hstep, l₁, hwl, hid, hreg, hcp, hcs⟩ := cp_world hw
    have hcl : ∀ j, connsOf j [Ev.on (F := F) (o₁ := o₁) (o₂ := o₂) i k n e] = [] := by intro j; rfl
    have hklt : k < c.st.conns.length := by rw [hcnt i c hc]; exact lt_of_get hkn
    have hconns := face_conns hfa hlo
    have hget : ∀ (j : Nat) d, (s.cps.set i { c with st := st' })[j]? = some d → ∃ d₀, s.cps[j]? = some d₀ ∧ d.identity = d₀.identity ∧ d.links = d₀.links ∧
        ((j ≠ i ∧ d = d₀) ∨ (j = i ∧ d₀ = c ∧ d.st = st')) := by
      intro j d hd
      rcases get_set hd with ⟨h1, h2⟩ | ⟨rfl, rfl⟩
      · exact ⟨d, h2, rfl, rfl, .inl ⟨h1, rfl⟩⟩
      · exact ⟨c, hc, rfl, rfl, .inr ⟨rfl, rfl, rfl⟩⟩
    refine ⟨?_, ?_, ?_, ?_, ?_, ?_, ?_, ?_, ?_, ?_⟩
    · rw [worldEvents_snoc]; exact hworld.snoc hw
    · rw [← hids]; exact set_ids hc rfl
    · intro j d hd
      rw [ownEvents_snoc]
      rcases get_set hd with ⟨h1, h2⟩ | ⟨rfl, rfl⟩
      · simp [ownEvents, Ne.symm h1]
        exact hown j d h2
      · cases hfa with
        | silent h1 h2 =>
          have : ownEvents (F := F) (o₁ := o₁) (o₂ := o₂) j [Ev.on j k n e] = [] := by simp [ownEvents, h1]
          rw [this, List.append_nil]; simp only [h2]; exact hown j c hc
        | @step f h1 h2 =>
          have : ownEvents (F := F) (o₁ := o₁) (o₂ := o₂) j [Ev.on j k n e] = [f] := by simp [ownEvents, h1]
          rw [this]
          exact (hown j c hc).snoc h2
    · intro j d hd
      obtain ⟨d₀, h1, h2, h3, -⟩ := hget j d hd
      rw [connsOf_snoc, hcl, List.append_nil, h3]; exact hlinks j d₀ h1
    · intro j hj; simp at hj; rw [connsOf_snoc, hcl, List.append_nil]; exact hnone j hj
    · intro j d hd
      obtain ⟨d₀, h1, h2, h3, h4⟩ := hget j d hd
      rw [h3]
      rcases h4 with ⟨-, rfl⟩ | ⟨rfl, rfl, h4⟩
      · exact hcnt j d h1
      · rw [h4, hconns, ← hcnt j d₀ h1]; split <;> simp
    · intro j m x d hd hmx
      obtain ⟨d₀, h1, h2, h3, h4⟩ := hget j d hd
      rw [h3] at hmx
      obtain ⟨l, h5, h6, h7⟩ := hlink j m x d₀ h1 hmx
      refine ⟨_, by simp only [hwl]; exact set_get h5, ?_, ?_⟩
      · split
        · rename_i hx; subst hx
          rw [hl₀] at h5; cases h5
          rw [h2, hid]; exact h6
        · exact h6.trans h2.symm
      · rcases h4 with ⟨h4, rfl⟩ | ⟨rfl, rfl, h4⟩
        · have : x ≠ n := by
            rintro rfl
            exact h4 (hinj j i m k x d c h1 hc hmx hkn).1
          rw [if_neg this]; exact h7
        · rw [h4, hconns]
          by_cases hx : x = n
          · subst hx
            obtain ⟨-, rfl⟩ := hinj j j m k x d₀ d₀ h1 h1 hmx hkn
            rw [hl₀] at h5; cases h5
            rw [if_pos rfl, hcp, cp_closed hstep]
            cases hsh : shuts e with
            | true => simp [hklt]
            | false => simpa using h7
          · have hmk : m ≠ k := by rintro rfl; rw [hkn] at hmx; exact hx (Option.some.inj hmx).symm
            rw [if_neg hx]
            split
            · rw [List.getElem?_set_ne (Ne.symm hmk)]; exact h7
            · exact h7
    · intro j j' k' m x d d' hd hd' hkn hmn
      obtain ⟨d₀, h1, h2, h3, h4⟩ := hget j d hd
      obtain ⟨d₁, a1, a2, a3, a4⟩ := hget j' d' hd'
      rw [h3] at hkn; rw [a3] at hmn
      exact hinj j j' k' m x d₀ d₁ h1 a1 hkn hmn
    · intro j m x d l hd hda hmx hl
      obtain ⟨d₀, h1, h2, h3, h4⟩ := hget j d hd
      rw [h3] at hmx
      simp only [hwl] at hl
      rcases h4 with ⟨h4, rfl⟩ | ⟨rfl, rfl, h4⟩
      · have hne : ∀ y ∈ d.links, y ≠ n := by
          intro y hy
          rintro rfl
          obtain ⟨m', hm'⟩ := List.mem_iff_getElem?.1 hy
          exact h4 (hinj j i m' k y d c h1 hc hm' hkn).1
        have hx := hne x (List.mem_of_getElem? hmx)
        rw [List.getElem?_set_ne (Ne.symm hx)] at hl
        refine hloop j m x d l h1 ?_ hmx hl
        intro y hy ly hly
        exact hda y hy ly (by simp only [hwl]; rw [List.getElem?_set_ne (Ne.symm (hne y hy))]; exact hly)
      · have hda₀ : d₀.alive s.world := hal
        have hcr : s₁.crashed = false := by
          have := hda n (by rw [h3]; exact List.mem_of_getElem? hkn) l₁ (by simp only [hwl]; simp [lt_of_get hl₀])
          rwa [hcp] at this
        obtain ⟨k1, k2⟩ := kind_face (hown j d₀ hc) hklt hfa hlo (cp_loop hstep hcr) (hloop j k n d₀ l₀ hc hal hkn hl₀)
        rw [h4]
        rcases get_set hl with ⟨g1, g2⟩ | ⟨rfl, rfl⟩
        · have hmk : m ≠ k := by rintro rfl; rw [hkn] at hmx; exact g1 (Option.some.inj hmx).symm
          rw [k2 m hmk]
          exact hloop j m x d₀ l h1 hal hmx g2
        · obtain ⟨-, rfl⟩ := hinj j j m k x d₀ d₀ h1 h1 hmx hkn
          rw [hcp]; exact k1
    · intro x l hl hno
      simp only [hwl] at hl
      have hxn : x ≠ n := by
        rintro rfl
        exact hno i k { c with st := st' } (by simp [lt_of_get hc]) hkn
      rw [List.getElem?_set_ne (Ne.symm hxn)] at hl
      refine hforeign x l hl ?_
      intro j m d hd hmx
      by_cases hji : j = i
      · subst hji
        rw [hc] at hd; cases hd
        exact hno j m { c with st := st' } (by simp [lt_of_get hc]) hmx
      · exact hno j m d (by simp only; rw [List.getElem?_set_ne (Ne.symm hji)]; exact hd) hmx
  | @cs e w' hat hw =>
    obtain ⟨hback, hforth⟩ := cs_world hw hat
    have hcl : ∀ j, connsOf j [Ev.cs (F := F) (o₁ := o₁) (o₂ := o₂) e] = [] := by intro j; rfl
    have hol : ∀ j, ownEvents j [Ev.cs (F := F) (o₁ := o₁) (o₂ := o₂) e] = [] := by intro j; rfl
    refine ⟨?_, hids, ?_, ?_, ?_, hcnt, ?_, hinj, ?_, ?_⟩
    · rw [worldEvents_snoc]; exact hworld.snoc hw
    · intro j d hd; rw [ownEvents_snoc, hol, List.append_nil]; exact hown j d hd
    · intro j d hd; rw [connsOf_snoc, hcl, List.append_nil]; exact hlinks j d hd
    · intro j hj; rw [connsOf_snoc, hcl, List.append_nil]; exact hnone j hj
    · intro j k n d hd hkn
      obtain ⟨l, h1, h2, h3⟩ := hlink j k n d hd hkn
      obtain ⟨l', a1, a2, a3⟩ := hforth n l h1
      exact ⟨l', a1, a2.trans h2, by rw [a3]; exact h3⟩
    · intro j k n d l' hd hda hkn hl'
      obtain ⟨l, a1, a2, a3⟩ := hback n l' hl'
      rw [a3]
      refine hloop j k n d l hd ?_ hkn a1
      intro x hx lx hlx
      obtain ⟨lx', b1, b2, b3⟩ := hforth x lx hlx
      rw [← b3]; exact hda x hx lx' b1
    · intro n l' hl' hno
      obtain ⟨l, a1, a2, a3⟩ := hback n l' hl'
      rw [a3]; exact hforeign n l a1 hno

theorem Exec.inv {tr : List (Ev F o₁ o₂)} {s : St F o₁ o₂} (h : Exec csURL ids tr s) : Inv csURL ids tr s := by
  induction h with
  | nil => exact inv_nil
  | snoc _ hs ih => exact inv_step ih hs

end Verif.Fleet
