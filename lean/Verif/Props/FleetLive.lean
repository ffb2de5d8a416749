import Verif.Props.Fleet
import Verif.Props.Settle
/-!
# Sends among many charge points: property C95
-/
set_option linter.unusedSimpArgs false
namespace Verif.Ocppj
open Conn Codec
variable {F : FloatFmt} {o₁ o₂ : Order} {tr : List (Ev (ocppj F o₁ .cp) ⊕ Ev (ocppj F o₂ .cs))} {x : Sys F o₁ o₂}

/-- Continuations of what happens on one connection. -/
inductive Sys.Run (x : Sys F o₁ o₂) : List (Ev (ocppj F o₁ .cp) ⊕ Ev (ocppj F o₂ .cs)) → Sys F o₁ o₂ → Prop where
  | nil : Sys.Run x [] x
  | snoc {t e y z} : Sys.Run x t y → Sys.Step y e z → Sys.Run x (t ++ [e]) z

theorem Sys.Run.cons {x y z : Sys F o₁ o₂} {e} {t} (h : Sys.Step x e y) (h' : Sys.Run y t z) : Sys.Run x (e :: t) z := by
  induction h' with
  | nil => exact .snoc (t := []) .nil h
  | snoc _ hs ih => exact .snoc ih hs

theorem Sys.Exec.run (h : Sys.Exec tr x) : Sys.Run (Sys.init F o₁ o₂) tr x := by
  induction h with
  | nil => exact .nil
  | snoc _ hs ih => exact .snoc ih hs

theorem Sys.Exec.andRun {t y} (h : Sys.Exec tr x) (h' : Sys.Run x t y) : Sys.Exec (tr ++ t) y := by
  induction h' with
  | nil => simpa using h
  | snoc _ hs ih => rw [← List.append_assoc]; exact ih.snoc hs

/-- `C83_rest` as a continuation of a given state. -/
theorem Sys.Exec.runToRest (h : Sys.Exec tr x) (hp : Proper (atCp tr)) (hs : Proper (atCs tr)) (hmp : Smooth (atCp tr)) (hms : Smooth (atCs tr)) :
    ∃ t y, Sys.Run x t y ∧ AtRest y ∧ (∀ e ∈ t, ¬External e ∧ e ≠ .inl .seeClosed) ∧ Proper (atCp (tr ++ t)) ∧ Proper (atCs (tr ++ t)) ∧
      Smooth (atCp (tr ++ t)) ∧ Smooth (atCs (tr ++ t)) := by
  generalize hn : 16 * sendCount tr + 2 - tr.length = n
  induction n generalizing tr x with
  | zero =>
    by_cases hr : AtRest x
    · exact ⟨[], x, .nil, hr, by simp, by simpa using hp, by simpa using hs, by simpa using hmp, by simpa using hms⟩
    · exact absurd (h.full hp hs hmp hms (by omega)) hr
  | succ n ih =>
    by_cases hr : AtRest x
    · exact ⟨[], x, .nil, hr, by simp, by simpa using hp, by simpa using hs, by simpa using hmp, by simpa using hms⟩
    · rcases not_atRest hr with hr | hr
      · obtain ⟨e, s', l', h1, h2, h3, h4, h5⟩ := Still.next hr
        obtain ⟨t, y, g1, g2, g3, g4⟩ := ih (Sys.Exec.snoc h (.cp h1 h2)) (by rw [atCp_inl]; exact hp.snoc h4 fun id r err he => (h5 id r err he).2)
          (by rw [atCs_inl]; exact hs) (by rw [atCp_inl]; exact hmp.snoc h3 h4 fun id r err he => (h5 id r err he).1) (by rw [atCs_inl]; exact hms)
          (by
            simp only [sendCount, List.countP_append, List.countP_singleton, Sum.elim_inl, h4, List.length_append, List.length_singleton] at hn ⊢
            simp only [Bool.false_eq_true, if_false]
            omega)
        rw [List.append_assoc] at g4
        refine ⟨[.inl e] ++ t, y, .cons (.cp h1 h2) g1, g2, ?_, g4⟩
        intro e' he
        rcases List.mem_cons.1 he with rfl | he
        · refine ⟨by simp [External, h3, h4], ?_⟩
          rintro ⟨⟩
          have := (C83_alive h hp hs hmp hms).1.2.1
          cases h1
          simp_all
        · exact g3 e' he
      · obtain ⟨e, s', l', h1, h2, h3, h4, h5⟩ := Still.next hr
        obtain ⟨t, y, g1, g2, g3, g4⟩ := ih (Sys.Exec.snoc h (.cs h1 h2)) (by rw [atCp_inr]; exact hp)
          (by rw [atCs_inr]; exact hs.snoc h4 fun id r err he => (h5 id r err he).2)
          (by rw [atCp_inr]; exact hmp) (by rw [atCs_inr]; exact hms.snoc h3 h4 fun id r err he => (h5 id r err he).1)
          (by
            simp only [sendCount, List.countP_append, List.countP_singleton, Sum.elim_inr, h4, List.length_append, List.length_singleton] at hn ⊢
            simp only [Bool.false_eq_true, if_false]
            omega)
        rw [List.append_assoc] at g4
        refine ⟨[.inr e] ++ t, y, .cons (.cs h1 h2) g1, g2, ?_, g4⟩
        intro e' he
        rcases List.mem_cons.1 he with rfl | he
        · exact ⟨by simp [External, h3, h4], by simp⟩
        · exact g3 e' he

end Verif.Ocppj

namespace Verif.Fleet
open Codec Ocppj World
variable {F : FloatFmt} {o₁ o₂ : Order} {csURL : Text} {ids : List Text} {tr tr' : List (Ev F o₁ o₂)} {s s' : St F o₁ o₂}

/-- The charge point `i` serves its `k`-th connection `n`, as does the central system, under `id`. -/
structure Served (s : St F o₁ o₂) (i k n : Nat) (id : String) (c : Cp) (l : Link F o₁ o₂) : Prop where
  up : Up s i c
  link : c.links[k]? = some n
  phase : c.st.phase = .select ∨ c.st.phase = .handling
  conn : c.st.conn = some k
  service : c.st.service = some k
  get : s.world.links[n]? = some l
  reg : ∃ r d, l.reg = some r ∧ s.world.reg.table[r]? = some d ∧ d.cp = id ∧ d.phase = .serving

/-- Whatever can happen on a connection alone without the charge point leaving it can happen, while it is served, among others. -/
theorem Served.lift {i k n : Nat} {id : String} {c : Cp} {l : Link F o₁ o₂} {t : List (Conn.Ev (ocppj F o₁ .cp) ⊕ Conn.Ev (ocppj F o₂ .cs))}
    {x : Sys F o₁ o₂} (h : Exec csURL ids tr s) (hsv : Served s i k n id c l) (ht : Sys.Run l.ends t x) (hx : x.cs.crashed = false) (hx' : x.cp.crashed = false)
    (hno : ∀ e ∈ t, e ≠ .inl .seeClosed ∧ e ≠ .inl .ctxDone) :
    ∃ s' c', Run csURL s (lift i k n id t) s' ∧ Served s' i k n id c' { l with ends := x } ∧ ∀ m, m ≠ n → s'.world.links[m]? = s.world.links[m]? := by
  induction ht with
  | nil => exact ⟨s, c, .nil, hsv, fun _ _ => rfl⟩
  | @snoc t e x y ht hs ih =>
    have hxc := sys_not_crashed hs hx
    have hxp : x.cp.crashed = false := by
      cases hs with
      | cp h _ => exact Conn.step_not_crashed h
      | cs _ _ => exact hx'
    obtain ⟨s1, c1, r1, ⟨u1, k1, p1, n1, v1, l1, r, d1, q1, t1, e1, f1⟩, o1⟩ := ih hxc hxp (fun e he => hno e (List.mem_append_left _ he))
    have happ : Fleet.lift (F := F) (o₁ := o₁) (o₂ := o₂) i k n id (t ++ [e]) = Fleet.lift i k n id t ++ Fleet.lift i k n id [e] := by simp [Fleet.lift]
    have h1 := h.append r1
    have hcnt := h1.inv.cnt i c1 u1.get
    rw [happ]
    rcases e with e | e
    · have hne := hno (.inl e) (by simp)
      simp only [ne_eq, Sum.inl.injEq] at hne
      generalize hev : (Sum.inl e : Conn.Ev (ocppj F o₁ .cp) ⊕ Conn.Ev (ocppj F o₂ .cs)) = ev at hs
      cases hs <;> cases hev
      rename_i a' lq ha hq
      have hloop := h1.inv.loop i k n c1 _ u1.get u1.alive k1 l1
      have hmv := cp_loop ha hx'
      have hlt : k < c1.st.conns.length := by rw [hcnt]; exact lt_of_get k1
      simp only [kindOf, n1, if_true] at hloop
      have hface : ∃ st', Faced k e c1.st st' ∧ (st'.phase = .select ∨ st'.phase = .handling) ∧ st'.conn = some k ∧ st'.service = some k := by
        have sel : ∀ j, x.cp.loop = .sel j → c1.st.phase = .select := by
          intro j hj
          rcases p1 with p1 | p1
          · exact p1
          · rw [hj, p1] at hloop; cases hloop
        cases e with
        | take => obtain ⟨⟨j, hj⟩, -⟩ := hmv; exact ⟨_, .step rfl (.handle (sel j hj) n1), .inr rfl, n1, v1⟩
        | answer =>
          have : c1.st.phase = .handling := by
            rcases p1 with p1 | p1
            · have hb := hmv.1; rw [hloop, p1] at hb; cases hb
            · exact p1
          exact ⟨_, .step rfl (.handled this), .inl rfl, n1, v1⟩
        | result => obtain ⟨⟨j, hj⟩, -⟩ := hmv; exact ⟨_, .step rfl (.read (sel j hj)), .inl (sel j hj), n1, v1⟩
        | seeClosed => exact absurd rfl hne.1
        | ctxDone => exact absurd rfl hne.2
        | close => exact ⟨_, .step rfl (.drop hlt), p1, n1, v1⟩
        | readErr => exact ⟨_, .step rfl (.drop hlt), p1, n1, v1⟩
        | send => exact ⟨_, .step rfl (.send v1), p1, n1, v1⟩
        | _ => exact ⟨_, .silent rfl rfl, p1, n1, v1⟩
      obtain ⟨st', hf, p2, n2, v2⟩ := hface
      have hst : Sys.Step x (.inl e) _ := .cp ha hq
      have hw := World.Step.cp (csURL := csURL) l1 hst
      refine ⟨_, { c1 with st := st' }, r1.snoc (.on u1.get u1.alive k1 hw (fun _ => ⟨n1, p1⟩) hf), ⟨⟨?_, ?_, ?_⟩, k1, p2, n2, v2, ?_, r, d1, q1, t1, e1, f1⟩, ?_⟩
      · simp [lt_of_get u1.get]
      · intro m hm l' hl'
        rcases get_set hl' with ⟨-, h2⟩ | ⟨rfl, rfl⟩
        · exact u1.alive m hm l' h2
        · exact hx'
      · exact (C68_chargePoint_crash hw).1.2 u1.central
      · simp [lt_of_get l1]
      · intro m hm
        rw [← o1 m hm]
        simp [List.getElem?_set, Ne.symm hm]
    · obtain ⟨s2, g1, u2, g2, g3⟩ := u1.csOn (csURL := csURL) l1 q1 t1 hs hx (fun _ => f1)
      rw [e1] at g1
      obtain ⟨d2, hd2⟩ : ∃ d2, (noteClosed s1.world.reg r y.cs.closed).table[r]? = some d2 :=
        ⟨_, List.getElem?_eq_getElem (by rw [noteClosed_table]; exact lt_of_get t1)⟩
      obtain ⟨d3, h5, h6, -, h7⟩ := noteClosed_get _ _ _ _ _ hd2
      rw [t1] at h5; cases h5
      refine ⟨s2, c1, r1.snoc g1, ⟨u2, k1, p1, n1, v1, ?_, r, d2, q1, by rw [g3]; exact hd2, h6.trans e1, h7.trans f1⟩, ?_⟩
      · rw [g2]; simp [lt_of_get l1]
      · intro m hm
        rw [← o1 m hm, g2]
        simp [List.getElem?_set, Ne.symm hm]

/-- What the library does of itself when a connection has been made, until both sides serve it. -/
def settling (i n r : Nat) (id : String) : List (Ev F o₁ o₂) :=
  [.self i .setConn, .self i .setService, .self i .announce, .cs (.register n r id), .cs (.reg (.notify r id))]

/-- A connection that is open at both ends, the last one of its charge point, gets to be served without anybody else. -/
theorem toServed {i n k : Nat} {c : Cp} {l : Link F o₁ o₂} (h : Exec csURL ids tr s) (hu : Up s i c) (hk : c.links[k]? = some n) (hlast : c.links.length = k + 1)
    (hl : s.world.links[n]? = some l) (ho : l.ends.cp.closed = false) (ho' : l.ends.cs.closed = false) :
    ∃ t s' c' id r l', t.Sublist (settling i n r id) ∧ Run csURL s t s' ∧ Served s' i k n id c' l' ∧ l'.ends = l.ends ∧ l'.identity = l.identity ∧
      ∀ m, m ≠ n → s'.world.links[m]? = s.world.links[m]? := by
  have hinv := (h.inv.own i c hu.get).inv
  have hcnt := h.inv.cnt i c hu.get
  -- the charge point
  obtain ⟨t1, s1, c1, a1, a2, a3, a4, a5, a6, a7, a8⟩ : ∃ t s' c', t.Sublist [Ev.self (F := F) (o₁ := o₁) (o₂ := o₂) i .setConn, .self i .setService, .self i .announce] ∧ Run csURL s t s' ∧
      Up s' i c' ∧ c'.links = c.links ∧ (c'.st.phase = .select ∨ c'.st.phase = .handling) ∧ c'.st.conn = some k ∧ c'.st.service = some k ∧ s'.world = s.world := by
    have hopen : c.st.connClosed k = false := by
      obtain ⟨l', g1, -, g2⟩ := h.inv.link i k n c hu.get hk
      rw [hl] at g1; cases g1
      simp [ChargePoint.St.connClosed, g2, ho]
    have hng : ¬ (c.st.phase = .lost ∨ c.st.phase = .stopped ∨ c.st.phase = .dialing) := by
      intro hp
      have := hinv.gone hp k (by omega)
      rw [hopen] at this; cases this
    cases hp : c.st.phase with
    | lost => exact absurd (.inl hp) hng
    | stopped => exact absurd (.inr (.inl hp)) hng
    | dialing => exact absurd (.inr (.inr hp)) hng
    | select =>
      obtain ⟨m, g1, g2, g3⟩ := hinv.cur (.inl (by rw [hp]; rfl))
      obtain rfl : m = k := by omega
      exact ⟨[], s, c, by simp, .nil, hu, rfl, .inl hp, g1, g2, rfl⟩
    | handling =>
      obtain ⟨m, g1, g2, g3⟩ := hinv.cur (.inl (by rw [hp]; rfl))
      obtain rfl : m = k := by omega
      exact ⟨[], s, c, by simp, .nil, hu, rfl, .inr hp, g1, g2, rfl⟩
    | serviceSet =>
      obtain ⟨m, g1, g2, g3⟩ := hinv.cur (.inr hp)
      obtain rfl : m = k := by omega
      obtain ⟨s1, b1, hu1, w1⟩ := hu.self (csURL := csURL) (e := .announce) rfl (.announce hp)
      exact ⟨_, s1, _, by simp, .cons b1 .nil, hu1, rfl, .inl rfl, g1, g2, w1⟩
    | connSet =>
      obtain ⟨m, g1, g3⟩ := hinv.cset hp
      obtain rfl : m = k := by omega
      obtain ⟨s1, b1, hu1, w1⟩ := hu.self (csURL := csURL) (e := .setService) rfl (.setService hp)
      obtain ⟨s2, b2, hu2, w2⟩ := hu1.self (csURL := csURL) (e := .announce) rfl (.announce rfl)
      exact ⟨_, s2, _, by simp, .cons b1 (.cons b2 .nil), hu2, rfl, .inl rfl, g1, g1, w2.trans w1⟩
    | dialled m =>
      have g3 := hinv.dl m hp
      obtain rfl : m = k := by omega
      obtain ⟨s1, b1, hu1, w1⟩ := hu.self (csURL := csURL) (e := .setConn) rfl (.setConn hp)
      obtain ⟨s2, b2, hu2, w2⟩ := hu1.self (csURL := csURL) (e := .setService) rfl (.setService rfl)
      obtain ⟨s3, b3, hu3, w3⟩ := hu2.self (csURL := csURL) (e := .announce) rfl (.announce rfl)
      exact ⟨_, s3, _, by simp, .cons b1 (.cons b2 (.cons b3 .nil)), hu3, rfl, .inl rfl, rfl, rfl, w3.trans (w2.trans w1)⟩
  have h1 := h.append a2
  have hl1 : s1.world.links[n]? = some l := by rw [a8]; exact hl
  -- the central system
  have note : ∀ {s2 : St F o₁ o₂} {r : Nat} {l2 : Link F o₁ o₂} {d : Registry.CState}, Up s2 i c1 → s2.world.links[n]? = some l2 → l2.reg = some r →
      s2.world.reg.table[r]? = some d → d.phase = .registered →
      ∃ s3, Step csURL s2 (.cs (.reg (.notify r d.cp))) s3 ∧ Served s3 i k n d.cp c1 l2 ∧ s3.world.links = s2.world.links := by
    intro s2 r l2 d u2 g1 g2 g3 g4
    obtain ⟨s3, b1, b2, b3, b4⟩ := u2.reg (csURL := csURL) (Registry.Step.notify (n := r) g3 g4) rfl (by simp)
    refine ⟨s3, b1, ⟨b2, by rw [a4]; exact hk, a5, a6, a7, by rw [b3]; exact g1, r, { d with phase := .serving }, g2, ?_, rfl, rfl⟩, b3⟩
    rw [b4]; simp [lt_of_get g3]
  cases hr : l.reg with
  | none =>
    obtain ⟨-, id, hid⟩ := h1.inv.world.inv.named n l hl1
    obtain ⟨s2, b1, b2, b3, b4⟩ := a3.register (csURL := csURL) hl1 hr hid
    have g1 : s2.world.links[n]? = some { l with reg := some s1.world.reg.table.length } := by rw [b3]; simp [lt_of_get hl1]
    obtain ⟨s3, d1, d2, d3⟩ := note b2 g1 rfl (d := ⟨String.ofList id, .registered, false, false, false⟩) (by rw [b4]; simp) rfl
    refine ⟨_, s3, c1, String.ofList id, s1.world.reg.table.length, _, ?_, a2.trans (.cons b1 (.cons d1 .nil)), d2, rfl, rfl, ?_⟩
    · exact a1.append (List.Sublist.refl _)
    · intro m hm
      rw [d3, b3, a8]
      simp [List.getElem?_set, Ne.symm hm]
  | some r =>
    obtain ⟨d, g1, g2, -, -⟩ := h1.inv.world.inv.regd n r l hl1 hr
    obtain ⟨trR, hR, -⟩ := h1.inv.world.inv.reg
    have hord := hR.hist.order r d g1
    rw [g2, ho'] at hord
    have done : d.phase = .serving → Served s1 i k n d.cp c1 l := fun hp =>
      ⟨a3, by rw [a4]; exact hk, a5, a6, a7, hl1, r, d, hr, g1, rfl, hp⟩
    cases hp : d.phase with
    | registered =>
      obtain ⟨s3, d1, d2, d3⟩ := note a3 hl1 hr g1 hp
      refine ⟨_, s3, c1, d.cp, r, l, ?_, a2.trans (.cons d1 .nil), d2, rfl, rfl, ?_⟩
      · exact a1.append ((List.Sublist.refl _).cons _)
      · intro m _
        rw [d3, a8]
    | serving =>
      refine ⟨_, s1, c1, d.cp, r, l, ?_, a2, done hp, rfl, rfl, fun m _ => by rw [a8]⟩
      have := a1.append (List.nil_sublist [Ev.cs (F := F) (o₁ := o₁) (o₂ := o₂) (.register n r d.cp), .cs (.reg (.notify r d.cp))])
      rw [List.append_nil] at this
      exact this
    | leaving => rw [hp] at hord; exact absurd (hord (by decide)) (by decide)
    | cleaned => rw [hp] at hord; exact absurd (hord (by decide)) (by decide)

/-- Steps the library takes by itself for connection `n` of charge point `i`: the charge point takes it into use, the central system
registers it and reports it, and whatever happens on it. -/
def Within (i n : Nat) : Ev F o₁ o₂ → Prop
  | .self j e => j = i ∧ (e = .setConn ∨ e = .setService ∨ e = .announce)
  | .on j _ m _ => j = i ∧ m = n
  | .cs (.register m _ _) => m = n
  | .cs (.reg (.notify _ _)) => True
  | .cs (.cs m _ _) => m = n
  | _ => False

theorem onLink_lift (i k n : Nat) (id : String) (t : List (Conn.Ev (ocppj F o₁ .cp) ⊕ Conn.Ev (ocppj F o₂ .cs))) :
    onLink n (worldEvents (Fleet.lift i k n id t)) = t := by
  induction t with
  | nil => rfl
  | cons e t ih =>
    have : Fleet.lift (F := F) (o₁ := o₁) (o₂ := o₂) i k n id (e :: t) = Fleet.lift i k n id [e] ++ Fleet.lift i k n id t := by simp [Fleet.lift]
    rw [this, worldEvents_append, onLink_append, ih]
    rcases e with e | e <;> simp [Fleet.lift, onLink, worldEvents]

theorem onLink_settling {i n r : Nat} {id : String} {t : List (Ev F o₁ o₂)} (h : t.Sublist (settling i n r id)) (m : Nat) : onLink m (worldEvents t) = [] := by
  have h1 : (onLink m (worldEvents t)).Sublist (onLink m (worldEvents (settling (F := F) (o₁ := o₁) (o₂ := o₂) i n r id))) := (h.filterMap _).filterMap _
  have h2 : onLink m (worldEvents (settling (F := F) (o₁ := o₁) (o₂ := o₂) i n r id)) = [] := by simp [settling, worldEvents, onLink]
  rw [h2] at h1
  exact List.sublist_nil.1 h1

/-- What can be done on a connection alone, and then the rest, can be done on the last connection of a charge point. -/
theorem goOn {i n : Nat} {u : List (Conn.Ev (ocppj F o₁ .cp) ⊕ Conn.Ev (ocppj F o₂ .cs))} (h : Exec csURL ids tr s) (hlast : (connsOf i tr).getLast? = some n)
    (hw : s.world.alive) (hal : ∀ m ∈ connsOf i tr, ∀ l, s.world.links[m]? = some l → l.ends.cp.crashed = false)
    (hp : Proper (cpEvents n (worldEvents tr))) (hs : Proper (csEvents n (worldEvents tr))) (hmp : Smooth (cpEvents n (worldEvents tr))) (hms : Smooth (csEvents n (worldEvents tr)))
    (hu : ∀ l, s.world.links[n]? = some l → ∃ y, Sys.Run l.ends u y) (hno : ∀ e ∈ u, e ≠ .inl .seeClosed ∧ e ≠ .inl .ctxDone)
    (hp' : Proper (atCp (onLink n (worldEvents tr) ++ u))) (hs' : Proper (atCs (onLink n (worldEvents tr) ++ u)))
    (hmp' : Smooth (atCp (onLink n (worldEvents tr) ++ u))) (hms' : Smooth (atCs (onLink n (worldEvents tr) ++ u))) :
    ∃ t s' v l', Run csURL s t s' ∧ (∀ e ∈ t, Within i n e) ∧ onLink n (worldEvents t) = u ++ v ∧ (∀ e ∈ v, ¬External e) ∧
      s'.world.links[n]? = some l' ∧ AtRest l'.ends ∧ (∀ m, m ≠ n → s'.world.links[m]? = s.world.links[m]?) ∧
      Proper (atCp (onLink n (worldEvents (tr ++ t)))) ∧ Proper (atCs (onLink n (worldEvents (tr ++ t)))) ∧
      Smooth (atCp (onLink n (worldEvents (tr ++ t)))) ∧ Smooth (atCs (onLink n (worldEvents (tr ++ t)))) := by
  obtain ⟨c, hc⟩ : ∃ c, s.cps[i]? = some c := by
    refine ⟨_, List.getElem?_eq_getElem ?_⟩
    by_contra hlt
    rw [h.inv.none i (by omega)] at hlast
    cases hlast
  have hlinks := h.inv.links i c hc
  rw [← hlinks, List.getLast?_eq_getElem?] at hlast
  have hlen : c.links.length = (c.links.length - 1) + 1 := by
    have := lt_of_get hlast
    omega
  obtain ⟨l, hl, -, -⟩ := h.inv.link i _ n c hc hlast
  have hends := h.inv.world.inv.ends n l hl
  rw [← atCp_onLink] at hp hmp
  rw [← atCs_onLink] at hs hms
  obtain ⟨⟨-, o1, -⟩, -, o2, -⟩ := C83_alive hends hp hs hmp hms
  obtain ⟨t1, s1, c1, id, r, l1, a1, a2, a3, a4, a5, a6⟩ := toServed h ⟨hc, fun m hm l hl => hal m (hlinks ▸ hm) l hl, hw⟩ hlast hlen hl o1 o2
  obtain ⟨y, hy⟩ := hu l hl
  have hyx := hends.andRun hy
  obtain ⟨v, z, b1, b2, b3, b4, b5, b6, b7⟩ := hyx.runToRest hp' hs' hmp' hms'
  have hz := hyx.andRun b1
  obtain ⟨⟨z1, -⟩, z2, -⟩ := C83_alive hz b4 b5 b6 b7
  have hrun : Sys.Run l.ends (u ++ v) z := by
    clear b2 b3 b4 b5 b6 b7 hz z1 z2
    induction b1 with
    | nil => simpa using hy
    | snoc _ hs ih => rw [← List.append_assoc]; exact .snoc ih hs
  obtain ⟨s2, c2, d1, d2, d3⟩ := Served.lift (h.append a2) a3 (by rw [a4]; exact hrun) z2 z1 (by
    intro e he
    rcases List.mem_append.1 he with he | he
    · exact hno e he
    · refine ⟨(b3 e he).2, ?_⟩
      rintro rfl
      exact (b3 _ he).1 (by simp [External, Fault]))
  have hon : onLink n (worldEvents (t1 ++ Fleet.lift i (c.links.length - 1) n id (u ++ v))) = u ++ v := by
    rw [worldEvents_append, onLink_append, onLink_settling a1, onLink_lift, List.nil_append]
  have hall : onLink n (worldEvents (tr ++ (t1 ++ Fleet.lift i (c.links.length - 1) n id (u ++ v)))) = onLink n (worldEvents tr) ++ u ++ v := by
    rw [worldEvents_append, onLink_append, hon, List.append_assoc]
  refine ⟨_, s2, v, _, a2.trans d1, ?_, hon, fun e he => (b3 e he).1, d2.get, b2, fun m hm => (d3 m hm).trans (a6 m hm), ?_⟩
  · intro e he
    rcases List.mem_append.1 he with he | he
    · have := a1.subset he
      simp only [settling, List.mem_cons, List.not_mem_nil, or_false] at this
      rcases this with rfl | rfl | rfl | rfl | rfl <;> simp [Within]
    · obtain ⟨e', -, rfl⟩ := List.mem_map.1 he
      rcases e' with e' | e' <;> simp [Within]
  · rw [hall]
    exact ⟨b4, b5, b6, b7⟩

/-- Nothing has gone wrong on connection `n`, and the objects given to the library there were encodable and of the right types. -/
structure Fine (n : Nat) (tr : List (Ev F o₁ o₂)) : Prop where
  properCp : Proper (cpEvents n (worldEvents tr))
  properCs : Proper (csEvents n (worldEvents tr))
  smoothCp : Smooth (cpEvents n (worldEvents tr))
  smoothCs : Smooth (csEvents n (worldEvents tr))

/-- Every `Send` on connection `n`, at either end, has returned. -/
def AllReturned (n : Nat) (tr : List (Ev F o₁ o₂)) : Prop :=
  (∀ j id (q : Req), Conn.Ev.send (S := ocppj F o₁ .cp) j id q ∈ cpEvents n (worldEvents tr) → ∃ y, Conn.Ev.finish j y ∈ cpEvents n (worldEvents tr)) ∧
  (∀ j id (q : Req), Conn.Ev.send (S := ocppj F o₂ .cs) j id q ∈ csEvents n (worldEvents tr) → ∃ y, Conn.Ev.finish j y ∈ csEvents n (worldEvents tr))

/-- The steps of a continuation for connection `n` of charge point `i`: the library's own, for this connection, none of them a fault, and
on the connection no `Send` but the one given. -/
structure Serves (i n : Nat) (u : List (Conn.Ev (ocppj F o₁ .cp) ⊕ Conn.Ev (ocppj F o₂ .cs))) (t : List (Ev F o₁ o₂)) : Prop where
  within : ∀ e ∈ t, Within i n e
  link : ∃ v, onLink n (worldEvents t) = u ++ v ∧ ∀ e ∈ v, ¬External e

/-- **C95** Among any number of charge points, what happens on a connection on which nothing goes wrong is bounded by the number of its
`Send`s, whatever happens elsewhere. -/
theorem C95_settles {n : Nat} (h : Exec csURL ids tr s) (hf : Fine n tr) :
    (onLink n (worldEvents tr)).length ≤ 16 * sendCount (onLink n (worldEvents tr)) + 2 := by
  obtain ⟨hp, hs, hmp, hms⟩ := hf
  rw [← atCp_onLink] at hp hmp
  rw [← atCs_onLink] at hs hms
  cases hl : s.world.links[n]? with
  | none =>
    rw [h.inv.world.inv.none n (List.getElem?_eq_none_iff.1 hl)]
    exact Nat.zero_le _
  | some l => exact C83_settles (h.inv.world.inv.ends n l hl) hp hs hmp hms

/-- **C95** Among any number of charge points: in whatever state the others and the other connections are, if the central system and the
charge point are up and nothing has gone wrong on the charge point's last connection, then the library alone, acting only for this
connection, brings it to where nothing is left to do on it and every `Send` on it, at either end, has returned. -/
theorem C95_progress {i n : Nat} (h : Exec csURL ids tr s) (hlast : (connsOf i tr).getLast? = some n) (hw : s.world.alive)
    (hal : ∀ m ∈ connsOf i tr, ∀ l, s.world.links[m]? = some l → l.ends.cp.crashed = false) (hf : Fine n tr) :
    ∃ t s' l, Run csURL s t s' ∧ Serves i n [] t ∧ Fine n (tr ++ t) ∧ AllReturned n (tr ++ t) ∧
      s'.world.links[n]? = some l ∧ AtRest l.ends ∧ ∀ m, m ≠ n → s'.world.links[m]? = s.world.links[m]? := by
  obtain ⟨hp, hs, hmp, hms⟩ := hf
  obtain ⟨t, s', v, l', a1, a2, a3, a4, a5, a6, a7, a8, a9, a10, a11⟩ := goOn (u := []) h hlast hw hal hp hs hmp hms (fun l _ => ⟨_, .nil⟩) (by simp)
    (by rw [List.append_nil, atCp_onLink]; exact hp) (by rw [List.append_nil, atCs_onLink]; exact hs)
    (by rw [List.append_nil, atCp_onLink]; exact hmp) (by rw [List.append_nil, atCs_onLink]; exact hms)
  have hret := C83_returned ((h.append a1).inv.world.inv.ends n l' a5) a8 a9 a10 a11 a6
  rw [atCp_onLink, atCs_onLink] at hret
  rw [atCp_onLink] at a8 a10
  rw [atCs_onLink] at a9 a11
  exact ⟨t, s', l', a1, ⟨a2, v, a3, a4⟩, ⟨a8, a9, a10, a11⟩, hret, a5, a6, a7⟩

theorem _root_.Verif.Ocppj.Proper.sent {o : Order} {side : Side} {t : List (Conn.Ev (ocppj F o side))} (h : Proper t) {j : Nat} {id : String} {q : Req}
    (hv : HasTy q.type.ty q.val) (hs : q.type.isChargePoint = true ↔ side = .cp) : Proper (t ++ [.send (S := ocppj F o side) j id q]) := by
  refine ⟨⟨?_, ?_⟩, ?_⟩
  · intro j' id' q' hm
    rw [List.mem_append, List.mem_singleton] at hm
    rcases hm with hm | hm
    · exact h.typed.1 j' id' q' hm
    · cases hm; exact hv
  · intro id' r e hm
    rw [List.mem_append, List.mem_singleton] at hm
    rcases hm with hm | hm
    · exact h.typed.2 id' r e hm
    · cases hm
  · intro j' id' q' hm
    rw [List.mem_append, List.mem_singleton] at hm
    rcases hm with hm | hm
    · exact h.own j' id' q' hm
    · cases hm; exact hs

theorem _root_.Verif.Ocppj.Smooth.sent {o : Order} {side : Side} {t : List (Conn.Ev (ocppj F o side))} (h : Smooth t) {j : Nat} {id : String} {q : Req} {text : Text}
    (hm' : marshal F q.type.ty q.val = .ok text) : Smooth (t ++ [.send (S := ocppj F o side) j id q]) := by
  refine ⟨?_, ?_, ?_⟩
  · intro e hm
    rw [List.mem_append, List.mem_singleton] at hm
    rcases hm with hm | rfl
    · exact h.noFault e hm
    · rfl
  · intro j' id' q' hm
    rw [List.mem_append, List.mem_singleton] at hm
    rcases hm with hm | hm
    · exact h.requests j' id' q' hm
    · cases hm; exact ⟨_, hm'⟩
  · intro id' r e hm
    rw [List.mem_append, List.mem_singleton] at hm
    rcases hm with hm | hm
    · exact h.answers id' r e hm
    · cases hm

/-- The identifier is new at this end. -/
theorem newId {o : Order} {side : Side} {t : List (Conn.Ev (ocppj F o side))} {a : Conn.St (ocppj F o side)} (h : Conn.Exec side t a) {id : String}
    (hnew : ∀ j (q : Req), Conn.Ev.send (S := ocppj F o side) j id q ∉ t) : ∀ x ∈ a.senders, x.id ≠ id := by
  intro x hx hid
  obtain ⟨j, hj⟩ := List.getElem?_of_mem hx
  have := (Conn.Exec.sends h j x hj).1.subset (List.mem_singleton.2 rfl)
  rw [hid] at this
  exact hnew _ _ this

/-- **C95** … and a `Send` made then at the charge point, of any request it can encode, under a new identifier, returns, too. -/
theorem C95_chargePoint {i n : Nat} {id : String} {q : Req} {text : Text} (h : Exec csURL ids tr s) (hlast : (connsOf i tr).getLast? = some n) (hw : s.world.alive)
    (hal : ∀ m ∈ connsOf i tr, ∀ l, s.world.links[m]? = some l → l.ends.cp.crashed = false) (hf : Fine n tr)
    (hq : HasTy q.type.ty q.val) (hcp : q.type.isChargePoint = true) (hm : marshal F q.type.ty q.val = .ok text)
    (hnew : ∀ j (q' : Req), Conn.Ev.send (S := ocppj F o₁ .cp) j id q' ∉ cpEvents n (worldEvents tr)) :
    ∃ j t s' l, Run csURL s t s' ∧ Serves i n [.inl (.send (S := ocppj F o₁ .cp) j id q)] t ∧ Fine n (tr ++ t) ∧ AllReturned n (tr ++ t) ∧
      s'.world.links[n]? = some l ∧ AtRest l.ends ∧ ∀ m, m ≠ n → s'.world.links[m]? = s.world.links[m]? := by
  obtain ⟨hp, hs, hmp, hms⟩ := hf
  obtain ⟨f, hf⟩ := encCall_ok (id := id) hq hm
  obtain ⟨l0, hl0⟩ : ∃ l, s.world.links[n]? = some l := by
    have hn : n ∈ connsOf i tr := List.mem_of_getLast? hlast
    cases hc : s.cps[i]? with
    | none =>
      rw [h.inv.none i (List.getElem?_eq_none_iff.1 hc)] at hn
      cases hn
    | some c =>
      rw [← h.inv.links i c hc] at hn
      obtain ⟨k, hk⟩ := List.getElem?_of_mem hn
      obtain ⟨l, hl, -⟩ := h.inv.link i k n c hc hk
      exact ⟨l, hl⟩
  have hends := h.inv.world.inv.ends n l0 hl0
  have hal' := C83_alive hends (by rw [atCp_onLink]; exact hp) (by rw [atCs_onLink]; exact hs) (by rw [atCp_onLink]; exact hmp) (by rw [atCs_onLink]; exact hms)
  obtain ⟨e1, -⟩ := hends.ends
  rw [atCp_onLink] at e1
  have hst : Sys.Step l0.ends (.inl (.send l0.ends.cp.senders.length id q)) _ :=
    .cp (.send (S := ocppj F o₁ .cp) hal'.1.1 (newId e1 hnew) hf) (.other (by intros; simp))
  obtain ⟨t, s', v, l', a1, a2, a3, a4, a5, a6, a7, a8, a9, a10, a11⟩ := goOn (u := [.inl (.send l0.ends.cp.senders.length id q)]) h hlast hw hal hp hs hmp hms
    (fun l hl => by rw [hl0] at hl; cases hl; exact ⟨_, .cons hst .nil⟩) (by simp)
    (by rw [atCp_inl, atCp_onLink]; exact hp.sent hq (by simp [hcp])) (by rw [atCs_inl, atCs_onLink]; exact hs)
    (by rw [atCp_inl, atCp_onLink]; exact hmp.sent hm) (by rw [atCs_inl, atCs_onLink]; exact hms)
  have hret := C83_returned ((h.append a1).inv.world.inv.ends n l' a5) a8 a9 a10 a11 a6
  rw [atCp_onLink, atCs_onLink] at hret
  rw [atCp_onLink] at a8 a10
  rw [atCs_onLink] at a9 a11
  exact ⟨_, t, s', l', a1, ⟨a2, v, a3, a4⟩, ⟨a8, a9, a10, a11⟩, hret, a5, a6, a7⟩

/-- **C95** … and so does one made at the central system. -/
theorem C95_centralSystem {i n : Nat} {id : String} {q : Req} {text : Text} (h : Exec csURL ids tr s) (hlast : (connsOf i tr).getLast? = some n) (hw : s.world.alive)
    (hal : ∀ m ∈ connsOf i tr, ∀ l, s.world.links[m]? = some l → l.ends.cp.crashed = false) (hf : Fine n tr)
    (hq : HasTy q.type.ty q.val) (hcp : q.type.isChargePoint = false) (hm : marshal F q.type.ty q.val = .ok text)
    (hnew : ∀ j (q' : Req), Conn.Ev.send (S := ocppj F o₂ .cs) j id q' ∉ csEvents n (worldEvents tr)) :
    ∃ j t s' l, Run csURL s t s' ∧ Serves i n [.inr (.send (S := ocppj F o₂ .cs) j id q)] t ∧ Fine n (tr ++ t) ∧ AllReturned n (tr ++ t) ∧
      s'.world.links[n]? = some l ∧ AtRest l.ends ∧ ∀ m, m ≠ n → s'.world.links[m]? = s.world.links[m]? := by
  obtain ⟨hp, hs, hmp, hms⟩ := hf
  obtain ⟨f, hf⟩ := encCall_ok (id := id) hq hm
  obtain ⟨l0, hl0⟩ : ∃ l, s.world.links[n]? = some l := by
    have hn : n ∈ connsOf i tr := List.mem_of_getLast? hlast
    cases hc : s.cps[i]? with
    | none =>
      rw [h.inv.none i (List.getElem?_eq_none_iff.1 hc)] at hn
      cases hn
    | some c =>
      rw [← h.inv.links i c hc] at hn
      obtain ⟨k, hk⟩ := List.getElem?_of_mem hn
      obtain ⟨l, hl, -⟩ := h.inv.link i k n c hc hk
      exact ⟨l, hl⟩
  have hends := h.inv.world.inv.ends n l0 hl0
  have hal' := C83_alive hends (by rw [atCp_onLink]; exact hp) (by rw [atCs_onLink]; exact hs) (by rw [atCp_onLink]; exact hmp) (by rw [atCs_onLink]; exact hms)
  obtain ⟨-, e1, -⟩ := hends.ends
  rw [atCs_onLink] at e1
  have hst : Sys.Step l0.ends (.inr (.send l0.ends.cs.senders.length id q)) _ :=
    .cs (.send (S := ocppj F o₂ .cs) hal'.2.1 (newId e1 hnew) hf) (.other (by intros; simp))
  obtain ⟨t, s', v, l', a1, a2, a3, a4, a5, a6, a7, a8, a9, a10, a11⟩ := goOn (u := [.inr (.send l0.ends.cs.senders.length id q)]) h hlast hw hal hp hs hmp hms
    (fun l hl => by rw [hl0] at hl; cases hl; exact ⟨_, .cons hst .nil⟩) (by simp)
    (by rw [atCp_inr, atCp_onLink]; exact hp) (by rw [atCs_inr, atCs_onLink]; exact hs.sent hq (by simp [hcp]))
    (by rw [atCp_inr, atCp_onLink]; exact hmp) (by rw [atCs_inr, atCs_onLink]; exact hms.sent hm)
  have hret := C83_returned ((h.append a1).inv.world.inv.ends n l' a5) a8 a9 a10 a11 a6
  rw [atCp_onLink, atCs_onLink] at hret
  rw [atCp_onLink] at a8 a10
  rw [atCs_onLink] at a9 a11
  exact ⟨_, t, s', l', a1, ⟨a2, v, a3, a4⟩, ⟨a8, a9, a10, a11⟩, hret, a5, a6, a7⟩

/-- **C95** A charge point that has lost its connection comes back (C82) to a connection to which all this applies. -/
theorem C95_after_comeback {i : Nat} {id : String} (h : Back csURL ids tr s i id) :
    ∃ n, (connsOf i tr).getLast? = some n ∧ s.world.alive ∧ (∀ m ∈ connsOf i tr, ∀ l, s.world.links[m]? = some l → l.ends.cp.crashed = false) ∧
      Fine n tr ∧ ∀ j id (q' : Req), Conn.Ev.send (S := ocppj F o₁ .cp) j id q' ∉ cpEvents n (worldEvents tr) ∧
        Conn.Ev.send (S := ocppj F o₂ .cs) j id q' ∉ csEvents n (worldEvents tr) := by
  obtain ⟨-, ⟨n, r, h1, -, -, -, -, h2⟩, h3, h4⟩ := h
  have e1 : cpEvents n (worldEvents tr) = [] := by rw [← atCp_onLink, h2]; rfl
  have e2 : csEvents n (worldEvents tr) = [] := by rw [← atCs_onLink, h2]; rfl
  refine ⟨n, h1, h3, h4, ?_, by rw [e1, e2]; simp⟩
  exact ⟨by rw [e1]; exact ⟨⟨by simp, by simp⟩, by simp⟩, by rw [e2]; exact ⟨⟨by simp, by simp⟩, by simp⟩,
    by rw [e1]; exact ⟨by simp, by simp, by simp⟩, by rw [e2]; exact ⟨by simp, by simp, by simp⟩⟩

/-- It happens: one of two charge points connects, and its heartbeat is answered while the other is still dialling. -/
example (F : FloatFmt) (o₁ o₂ : Order) (identity identity' id : Text) (hid : Http.registeredAs csURL identity = some id) :
    ∃ (tr : List (Ev F o₁ o₂)) (s : St F o₁ o₂) (n j : Nat) (y : Conn.Answer (ocppj F o₁ .cp)), Exec csURL [identity, identity'] tr s ∧
      Conn.Ev.send (S := ocppj F o₁ .cp) j "1" (⟨.cpreqHeartbeat, .struct []⟩ : Req) ∈ cpEvents n (worldEvents tr) ∧
      Conn.Ev.finish j y ∈ cpEvents n (worldEvents tr) ∧ connsOf 1 tr = [] := by
  obtain ⟨k, _, _, _, _, _, t, s', hsub, -, h⟩ := C82_comes_back (F := F) (o₁ := o₁) (o₂ := o₂) (i := 0) (identity := identity) (ids := [identity, identity']) .nil rfl hid
    (by intro l hl; simp [init, World.init] at hl) (by simp [connsOf]) (by intro c hc; simp [init] at hc; subst hc; simp [ChargePoint.init])
  have hx := h.exec
  obtain ⟨n, h1, h2, h3, h4, h5⟩ := C95_after_comeback h
  obtain ⟨j, t', s'', l, g1, ⟨g2, v, g3, -⟩, -, g4, -⟩ := C95_chargePoint (q := ⟨.cpreqHeartbeat, .struct []⟩) (id := "1") hx h1 h2 h3 h4
    (by simp [ReqType.ty, cpreq.Heartbeat, HasTy, HasTys]) rfl rfl (fun j q' => (h5 j "1" q').1)
  have hm : Conn.Ev.send (S := ocppj F o₁ .cp) j "1" (⟨.cpreqHeartbeat, .struct []⟩ : Req) ∈ cpEvents n (worldEvents ([] ++ t ++ t')) := by
    rw [← atCp_onLink, worldEvents_append, onLink_append, g3]
    simp [atCp]
  obtain ⟨y, hy⟩ := g4.1 j _ _ hm
  refine ⟨_, s'', n, j, y, hx.append g1, hm, hy, ?_⟩
  rw [connsOf_append, List.nil_append]
  have e1 : connsOf 1 t = [] := by
    have e2 := hsub.filterMap (fun | Ev.dialled j _ n _ => if j = 1 then some n else none | _ => none)
    simp [comeback] at e2
    exact List.filterMap_eq_nil_iff.2 e2
  have e3 : connsOf 1 t' = [] := by
    rw [connsOf, List.filterMap_eq_nil_iff]
    intro e he
    have := g2 e he
    cases e <;> simp_all [Within]
  rw [e1, e3, List.nil_append]

end Verif.Fleet
