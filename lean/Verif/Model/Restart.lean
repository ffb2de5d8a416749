import Verif.Model.Fleet
/-!
# A central system that is started again

`Verif.Model.Fleet` with a central system whose process may end at any moment and be started again: its tables (cs/cs.go:49-58) are in
memory only, so a new process knows nothing of the connections of the ones before.  The charge points (cp/cp.go, cp/json.go) live on
and dial again.

Simplifications: those of `Verif.Model.Fleet`.  The end of a process and the start of the next are one event; in between nothing of
the central system moves, which is as if its old process did nothing for a while.  What the old process had written to its
connections may still arrive.  A charge point that is started again is a further entry of the list of charge points, with the same
identity: nothing makes identities differ, and an entry may do nothing for as long as it likes.
-/
namespace Verif.Restart
open Codec Ocppj World Fleet

/-- A charge point process, as in `Fleet`; its connections are given by the process of the central system (cs/cs.go:71-93) and their
number there. -/
structure Cp where
  identity : Text
  st : ChargePoint.St
  links : List (Nat × Nat)

/-- All processes of the central system, each with the connections made to it, the running one last; and the charge points. -/
structure St (F : FloatFmt) (o₁ o₂ : Order) where
  procs : List (World.St F o₁ o₂)
  cps : List Cp

/-- The first process (cs/cs.go:60-69) and charge points with these identities at the beginning of `New` (cp/cp.go:41-50). -/
def init (F : FloatFmt) (o₁ o₂ : Order) (ids : List Text) : St F o₁ o₂ :=
  ⟨[World.init F o₁ o₂], ids.map fun i => ⟨i, ChargePoint.init, []⟩⟩

variable {F : FloatFmt} {o₁ o₂ : Order}

/-- A connection, by process and number. -/
def St.link (s : St F o₁ o₂) (x : Nat × Nat) : Option (Link F o₁ o₂) :=
  match s.procs[x.1]? with
  | some w => w.links[x.2]?
  | none => none

/-- The charge point's process has not panicked. -/
def Cp.alive (c : Cp) (s : St F o₁ o₂) : Prop := ∀ x ∈ c.links, ∀ l, s.link x = some l → l.ends.cp.crashed = false

/-- Events. -/
inductive Ev (F : FloatFmt) (o₁ o₂ : Order) where
  /-- charge point `i`, with this identity, made its `k`-th connection, which is the `n`-th of process `p` of the central system -/
  | dialled (i k p n : Nat) (identity : Text)
  /-- a dial of charge point `i` got through to process `p`, which made connection `n`, but failed at the charge point -/
  | halfDialled (i p n : Nat) (identity : Text)
  /-- an event of charge point `i` alone -/
  | self (i : Nat) (e : ChargePoint.Ev)
  /-- an event at charge point `i`'s end of its `k`-th connection, which is the `n`-th of process `p` -/
  | on (i k p n : Nat) (e : Conn.Ev (ocppj F o₁ .cp))
  /-- an event of process `p` of the central system -/
  | cs (p : Nat) (e : World.Ev F o₁ o₂)
  /-- the process of the central system ends, and process `p` starts -/
  | restart (p : Nat)

/-- Steps. -/
inductive Step (csURL : Text) (s : St F o₁ o₂) : Ev F o₁ o₂ → St F o₁ o₂ → Prop where
  /-- cp/json.go:21, ws/conn.go:56-65 -/
  | dialled {i p : Nat} {c w w' st'} : s.cps[i]? = some c → c.alive s → s.procs[p]? = some w → p + 1 = s.procs.length →
      World.Step csURL w (.dial w.links.length c.identity) w' → ChargePoint.Step c.st (.dialOk c.links.length) st' →
      Step csURL s (.dialled i c.links.length p w.links.length c.identity)
        ⟨s.procs.set p w', s.cps.set i { c with st := st', links := c.links ++ [(p, w.links.length)] }⟩
  /-- the same with the answer to the handshake lost -/
  | halfDialled {i p : Nat} {c w w' st'} : s.cps[i]? = some c → c.alive s → s.procs[p]? = some w → p + 1 = s.procs.length →
      World.Step csURL w (.dial w.links.length c.identity) w' → ChargePoint.Step c.st .dialFail st' →
      Step csURL s (.halfDialled i p w.links.length c.identity) ⟨s.procs.set p w', s.cps.set i { c with st := st' }⟩
  /-- cp/json.go:22-28, 41, 68-74 -/
  | self {i : Nat} {c e st'} : s.cps[i]? = some c → c.alive s → isLocal e = true → ChargePoint.Step c.st e st' →
      Step csURL s (.self i e) { s with cps := s.cps.set i { c with st := st' } }
  /-- cp/json.go:35-66 and the goroutines of the connection, to whichever process it was made; the loop only serves `cp.conn` -/
  | on {i k p n : Nat} {c w w' st' e} : s.cps[i]? = some c → c.alive s → c.links[k]? = some (p, n) → s.procs[p]? = some w →
      World.Step csURL w (.cp n e) w' →
      (ofLoop e = true → c.st.conn = some k ∧ (c.st.phase = .select ∨ c.st.phase = .handling)) → Faced k e c.st st' →
      Step csURL s (.on i k p n e) ⟨s.procs.set p w', s.cps.set i { c with st := st' }⟩
  /-- the running process of the central system -/
  | cs {p : Nat} {e w w'} : s.procs[p]? = some w → p + 1 = s.procs.length → atCentral e = true → World.Step csURL w e w' →
      Step csURL s (.cs p e) { s with procs := s.procs.set p w' }
  /-- cs/cs.go:60-69 in a new process -/
  | restart : Step csURL s (.restart s.procs.length) { s with procs := s.procs ++ [World.init F o₁ o₂] }

/-- Histories. -/
inductive Exec (csURL : Text) (ids : List Text) : List (Ev F o₁ o₂) → St F o₁ o₂ → Prop where
  | nil : Exec csURL ids [] (init F o₁ o₂ ids)
  | snoc {tr e s s'} : Exec csURL ids tr s → Step csURL s e s' → Exec csURL ids (tr ++ [e]) s'

/-- Continuations. -/
inductive Run (csURL : Text) (s : St F o₁ o₂) : List (Ev F o₁ o₂) → St F o₁ o₂ → Prop where
  | nil : Run csURL s [] s
  | snoc {tr e s' s''} : Run csURL s tr s' → Step csURL s' e s'' → Run csURL s (tr ++ [e]) s''

end Verif.Restart
