import Verif.Model.World
import Verif.Model.ChargePoint
/-!
# A central system and charge points that reconnect

The central system with its connections (`Verif.Model.World`) and, for every charge point, the goroutine that dials, serves and redials
(`Verif.Model.ChargePoint`).  A charge point's connections are connections of the former; what was an arbitrary `drop` of the latter is
now an event at the charge point's end of the connection.

Simplifications.  The charge points are given from the start; one that does not run yet has not dialled.  All Sends of a charge point go
through its own `Send` (cp/cp.go:31), not through the `*ws.Conn` that `Connection()` returns (cp/json.go:15); that connection may be
closed by the user.  A charge point crashes as a whole: when one of its connections does, nothing of it moves any more.
-/
namespace Verif.Fleet
open Codec Ocppj World

/-- A charge point process: its identity (cp/cp.go:41), its goroutine and fields (cp/cp.go:28-39), and its connections, numbered as those
of the central system, in the order in which it made them. -/
structure Cp where
  identity : Text
  st : ChargePoint.St
  links : List Nat

/-- The central system with all connections, and the charge points. -/
structure St (F : FloatFmt) (o₁ o₂ : Order) where
  world : World.St F o₁ o₂
  cps : List Cp

/-- A new central system (cs/cs.go:60-69) and charge points with these identities at the beginning of `New` (cp/cp.go:41-50). -/
def init (F : FloatFmt) (o₁ o₂ : Order) (ids : List Text) : St F o₁ o₂ :=
  ⟨World.init F o₁ o₂, ids.map fun i => ⟨i, ChargePoint.init, []⟩⟩

variable {F : FloatFmt} {o₁ o₂ : Order}

/-- The charge point's process has not panicked. -/
def Cp.alive (c : Cp) (w : World.St F o₁ o₂) : Prop := ∀ n ∈ c.links, ∀ l, w.links[n]? = some l → l.ends.cp.crashed = false

/-- Events of a charge point's goroutine or user that do not concern an existing connection. -/
def isLocal : ChargePoint.Ev → Bool
  | .dialFail | .setConn | .setService | .announce | .renew | .cancel | .waitConnect _ | .waitDisconnect _ => true
  | _ => false

/-- What an event at the charge point's end of its `k`-th connection is for its goroutine and fields: the cases of the select at
cp/json.go:35-63, a call of `Send`, and the end of the connection. -/
def face {S : Sem} (k : Nat) : Conn.Ev S → Option ChargePoint.Ev
  | .take _ _ _ _ => some (.handle k)
  | .answer _ _ _ _ => some .handled
  | .result _ _ => some .read
  | .seeClosed => some .seeClosed
  | .ctxDone => some .stop
  | .close => some (.drop k)
  | .readErr _ _ => some (.drop k)
  | .send _ _ _ => some (.send k)
  | _ => none

/-- The charge point's side of such an event. -/
inductive Faced {S : Sem} (k : Nat) (e : Conn.Ev S) (st st' : ChargePoint.St) : Prop where
  | step {f} : face k e = some f → ChargePoint.Step st f st' → Faced k e st st'
  | silent : face k e = none → st' = st → Faced k e st st'

/-- Events. -/
inductive Ev (F : FloatFmt) (o₁ o₂ : Order) where
  /-- charge point `i`, with this identity, made its `k`-th connection, which is the `n`-th of the central system -/
  | dialled (i k n : Nat) (identity : Text)
  /-- a dial of charge point `i` got through to the central system, which made connection `n`, but failed at the charge point -/
  | halfDialled (i n : Nat) (identity : Text)
  /-- an event of charge point `i` alone -/
  | self (i : Nat) (e : ChargePoint.Ev)
  /-- an event at charge point `i`'s end of its `k`-th connection, which is the `n`-th of the central system -/
  | on (i k n : Nat) (e : Conn.Ev (ocppj F o₁ .cp))
  /-- an event of the central system -/
  | cs (e : World.Ev F o₁ o₂)

/-- Events of the central system's process other than the handshake. -/
def atCentral : World.Ev F o₁ o₂ → Bool
  | .register _ _ _ | .reg _ | .cs _ _ _ => true
  | _ => false

/-- Steps. -/
inductive Step (csURL : Text) (s : St F o₁ o₂) : Ev F o₁ o₂ → St F o₁ o₂ → Prop where
  /-- cp/json.go:21, ws/conn.go:56-65 -/
  | dialled {i : Nat} {c w' st'} : s.cps[i]? = some c → c.alive s.world →
      World.Step csURL s.world (.dial s.world.links.length c.identity) w' → ChargePoint.Step c.st (.dialOk c.links.length) st' →
      Step csURL s (.dialled i c.links.length s.world.links.length c.identity) ⟨w', s.cps.set i { c with st := st', links := c.links ++ [s.world.links.length] }⟩
  /-- the same with the answer to the handshake lost -/
  | halfDialled {i : Nat} {c w' st'} : s.cps[i]? = some c → c.alive s.world →
      World.Step csURL s.world (.dial s.world.links.length c.identity) w' → ChargePoint.Step c.st .dialFail st' →
      Step csURL s (.halfDialled i s.world.links.length c.identity) ⟨w', s.cps.set i { c with st := st' }⟩
  /-- cp/json.go:22-28, 41, 68-74 -/
  | self {i : Nat} {c e st'} : s.cps[i]? = some c → c.alive s.world → isLocal e = true → ChargePoint.Step c.st e st' →
      Step csURL s (.self i e) { s with cps := s.cps.set i { c with st := st' } }
  /-- cp/json.go:35-66 and the goroutines of the connection; the loop only serves `cp.conn` -/
  | on {i k n : Nat} {c w' st' e} : s.cps[i]? = some c → c.alive s.world → c.links[k]? = some n → World.Step csURL s.world (.cp n e) w' →
      (ofLoop e = true → c.st.conn = some k ∧ (c.st.phase = .select ∨ c.st.phase = .handling)) → Faced k e c.st st' →
      Step csURL s (.on i k n e) ⟨w', s.cps.set i { c with st := st' }⟩
  /-- the central system -/
  | cs {e w'} : atCentral e = true → World.Step csURL s.world e w' → Step csURL s (.cs e) { s with world := w' }

/-- Histories. -/
inductive Exec (csURL : Text) (ids : List Text) : List (Ev F o₁ o₂) → St F o₁ o₂ → Prop where
  | nil : Exec csURL ids [] (init F o₁ o₂ ids)
  | snoc {tr e s s'} : Exec csURL ids tr s → Step csURL s e s' → Exec csURL ids (tr ++ [e]) s'

/-- Continuations. -/
inductive Run (csURL : Text) (s : St F o₁ o₂) : List (Ev F o₁ o₂) → St F o₁ o₂ → Prop where
  | nil : Run csURL s [] s
  | snoc {tr e s' s''} : Run csURL s tr s' → Step csURL s' e s'' → Run csURL s (tr ++ [e]) s''

end Verif.Fleet
