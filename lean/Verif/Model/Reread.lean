import Verif.Model.Conn
/-!
# Reading again from a failed websocket

The library reads with `c.Conn.ReadMessage()` (ws/conn.go:176) of gorilla/websocket v1.4.1, which is `NextReader` followed by
reading the message to its end.  `NextReader` remembers the first error of the connection (`readErr`) and returns it from then on;
and it counts the calls that end in an error (`readErrCount`) and panics, "repeated read on failed websocket connection", at the
1000th.  The call is made in the goroutine of `ReadMessageAsync` (ws/conn.go:169-171), which has no `recover`: the panic ends the
process, be it a charge point or a central system.

This file adds exactly that to the connection of `Verif.Model.Conn`.  The connection model by itself lets a read fail for any
reason at any time and lets reads go on as often as the serving loop asks for them; here a failed read is never followed by a
successful one, the error stays the same, and the thousandth failure at the beginning of a message is the end of the process.
-/
namespace Verif.Reread
open Conn
variable (S : Sem)

/-- gorilla/websocket v1.4.1 conn.go, `NextReader`: `if c.readErrCount >= 1000 { panic(...) }`. -/
def readLimit : Nat := 1000

/-- A connection (ws/conn.go:28-54) with what gorilla keeps about its reads. -/
structure RSt where
  conn : St S
  /-- gorilla's `readErr` -/
  failed : Option ReadRes
  /-- gorilla's `readErrCount` -/
  count : Nat
  /-- the process died of gorilla's panic -/
  dead : Bool

/-- `newConn` (ws/conn.go:41-54) over a fresh socket. -/
def rinit : RSt S := ⟨init S, none, 0, false⟩

/-- Steps: those of the connection, except that a failed read says whether it failed at the beginning of a message (in
`NextReader`) or inside it (in `ioutil.ReadAll`, gorilla's `ReadMessage`), and gorilla's panic. -/
inductive REv where
  | conn (e : Ev S)
  | fail (k : Nat) (e : ReadRes) (head : Bool)
  | die (k : Nat)

variable {S}

/-- The steps of a connection other than those of its socket reads. -/
def notRead : Ev S → Bool
  | .read _ _ => false
  | .readErr _ _ => false
  | _ => true

/-- One step (ws/conn.go:175-181 for the reads; the others are those of `Conn.Step`). -/
inductive RStep (side : Side) (s : RSt S) : REv S → RSt S → Prop where
  | other {e c} : s.dead = false → notRead e = true → Step side s.conn e c →
      RStep side s (.conn e) { s with conn := c }
  /-- a text is read: only while no read has failed -/
  | read {k f c} : s.dead = false → s.failed = none → Step side s.conn (.read k f) c →
      RStep side s (.conn (.read k f)) { s with conn := c }
  /-- a read fails: the first one with any error, the later ones with the same error and at the beginning of a message -/
  | fail {k e head c} : s.dead = false → (∀ e', s.failed = some e' → e = e' ∧ head = true) →
      Step side s.conn (.readErr k e) c →
      (head = true → s.count + 1 < readLimit) →
      RStep side s (.fail k e head)
        { s with conn := c, failed := some e, count := if head then s.count + 1 else s.count }
  /-- the read that makes the count reach the limit panics instead of returning -/
  | die {k e c} : s.dead = false → Step side s.conn (.readErr k e) c →
      readLimit ≤ s.count + 1 →
      RStep side s (.die k) { s with count := s.count + 1, dead := true }

/-- Any finite schedule. -/
inductive RRun (side : Side) (s : RSt S) : List (REv S) → RSt S → Prop where
  | nil : RRun side s [] s
  | snoc {tr e s' s''} : RRun side s tr s' → RStep side s' e s'' → RRun side s (tr ++ [e]) s''

/-- Histories of a connection from its creation. -/
abbrev RExec (side : Side) (tr : List (REv S)) (s : RSt S) : Prop := RRun side (rinit S) tr s

end Verif.Reread
