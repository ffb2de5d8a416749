import Verif.Model.System
/-!
# Writes that take time

`Verif.Model.Conn` and `Verif.Model.System` with writes in two steps: taking `sendMux` (ws/conn.go:266) and the end of the write
(conn.go:269-279, deferred `Unlock`).  In between the goroutine may be blocked in `WriteMessage` for as long as it takes: the library
sets no write deadline, and the 60 s timer of `SendRequest` (conn.go:309) starts after the write.  `BSys` adds that the stream between
the two ends holds a limited amount of unread data.

Simplifications.  The amount is counted in characters, with two bytes of websocket header for each frame; a frame always fits if
nothing is unread (so that the limit does not exclude any message by itself; the peer's reader may take it as it comes).  The waiting
goroutines get the mutex in any order.
-/
namespace Verif.Conn
variable {S : Sem}

/-- The goroutines that write. -/
inductive Writer where
  /-- the serving loop: a reply (cs/cs.go:151, cp/json.go:60) -/
  | loop
  /-- a `SendRequest` (conn.go:297) -/
  | sender (i : Nat)
  /-- a reader: a refusal (conn.go:204) -/
  | reader (k : Nat)
  deriving DecidableEq

/-- The end of a write, successful or not (conn.go:279, 271, 276): whose it is. -/
def Ev.writer : Ev S → Option Writer
  | .writeCall i _ => some (.sender i)
  | .refuse k _ _ _ => some (.reader k)
  | .answer _ _ _ _ => some .loop
  | _ => none

/-- The goroutine calls `sendMessage` next, or is inside (conn.go:265). -/
def AtWrite (s : St S) : Writer → Prop
  | .loop => ∃ id resp err, s.loop = .answering id resp err
  | .sender i => ∃ x, s.senders[i]? = some x ∧ x.phase = .registered
  | .reader k => ∃ id c, s.readers[k]? = some (.refusing id c)

/-- A connection and the holder of its `sendMux` (conn.go:32). -/
structure LSt (S : Sem) where
  conn : St S
  lock : Option Writer

/-- A new connection (conn.go:41-54). -/
def LSt.init (S : Sem) : LSt S := ⟨Conn.init S, none⟩

/-- Steps: a write begins, or one of the steps of `Verif.Model.Conn`, of which the writes are ends of writes. -/
inductive LEv (S : Sem) where
  | lock (w : Writer)
  | ev (e : Ev S)

/-- One step. -/
inductive LStep (side : Side) (s : LSt S) : LEv S → LSt S → Prop where
  /-- conn.go:266 -/
  | lock {w} : s.conn.crashed = false → s.lock = none → AtWrite s.conn w → LStep side s (.lock w) { s with lock := some w }
  /-- conn.go:269-279 and the deferred `Unlock` -/
  | write {e s' w} : e.writer = some w → s.lock = some w → Step side s.conn e s' → LStep side s (.ev e) ⟨s', none⟩
  /-- anything else -/
  | other {e s'} : e.writer = none → Step side s.conn e s' → LStep side s (.ev e) ⟨s', s.lock⟩

/-- Any finite schedule from `s`. -/
inductive LRun (side : Side) (s : LSt S) : List (LEv S) → LSt S → Prop where
  | nil : LRun side s [] s
  | snoc {tr e s' s''} : LRun side s tr s' → LStep side s' e s'' → LRun side s (tr ++ [e]) s''

/-- Executions of a connection from its creation. -/
abbrev LExec (side : Side) (tr : List (LEv S)) (s : LSt S) : Prop := LRun side (LSt.init S) tr s

/-- The events of `Verif.Model.Conn`. -/
def LEv.ev? : LEv S → Option (Ev S)
  | .ev e => some e
  | .lock _ => none

end Verif.Conn

namespace Verif.Ocppj
open Conn Codec

/-- The two ends and the frames under way, the oldest first. -/
structure BSys (F : FloatFmt) (o₁ o₂ : Order) where
  cp : LSt (ocppj F o₁ .cp)
  cs : LSt (ocppj F o₂ .cs)
  toCs : List Text
  toCp : List Text

/-- A new connection. -/
def BSys.init (F : FloatFmt) (o₁ o₂ : Order) : BSys F o₁ o₂ := ⟨LSt.init _, LSt.init _, [], []⟩

/-- How much a frame takes: its payload and at least two bytes of header. -/
def frameSize (f : Text) : Nat := f.length + 2

/-- The write of what an event writes can end, with these frames unread. -/
def Room (cap : Nat) (unread : List Text) (w : Option Text) : Prop :=
  ∀ f, w = some f → unread = [] ∨ (unread.map frameSize).sum + frameSize f ≤ cap

/-- A step of one end, with room for `cap₁` towards the central system and `cap₂` towards the charge point. -/
inductive BSys.Step {F : FloatFmt} {o₁ o₂ : Order} (cap₁ cap₂ : Nat) (x : BSys F o₁ o₂) :
    LEv (ocppj F o₁ .cp) ⊕ LEv (ocppj F o₂ .cs) → BSys F o₁ o₂ → Prop where
  | cpLock {w s'} : LStep .cp x.cp (.lock w) s' → BSys.Step cap₁ cap₂ x (.inl (.lock w)) { x with cp := s' }
  | csLock {w s'} : LStep .cs x.cs (.lock w) s' → BSys.Step cap₁ cap₂ x (.inr (.lock w)) { x with cs := s' }
  | cp {e s' l} : LStep .cp x.cp (.ev e) s' → Consumes e x.toCp l → Room cap₁ x.toCs e.wrote →
      BSys.Step cap₁ cap₂ x (.inl (.ev e)) { x with cp := s', toCp := l, toCs := x.toCs ++ Option.toList (α := Text) e.wrote }
  | cs {e s' l} : LStep .cs x.cs (.ev e) s' → Consumes e x.toCs l → Room cap₂ x.toCp e.wrote →
      BSys.Step cap₁ cap₂ x (.inr (.ev e)) { x with cs := s', toCs := l, toCp := x.toCp ++ Option.toList (α := Text) e.wrote }

/-- Any finite schedule of both ends from `x`. -/
inductive BSys.Run {F : FloatFmt} {o₁ o₂ : Order} (cap₁ cap₂ : Nat) (x : BSys F o₁ o₂) :
    List (LEv (ocppj F o₁ .cp) ⊕ LEv (ocppj F o₂ .cs)) → BSys F o₁ o₂ → Prop where
  | nil : BSys.Run cap₁ cap₂ x [] x
  | snoc {tr e y z} : BSys.Run cap₁ cap₂ x tr y → BSys.Step cap₁ cap₂ y e z → BSys.Run cap₁ cap₂ x (tr ++ [e]) z

/-- Executions from the creation of the connection. -/
abbrev BSys.Exec {F : FloatFmt} {o₁ o₂ : Order} (cap₁ cap₂ : Nat) (tr : List (LEv (ocppj F o₁ .cp) ⊕ LEv (ocppj F o₂ .cs)))
    (x : BSys F o₁ o₂) : Prop := BSys.Run cap₁ cap₂ (BSys.init F o₁ o₂) tr x

/-- The events at the charge point, without the beginnings of writes. -/
def evsCp {α β : Sem} (tr : List (LEv α ⊕ LEv β)) : List (Ev α) := (atCp tr).filterMap LEv.ev?

/-- The events at the central system, without the beginnings of writes. -/
def evsCs {α β : Sem} (tr : List (LEv α ⊕ LEv β)) : List (Ev β) := (atCs tr).filterMap LEv.ev?

end Verif.Ocppj
