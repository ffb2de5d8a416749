import Verif.Model.Go
/-!
# The send mutex

Models `sendMessage` (ws/conn.go:265-280) and `WriteJSON` (ws/conn.go:95-99) below the granularity
of `Verif.Model.Conn`: a frame is written to the socket in several chunks, between
`sendMux.Lock()` and the deferred `Unlock()`.  Any number of goroutines run these methods.
Simplification: after a failed chunk gorilla refuses all later writes (`broken`).
-/
namespace Verif.Mutex

/-- Where a goroutine calling `sendMessage` is. -/
inductive Th (C : Type) where
  /-- before `Lock()`, conn.go:266 -/
  | want (frame : List C)
  /-- holds the lock; `sent` are the chunks of the frame already written, `rest` those still to be
  written, conn.go:274 -/
  | inside (sent rest : List C)
  /-- after `Unlock()`, conn.go:267; `ok` tells whether the whole frame was written -/
  | out (ok : Bool)

variable {C : Type}

/-- Goroutines, holder of `sendMux`, what the socket has been given, and whether a write failed. -/
structure St (C : Type) where
  th : List (Th C)
  lock : Option Nat
  wire : List C
  broken : Bool

/-- Start: nobody inside. -/
def init (C : Type) : St C := ⟨[], none, [], false⟩

/-- What happens; calls are numbered in the order in which they are made. -/
inductive Ev (C : Type) where
  | call (i : Nat) (f : List C)
  | lock (i : Nat)
  | chunk (i : Nat) (c : C)
  /-- the call returns nil; `f` is what it has written -/
  | done (i : Nat) (f : List C)
  /-- the call returns an error -/
  | fail (i : Nat)

/-- Steps. -/
inductive Step (s : St C) : Ev C → St C → Prop where
  /-- some goroutine calls `sendMessage` -/
  | call (f : List C) : Step s (.call s.th.length f) { s with th := s.th ++ [.want f] }
  /-- conn.go:266 / 96: `Lock()` -/
  | acquire {i f} : s.lock = none → s.th[i]? = some (.want f) →
      Step s (.lock i) { s with lock := some i, th := s.th.set i (.inside [] f) }
  /-- conn.go:274 / 98: one chunk goes out.  Nothing in this step looks at the lock: exclusion is
  a consequence, not a guard. -/
  | chunk {i a c b} : s.broken = false → s.th[i]? = some (.inside a (c :: b)) →
      Step s (.chunk i c) { s with th := s.th.set i (.inside (a ++ [c]) b), wire := s.wire ++ [c] }
  /-- the whole frame is out; deferred `Unlock()` -/
  | done {i a} : s.th[i]? = some (.inside a []) →
      Step s (.done i a) { s with th := s.th.set i (.out true), lock := none }
  /-- conn.go:275-277: the write fails; deferred `Unlock()` -/
  | fail {i a b} : s.th[i]? = some (.inside a b) →
      Step s (.fail i) { s with th := s.th.set i (.out false), lock := none, broken := true }

/-- Schedules. -/
inductive Run : List (Ev C) → St C → Prop where
  | nil : Run [] (init C)
  | snoc {tr s e s'} : Run tr s → Step s e s' → Run (tr ++ [e]) s'

end Verif.Mutex
