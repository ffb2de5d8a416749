import Verif.Model.ChargePoint
/-!
# A charge point with a clock

`Verif.Model.ChargePoint` with the time at which each step happens, and with the beginning of a dial as a step of its own.  A dial takes
any time.  After a dial that failed, the loop of cp/json.go:42-50 waits `websocketConnectionRetryInterval` (json.go:13, 46) before it
dials again; after a lost connection it dials without waiting (json.go:39-43).  `New` dials once (cp.go:52): a dial after a first one
that failed stands for another call of `New`, and nothing makes the user wait.
-/
namespace Verif.ChargePoint

/-- `websocketConnectionRetryInterval` in milliseconds (cp/json.go:13). -/
def pause : Nat := 5000

/-- Events: those of `ChargePoint`, where `dialOk` and `dialFail` are the end of a dial, and the beginning of a dial. -/
inductive TEv where
  /-- `ws.Dial` is called (json.go:21) -/
  | start
  | ev (e : Ev)
  deriving DecidableEq

/-- The event is the end of a dial. -/
def Ev.endsDial : Ev → Bool
  | .dialOk _ => true
  | .dialFail => true
  | _ => false

/-- State: the charge point, whether a dial is under way, when the pause ends, and the time. -/
structure TSt where
  st : St
  inDial : Bool
  notBefore : Nat
  now : Nat

/-- The beginning (cp.go:42), at time `t`. -/
def tinit (t : Nat) : TSt := ⟨init, false, t, t⟩

/-- Steps with the time at which they happen. -/
inductive TStep (s : TSt) : Nat → TEv → TSt → Prop where
  /-- json.go:21 -/
  | start {t} : s.now ≤ t → s.st.phase = .dialing → s.inDial = false → s.notBefore ≤ t →
      TStep s t .start { s with inDial := true, now := t }
  /-- json.go:22-24, 44-46 (cp.go:53-55 if it is the first dial) -/
  | dialFail {t st'} : s.now ≤ t → s.inDial = true → Step s.st .dialFail st' →
      TStep s t (.ev .dialFail) { st := st', inDial := false, notBefore := if s.st.conns = [] then t else t + pause, now := t }
  /-- json.go:21-25 -/
  | dialOk {t n st'} : s.now ≤ t → s.inDial = true → Step s.st (.dialOk n) st' →
      TStep s t (.ev (.dialOk n)) { s with st := st', inDial := false, now := t }
  | other {t e st'} : s.now ≤ t → e.endsDial = false → Step s.st e st' → TStep s t (.ev e) { s with st := st', now := t }

/-- Histories with times. -/
inductive TRun : TSt → List (Nat × TEv) → TSt → Prop where
  | nil {s} : TRun s [] s
  | cons {s t e s' tr s''} : TStep s t e s' → TRun s' tr s'' → TRun s ((t, e) :: tr) s''

/-- The goroutine of the charge point has nothing to do until time `t`: it is in a dial, in a pause that lasts until then, in the
handler or a write, or in the select with the connection open and the context not cancelled; or it has returned. -/
def TSt.Waiting (s : TSt) (t : Nat) : Prop :=
  s.inDial = true ∨ (s.st.phase = .dialing ∧ t ≤ s.notBefore) ∨ s.st.phase = .handling ∨ s.st.phase = .stopped ∨
  (s.st.phase = .select ∧ s.st.cancelled = false ∧ ∀ n, s.st.conn = some n → s.st.connClosed n = false)

/-- Histories on a machine that is fast compared with the clock: time passes only while the goroutine has nothing to do. -/
inductive Prompt : TSt → List (Nat × TEv) → TSt → Prop where
  | nil {s} : Prompt s [] s
  | cons {s t e s' tr s''} : (t = s.now ∨ s.Waiting t) → TStep s t e s' → Prompt s' tr s'' → Prompt s ((t, e) :: tr) s''

end Verif.ChargePoint
