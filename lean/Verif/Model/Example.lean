import Verif.Model.System
/-!
# Handlers, and the handlers of the example programs

The functions given to `cs.CentralSystem.Run` (cs/cs.go:26-27, 71, 147) and to `cp.New` (cp/cp.go:42, 56), seen as what they may do with a
request.  In `Verif.Model.Conn` a handler may return anything or panic; here executions are described in which it does what its
program says.
-/
namespace Verif.Ocppj
open Json Codec Conn

/-- What a call of a handler comes to. -/
inductive Outcome where
  | ret (resp : Option Resp) (err : Option String)
  | panic

/-- A handler: what a call with a request (`none`: a nil request) may come to.  A relation, since a Go function may look at the clock
and at other state. -/
abbrev Handler := Option Req → Outcome → Prop

/-- `time.Now()`: some time in the years 0 to 9999, in a zone a whole number of minutes (less than a day) from UTC.  (Simplification:
the clock is not related to the schedule.) -/
def IsNow (t : GoTime) : Prop := t.nano < 10 ^ 9 ∧ t.Plain

/-- The handler in example/cs/main.go:18-43, and in example/cs/remote_unlock.go:19-37, which is the same but for the output (and but
for a nil request, for which the former panics in `req.Action()`, main.go:40, and the latter returns the error). -/
def exampleCs : Handler
  | some q, x =>
    match q.type with
    | .cpreqBootNotification => ∃ t, IsNow t ∧
        x = .ret (some ⟨.cprespBootNotification, .struct [.str "Accepted".toList, .time t, .float (.fin 60)]⟩) none
    | .cpreqHeartbeat => ∃ t, IsNow t ∧ x = .ret (some ⟨.cprespHeartbeat, .struct [.time t]⟩) none
    | .cpreqStatusNotification => x = .ret (some ⟨.cprespStatusNotification, .struct []⟩) none
    | _ => x = .ret none (some "Response not supported")
  | none, x => x = .panic ∨ x = .ret none (some "Response not supported")

/-- The handler in example/cp/main.go:19-21. -/
def exampleCp : Handler
  | _, x => x = .ret none (some "not supported")

end Verif.Ocppj
