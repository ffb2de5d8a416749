import Verif.Model.Conn
/-!
# A connection with a clock

`Verif.Model.Conn` with the time at which each step happens.  The select of `SendRequest` starts its timer after the write
(ws/conn.go:309), so it does not take the timer's branch before the time limit (internal/request_timeout.go:6) has passed since then.
Everything else may take any time.
-/
namespace Verif.Conn
variable {S : Sem}

/-- `DefaultRequestTimeout` in milliseconds (internal/request_timeout.go:6). -/
def limit : Nat := 60000

/-- The next step `e` may happen at time `t`: time does not run backwards, and the timer of a `Send` has not fired before its time
(conn.go:309). -/
def Allowed (tr : List (Nat × Ev S)) (t : Nat) (e : Ev S) : Prop :=
  (∀ x ∈ tr, x.1 ≤ t) ∧ ∀ i, e = .timeout i → ∀ w f, (w, .writeCall i (some f)) ∈ tr → w + limit ≤ t

/-- Schedules with times, from the creation of the connection. -/
inductive TRun (side : Side) : List (Nat × Ev S) → St S → Prop where
  | nil : TRun side [] (init S)
  | snoc {tr t e s s'} : TRun side tr s → Step side s e s' → Allowed tr t e → TRun side (tr ++ [(t, e)]) s'

end Verif.Conn
