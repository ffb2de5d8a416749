import Verif.Model.Timed
/-!
# Machines that are fast enough
-/
namespace Verif.Conn
variable {S : Sem}

/-- What a goroutine does by itself between reading an answer and the return of `Send`. -/
def Urgent : Ev S → Bool
  | .dispatch _ => true
  | .deliver _ _ => true
  | .finish _ _ => true
  | _ => false

/-- The machine is fast compared with the clock: time does not go on while an answer can be handed to its `Send`, nor while a timer that
has run off has not been noticed. -/
def InTime (side : Side) (tr : List (Nat × Ev S)) (s : St S) (t : Nat) : Prop :=
  ((∃ e s', Urgent e = true ∧ Step side s e s') → ∀ x ∈ tr.getLast?, t = x.1) ∧
  ∀ i x w f, s.senders[i]? = some x → x.phase = .waiting → (w, .writeCall i (some f)) ∈ tr → t ≤ w + limit

/-- Schedules of a machine that is fast compared with the clock. -/
inductive Prompt (side : Side) : List (Nat × Ev S) → St S → Prop where
  | nil : Prompt side [] (init S)
  | snoc {tr t e s s'} : Prompt side tr s → Step side s e s' → Allowed tr t e → InTime side tr s t → Prompt side (tr ++ [(t, e)]) s'

end Verif.Conn
