import Verif.Spec.Conn
/-!
# Vocabulary for frames that are no messages
-/
namespace Verif.Conn
variable {S : Sem}

/-- The text is no message of OCPP-J (which does not include the texts that crash the process, C12). -/
def noMessage (f : S.Frame) : Bool := (S.read f).isErr

/-- What is observable of an event apart from the reading of frames: everything, but not which goroutine did it. -/
def Ev.visible : Ev S → Option (Ev S)
  | .spawn _ | .read _ _ | .dispatch _ | .result _ _ => none
  | .readErr _ e => some (.readErr 0 e)
  | .refuse _ id c ok => some (.refuse 0 id c ok)
  | .take _ id r arg => some (.take 0 id r arg)
  | .deliver _ i => some (.deliver 0 i)
  | e => some e

end Verif.Conn
