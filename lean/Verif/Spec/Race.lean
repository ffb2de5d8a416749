import Verif.Model.Race
/-!
# Data races
-/
namespace Verif.Race

/-- Goroutine `i` is about to write `v`, and at the same time goroutine `j` to read or write it (`w`: to write it). -/
def Race {Op V : Type} (s : St Op V) (v : V) (i j : Nat) (a b : Op) (w : Bool) : Prop :=
  i ≠ j ∧ (∃ p, s.threads[i]? = some ⟨a, .acc v true :: p⟩) ∧ ∃ p, s.threads[j]? = some ⟨b, .acc v w :: p⟩

namespace Cs

/-- The races of the central system: a handshake, or the end of a connection, with the landing page, and, if there is a debug logger, with
another handshake; and the functions that set listeners with handshakes and with themselves. -/
inductive Racy (debug : Bool) : Var → Op → Op → Bool → Prop where
  | landing : Racy debug .conns .handshake .landing false
  | logged : debug = true → Racy debug .conns .handshake .handshake false
  | connListener : Racy debug .connListener .setConnListener .handshake false
  | connListener' : Racy debug .connListener .setConnListener .setConnListener true
  | disconnListener : Racy debug .disconnListener .setDisconnListener .handshake false
  | disconnListener' : Racy debug .disconnListener .setDisconnListener .setDisconnListener true

end Cs

namespace Cp

/-- The races of a charge point: its reconnection with everything that a user can call. -/
inductive Racy : Var → Op → Op → Bool → Prop where
  | send : Racy .service .loop .send false
  | connection : Racy .conn .loop .connection false
  | waitDisconnect : Racy .conn .loop .waitDisconnect false
  | waitConnect : Racy .connectedChan .loop .waitConnect false

end Cp

namespace Ws

/-- The races of a connection: a `SendRequest` with another and with the reader, on both maps. -/
inductive Racy : Var → Op → Op → Bool → Prop where
  | sends : Racy .sentMessages .sendRequest .sendRequest true
  | reader : Racy .sentMessages .sendRequest .readMessage false
  | sends' : Racy .responsesOf .sendRequest .sendRequest true
  | select : Racy .responsesOf .sendRequest .sendRequest false
  | reader' : Racy .responsesOf .sendRequest .readMessage false

end Ws

namespace Log

/-- The races of the loggers: setting one with setting it and with using it. -/
inductive Racy : Var → Op → Op → Bool → Prop where
  | error : Racy .errorLog .setError .error false
  | setError : Racy .errorLog .setError .setError true
  | debug : Racy .debugLog .setDebug .debug false
  | setDebug : Racy .debugLog .setDebug .setDebug true

end Log
end Verif.Race
