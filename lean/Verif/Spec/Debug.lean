import Verif.Model.Debug
/-!
# Vocabulary for what the debug log tells

The lines that there should be for a text received, and for an attempt to write a text.
-/
namespace Verif.Debug
open Conn
variable {S : Sem}

/-- The lines about a received text: the text, and, if it is a message, the message. -/
def about (f : S.Frame) : List (Line S) :=
  match S.read f with
  | .ok m => [.raw f, .parsed m]
  | _ => [.raw f]

/-- Line about something received. -/
def Line.isIn : Line S → Bool
  | .raw _ => true
  | .parsed _ => true
  | _ => false

/-- The lines about what is received. -/
def inLines (ls : List (Line S)) : List (Line S) := ls.filter Line.isIn

/-- The lines about what is sent. -/
def outLines (ls : List (Line S)) : List (Line S) := ls.filter fun l => !l.isIn

/-- The lines about an attempt to write a text. -/
def block (x : S.Frame × Bool) : List (Line S) := if x.2 then [.sending x.1, .sent] else [.sending x.1]

/-- The step is an attempt to write a text: of a request, a refusal or a reply; a reply that cannot be encoded is none. -/
def Tries (e : Ev S) : Prop :=
  (∃ k id c ok, e = .refuse k id c ok) ∨ (∃ i w, e = .writeCall i w) ∨
  ∃ id resp err w, e = .answer id resp err w ∧ ∃ f, S.encReply id resp err = .ok f

/-- The text that the step tries to write, and whether it succeeds. -/
inductive Attempt (tr : List (Ev S)) : Ev S → S.Frame × Bool → Prop where
  | refusal {k id c ok} : Attempt tr (.refuse k id c ok) (S.encRefusal id c, ok)
  | reply {id resp err w f} : S.encReply id resp err = .ok f → (∀ g, w = some g → g = f) → Attempt tr (.answer id resp err w) (f, w.isSome)
  | call {i id q w f} : .send i id q ∈ tr → S.encCall id q = .ok f → (∀ g, w = some g → g = f) → Attempt tr (.writeCall i w) (f, w.isSome)

/-- The texts of the lines that are followed by a second line. -/
def confirmed : List (Line S) → List S.Frame
  | .sending f :: .sent :: ls => f :: confirmed ls
  | _ :: ls => confirmed ls
  | [] => []

/-- The texts of which the lines say that they were received. -/
def received (ls : List (Line S)) : List S.Frame := ls.filterMap fun
  | .raw f => some f
  | _ => none

end Verif.Debug
