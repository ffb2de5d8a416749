import Verif.Model.Ocppj
import Verif.Spec.Conn
/-!
# A charge point and a central system

The two ends of one OCPP-J connection, each with its serving loop and its senders (`Verif.Model.Conn`),
and the two directions of the stream between them.

Simplifications.  The stream is reliable, as TCP is: frames arrive in the order in which they were
written, none is changed, duplicated or lost on the way, except that those not yet read may never be.
Each end lists the properties of an object in an order of its own (`o₁`, `o₂`).
-/
namespace Verif.Ocppj
open Conn Codec

/-- The stream towards an end, before and after an event there: a read takes the oldest frame. -/
inductive Consumes {S : Sem} : Ev S → List S.Frame → List S.Frame → Prop where
  | read {k f l} : Consumes (.read k f) (f :: l) l
  | other {e l} : (∀ k f, e ≠ .read k f) → Consumes e l l

/-- State of the system: the two ends (ws/conn.go:28-39 twice) and the frames under way, the oldest first. -/
structure Sys (F : FloatFmt) (o₁ o₂ : Order) where
  cp : St (ocppj F o₁ .cp)
  cs : St (ocppj F o₂ .cs)
  toCs : List Text
  toCp : List Text

/-- A new connection (ws/conn.go:41-54 at both ends). -/
def Sys.init (F : FloatFmt) (o₁ o₂ : Order) : Sys F o₁ o₂ := ⟨Conn.init _, Conn.init _, [], []⟩

/-- A step of one end: what it writes is under way, what it reads no longer (ws/conn.go:176, 273-278). -/
inductive Sys.Step {F : FloatFmt} {o₁ o₂ : Order} (x : Sys F o₁ o₂) : Ev (ocppj F o₁ .cp) ⊕ Ev (ocppj F o₂ .cs) → Sys F o₁ o₂ → Prop where
  | cp {e s' l} : Conn.Step .cp x.cp e s' → Consumes e x.toCp l →
      Sys.Step x (.inl e) { x with cp := s', toCp := l, toCs := x.toCs ++ Option.toList (α := Text) e.wrote }
  | cs {e s' l} : Conn.Step .cs x.cs e s' → Consumes e x.toCs l →
      Sys.Step x (.inr e) { x with cs := s', toCs := l, toCp := x.toCp ++ Option.toList (α := Text) e.wrote }

/-- Executions: any schedule of both ends. -/
inductive Sys.Exec {F : FloatFmt} {o₁ o₂ : Order} : List (Ev (ocppj F o₁ .cp) ⊕ Ev (ocppj F o₂ .cs)) → Sys F o₁ o₂ → Prop where
  | nil : Sys.Exec [] (Sys.init F o₁ o₂)
  | snoc {tr e x y} : Sys.Exec tr x → Sys.Step x e y → Sys.Exec (tr ++ [e]) y

/-- The events at the charge point. -/
def atCp {α β : Type} (tr : List (α ⊕ β)) : List α := tr.filterMap Sum.getLeft?

/-- The events at the central system. -/
def atCs {α β : Type} (tr : List (α ⊕ β)) : List β := tr.filterMap Sum.getRight?

end Verif.Ocppj
