import Verif.Model.Conn
/-!
# Vocabulary for statements about executions of a connection

Everything here is a projection of the *trace* (the observable events); nothing refers to the
internal state of the model.
-/
namespace Verif.Conn
variable {S : Sem}

/-- Texts read from the socket, in order. -/
def framesRead (tr : List (Ev S)) : List S.Frame :=
  tr.filterMap fun | .read _ f => some f | _ => none

/-- The request carried by a text, if it is a Call with a supported action and a decodable
payload. -/
def requestIn (f : S.Frame) : Option (String × S.Req) :=
  match S.read f with
  | .ok (some (.call id a p)) =>
    match S.toRequest a p with
    | .ok r => some (id, r)
    | .error _ => none
  | _ => none

/-- Requests taken over by the serving loop, in order. -/
def taken (tr : List (Ev S)) : List (String × S.Req) :=
  tr.filterMap fun | .take _ id r _ => some (id, r) | _ => none

/-- What the handler is to be called with for a request taken: the request itself if it has the right
direction; otherwise nothing at the central system, and nil at the charge point. -/
def handlerArg (side : Side) (x : String × S.Req) : Option (String × Option S.Req) :=
  if S.mine x.2 then some (x.1, some x.2)
  else match side with
    | .cs => none
    | .cp => some (x.1, none)

/-- Handler calls (message id and argument), in order. -/
def handlerCalls (tr : List (Ev S)) : List (String × Option S.Req) :=
  tr.filterMap fun | .take _ id _ (some a) => some (id, a) | _ => none

/-- Handler returns (message id, response, error), in order. -/
def handlerRets (tr : List (Ev S)) : List (String × Option S.Resp × Option String) :=
  tr.filterMap fun | .handlerRet id r e => some (id, r, e) | _ => none

/-- Handler calls (message ids) that ended in a panic, in order. -/
def handlerPanics (tr : List (Ev S)) : List String :=
  tr.filterMap fun | .handlerPanic id => some id | _ => none

/-- Replies attempted, in order. -/
def answers (tr : List (Ev S)) : List (String × Option S.Resp × Option String) :=
  tr.filterMap fun | .answer id r e _ => some (id, r, e) | _ => none

/-- Frames put on the wire by an event. -/
def Ev.wrote : Ev S → Option S.Frame
  | .refuse _ id c true => some (S.encRefusal id c)
  | .answer _ _ _ w => w
  | .writeCall _ w => w
  | _ => none

/-- The text `f`, received as answer to a call with this id and action, makes `Send` return `x`. -/
inductive AnswerTo (id action : String) (f : S.Frame) : Answer S → Prop where
  | resp {p r} : S.read f = .ok (some (.result id p)) → S.toResponse action p = .ok r →
      AnswerTo id action f (.resp r)
  | code {p c} : S.read f = .ok (some (.result id p)) → S.toResponse action p = .err c →
      AnswerTo id action f (.code c)
  | callErr {c d x} : S.read f = .ok (some (.error id c d x)) →
      AnswerTo id action f (.callErr c d x)

/-- Events with which the `i`-th `Send` that got past encoding returns. -/
def Ev.returns (i : Nat) : Ev S → Bool
  | .finish j _ => i == j
  | .timeout j => i == j
  | .writeCall j none => i == j
  | _ => false

/-- Reader `k` is reading or working on a frame (as opposed to being blocked on reporting its
result, or finished). -/
def Reader.active : Reader S → Bool
  | .offer _ => false
  | .gone => false
  | _ => true

/-- Event is a read by reader `k`. -/
def Ev.isRead (k : Nat) : Ev S → Bool
  | .read j _ => k == j
  | _ => false

/-- Event is a local close. -/
def Ev.isClose : Ev S → Bool
  | .close => true
  | .ctxDone => true
  | _ => false

/-- Event closes the connection: a local close, a failed read, or, at the central system, a panic of the handler or of
the encoding of its response (which `net/http` recovers, and after which the connection is cleaned up). -/
def Ev.Closes (side : Side) (e : Ev S) : Prop :=
  e.isClose = true ∨ (∃ k x, e = .readErr k x) ∨
  (side = .cs ∧ ((∃ id, e = .handlerPanic id) ∨ ∃ id resp err, e = .answer id resp err none ∧ (S.encReply id resp err).isPanic = true))

/-- The id of a Call that cannot be turned into a request, and the error code of the refusal. -/
def refusedIn (f : S.Frame) : Option (String × String) :=
  match S.read f with
  | .ok (some (.call id a p)) =>
    match S.toRequest a p with
    | .ok _ => none
    | .error c => some (id, c)
  | _ => none

/-- Refusals attempted (message id and error code), in order. -/
def refusals (tr : List (Ev S)) : List (String × String) :=
  tr.filterMap fun | .refuse _ id c _ => some (id, c) | _ => none

end Verif.Conn
