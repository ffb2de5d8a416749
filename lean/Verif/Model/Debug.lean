import Verif.Model.Conn
import Verif.Model.Ocppj
import Verif.Spec.Conn
/-!
# What a connection tells the debug logger

Models the calls of `log.Debug` in ws/conn.go (182, 188, 273, 278) and what they print (internal/log/log.go:17-19), at the granularity
of single calls: the connection is that of `Verif.Model.Conn`, but between its steps its goroutines print lines, and `sendMessage`
(conn.go:265-280) is no longer one step: it takes the lock, prints, writes, prints again and releases the lock.

Simplifications.  The logger is called at once and returns (one that blocks would block the connection with it).  Of the lines that
other functions print (cs.go:91, 96, 100, 120, 125, 169, json.go:40, soap/*) nothing is said here.  Encoding (conn.go:269-272) is part of
the step with which `sendMessage` begins to write.  A crash is the end of the process at once, as in `Verif.Model.Conn`.
-/
namespace Verif.Debug
open Conn

/-- The calls of `log.Debug` of a connection. -/
inductive Line (S : Sem) where
  /-- conn.go:182 -/
  | raw (f : S.Frame)
  /-- conn.go:188; `none` is the nil message -/
  | parsed (m : Option (Msg S.Pay))
  /-- conn.go:273 -/
  | sending (f : S.Frame)
  /-- conn.go:278 -/
  | sent

/-- The goroutines of a connection: the readers (conn.go:169), the serving loop, and the callers of `Send`. -/
inductive Who where
  | reader (k : Nat)
  | loop
  | sender (i : Nat)
  deriving DecidableEq

variable {S : Sem}

/-- The goroutines that take part in a step (the steps' comments in `Verif.Model.Conn` say where in the code). -/
def who : Ev S → List Who
  | .spawn _ => [.loop]
  | .read k _ => [.reader k]
  | .readErr k _ => [.reader k]
  | .dispatch k => [.reader k]
  | .refuse k _ _ _ => [.reader k]
  | .take k _ _ _ => [.loop, .reader k]
  | .handlerRet _ _ _ => [.loop]
  | .handlerPanic _ => [.loop]
  | .answer _ _ _ _ => [.loop]
  | .result k _ => [.loop, .reader k]
  | .seeClosed => [.loop]
  | .ctxDone => [.loop]
  | .close => []
  | .send i _ _ => [.sender i]
  | .regSent i => [.sender i]
  | .regChan i => [.sender i]
  | .writeCall i _ => [.sender i]
  | .deliver k i => [.reader k, .sender i]
  | .finish i _ => [.sender i]
  | .timeout i => [.sender i]

/-- The steps that are a call of `sendMessage` (conn.go:204, 263, 297). -/
def sends : Ev S → Bool
  | .refuse _ _ _ _ => true
  | .answer _ _ _ _ => true
  | .writeCall _ _ => true
  | _ => false

/-- The goroutine is about to write this text (conn.go:204, 263, 297). -/
inductive About (s : St S) : Who → S.Frame → Prop where
  | refusal {k id c} : s.readers[k]? = some (.refusing id c) → About s (.reader k) (S.encRefusal id c)
  | reply {id resp err f} : s.loop = .answering id resp err → S.encReply id resp err = .ok f → About s .loop f
  | call {i x f} : s.senders[i]? = some x → x.phase = .registered → x.frame = some f → About s (.sender i) f

/-- How many lines a reader prints about a text (conn.go:182-188). -/
def lines (f : S.Frame) : Nat :=
  match S.read f with
  | .ok _ => 2
  | _ => 1

/-- The connection (conn.go:28-39), how many lines each reader has printed, and who is inside `sendMessage` with which text, after its
first line: before the write (`false`) or after it. -/
structure DSt (S : Sem) where
  conn : St S
  told : Nat → Nat
  lock : Option (Who × S.Frame × Bool)

/-- A new connection (conn.go:41-54). -/
def dinit (S : Sem) : DSt S := ⟨init S, fun _ => 0, none⟩

/-- Steps of the connection, and lines printed by a goroutine. -/
inductive DEv (S : Sem) where
  | conn (e : Ev S)
  | line (w : Who) (l : Line S)

/-- Reader `k` has printed another line. -/
def DSt.tell (s : DSt S) (k : Nat) : DSt S := { s with told := fun j => if j = k then s.told k + 1 else s.told j }

/-- One step. -/
inductive DStep (side : Side) (s : DSt S) : DEv S → DSt S → Prop where
  /-- any step that is not in `sendMessage`, by goroutines that are not inside of it; a text is looked at (conn.go:190) when its lines
  have been printed -/
  | other {e c} : sends e = false → (∀ w ∈ who e, ∀ f b, s.lock ≠ some (w, f, b)) →
      (∀ k f, e = .dispatch k → s.conn.readers[k]? = some (.got f) → s.told k = lines f) →
      Step side s.conn e c → DStep side s (.conn e) { s with conn := c }
  /-- conn.go:182 -/
  | raw {k f} : s.conn.crashed = false → s.conn.readers[k]? = some (.got f) → s.told k = 0 →
      DStep side s (.line (.reader k) (.raw f)) (s.tell k)
  /-- conn.go:183-188 -/
  | parsed {k f m} : s.conn.crashed = false → s.conn.readers[k]? = some (.got f) → s.told k = 1 → S.read f = .ok m →
      DStep side s (.line (.reader k) (.parsed m)) (s.tell k)
  /-- conn.go:266-273: the lock is taken, the message encoded, and the first line printed -/
  | sending {w f} : s.conn.crashed = false → s.lock = none → About s.conn w f →
      DStep side s (.line w (.sending f)) { s with lock := some (w, f, false) }
  /-- conn.go:270-272: a reply that cannot be encoded; nothing is printed -/
  | unencoded {id resp err c} : s.lock = none → (∀ f, S.encReply id resp err ≠ .ok f) →
      Step side s.conn (.answer id resp err none) c → DStep side s (.conn (.answer id resp err none)) { s with conn := c }
  /-- conn.go:274: the text is written -/
  | wrote {w f e c} : s.lock = some (w, f, false) → sends e = true → who e = [w] → e.wrote = some f →
      Step side s.conn e c → DStep side s (.conn e) { s with conn := c, lock := some (w, f, true) }
  /-- conn.go:275-277: it cannot be written, and the lock is released -/
  | failed {w f e c} : s.lock = some (w, f, false) → sends e = true → who e = [w] → e.wrote = none →
      Step side s.conn e c → DStep side s (.conn e) { s with conn := c, lock := none }
  /-- conn.go:278-279: the second line, and the lock is released -/
  | sent {w f} : s.conn.crashed = false → s.lock = some (w, f, true) →
      DStep side s (.line w .sent) { s with lock := none }

/-- Any finite schedule, from the creation of the connection. -/
inductive DExec (side : Side) : List (DEv S) → DSt S → Prop where
  | nil : DExec side [] (dinit S)
  | snoc {tr e s s'} : DExec side tr s → DStep side s e s' → DExec side (tr ++ [e]) s'

/-- The steps of the connection. -/
def conns (tr : List (DEv S)) : List (Ev S) := tr.filterMap fun
  | .conn e => some e
  | _ => none

/-- The lines, in the order in which they are printed. -/
def printed (tr : List (DEv S)) : List (Line S) := tr.filterMap fun
  | .line _ l => some l
  | _ => none

/-! ### The text of a line -/

open Ocppj Codec

/-- How `fmt` prints the map of a payload for the verbs `%v` and `%s`: anything. -/
structure MapFmt where
  v : Payload → Text
  s : Payload → Text

/-- `fmt.Sprintf("%v", msg)` for a message (ws/message.go:28-32, 51-54, 103-112): a pointer to a struct is printed as its fields in `&{}`,
except that a `*CallErrorMessage` has a method `Error`, which is used. -/
def msgText (M : MapFmt) : Option (Msg Payload) → Text
  | none => "<nil>".toList
  | some (.call id a p) => "&{".toList ++ id.toList ++ ' ' :: a.toList ++ ' ' :: M.v p ++ ['}']
  | some (.result id p) => "&{".toList ++ id.toList ++ ' ' :: M.v p ++ ['}']
  | some (.error _ c d x) => '[' :: c.toList ++ "] ".toList ++ d.toList ++ ": ".toList ++ M.s x

/-- What `Printf` prints for the line (log.go:18): a string is printed for `%v` as it is.  (At conn.go:182 the text has been
normalised.) -/
def Line.text {F : FloatFmt} {o : Order} {side : Side} (M : MapFmt) : Line (ocppj F o side) → Text
  | .raw f => "Received a message, raw: ".toList ++ normalise f
  | .parsed m => "Received a message, parsed: ".toList ++ msgText M m
  | .sending f => "Sending message [raw]: ".toList ++ (show Text from f)
  | .sent => "Sent message!".toList

/-- The file that a logger like that of the standard library writes: every call on a line. -/
def fileOf {F : FloatFmt} {o : Order} {side : Side} (M : MapFmt) (ls : List (Line (ocppj F o side))) : Text :=
  ls.flatMap fun l => l.text M ++ ['\n']

end Verif.Debug
