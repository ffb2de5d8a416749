import Verif.Model.Go
/-!
# What the error logger prints

Models `log.Error` (internal/log/log.go:20-22) and the texts it is called with: cs/cs.go:104, 144, 153, 181, cp/json.go:46, 57, 62,
cp/soap.go:43, soap/server.go:35.

`Error` formats its arguments with `fmt.Errorf` and passes the result to the logger's `Printf` as the *format*, so that it is
formatted again.  The logger is one whose `Printf` prints what `fmt.Sprintf` makes of its arguments, as that of the standard
library's `log.Logger` (what that adds before and after the text is left out).  `fmt` is the Go standard library's `doPrintf`
(fmt/print.go) for a format without arguments; texts are UTF-8.
-/
namespace Verif.Log

/-- fmt `parsenum`: whether there is a number, and what follows it; if a number beyond a million goes on, the rest is
skipped. -/
def number (n : Nat) (found : Bool) : Text → Bool × Text
  | [] => (found, [])
  | c :: cs =>
    if '0' ≤ c ∧ c ≤ '9' then
      if 1000000 < n then (false, []) else number (10 * n + (c.toNat - '0'.toNat)) true cs
    else (found, c :: cs)

/-- fmt `argNumber` and `parseArgNumber` without arguments: an argument index like `[3]` is always bad.  `good`: no bad index
so far.  Results: whether still none, whether an index was found, and what follows. -/
def argIndex (good : Bool) (t : Text) : Bool × Bool × Text :=
  match t with
  | '[' :: cs =>
    match cs.dropWhile (· ≠ ']') with
    | [] => (false, false, cs)
    | _ :: rest =>
      if cs.length < 2 then (false, false, cs)
      else (false, decide (number 0 false (cs.takeWhile (· ≠ ']')) = (true, [])), rest)
  | _ => (good, false, t)

/-- The flags `#0+- `. -/
def isFlag (c : Char) : Bool := c = '#' || c = '0' || c = '+' || c = '-' || c = ' '

/-- The width of a directive: what is printed for it, whether the directive stands directly after an index, and what follows. -/
def width (after : Bool) (t : Text) : Text × Bool × Text :=
  match t with
  | '*' :: r => ("%!(BADWIDTH)".toList, false, r)
  | _ => ([], after, (number 0 false t).2)

/-- The precision of a directive, likewise. -/
def precision (good after : Bool) (t : Text) : Text × Bool × Bool × Text :=
  match t with
  | '.' :: r =>
    match (argIndex good r).2.2 with
    | '*' :: r' => ("%!(BADPREC)".toList, (argIndex good r).1, false, r')
    | r' => ([], (argIndex good r).1, (argIndex good r).2.1, (number 0 false r').2)
  | _ => ([], good, after, t)

/-- The verb: what is printed for it, and what follows. -/
def verb (good : Bool) (t : Text) : Text × Text :=
  match t with
  | [] => ("%!(NOVERB)".toList, [])
  | '%' :: r => (['%'], r)
  | v :: r => ("%!".toList ++ v :: (if good then "(MISSING)" else "(BADINDEX)").toList, r)

/-- What is printed for the directive that begins before `t` with a percent sign, and what follows it (one turn of the loop in
`doPrintf`). -/
def directive (t : Text) : Text × Text :=
  let i := argIndex true (t.dropWhile isFlag)
  let w := width i.2.1 i.2.2
  let p := precision i.1 w.2.1 w.2.2
  let j := if p.2.2.1 then (p.2.1, true, p.2.2.2) else argIndex p.2.1 p.2.2.2
  let v := verb j.1 j.2.2
  (w.1 ++ p.1 ++ v.1, v.2)

/-- `fmt.Sprintf(t)`: `fuel` bounds the number of steps, the length of the text is enough. -/
def sprintfGo : Nat → Text → Text
  | _, [] => []
  | 0, _ => []
  | n + 1, c :: cs =>
    if c = '%' then (directive cs).1 ++ sprintfGo n (directive cs).2 else c :: sprintfGo n cs

/-- `fmt.Sprintf(t)` without arguments. -/
def sprintf (t : Text) : Text := sprintfGo t.length t

/-- A call of `log.Error`. -/
inductive Call where
  /-- `log.Error(err.Error())`: cs.go:144, 153, json.go:57, 62 -/
  | plain (err : Text)
  /-- `log.Error("… %w", err)`, the text before the `%w` (which contains no other percent sign) and the error: cs.go:104, 181,
  json.go:46, cp/soap.go:43, server.go:35 -/
  | wrapped (intro err : Text)

/-- `fmt.Errorf(format, v...).Error()` (log.go:21). -/
def Call.format : Call → Text
  | .plain e => sprintf e
  | .wrapped i e => i ++ e

/-- What the call says: the text of the error with what stands before it. -/
def Call.says : Call → Text
  | .plain e => e
  | .wrapped i e => i ++ e

/-- `log.Error` (log.go:20-22): what the logger prints. -/
def Call.printed (c : Call) : Text := sprintf c.format

end Verif.Log
