import Verif.Spec.Json
/-!
# encoding/json: scanning, compacting, string quoting

Executable model of the parts of Go's encoding/json used by /repo: the scanner/parser behind
`json.Unmarshal` (ws/conn.go:118, 225, 250; ws/message.go:147; every UnmarshalJSON in
messages/v1x/*/json_encode.go), `compact` (applied by `json.Marshal` to the output of every
MarshalJSON) and the string encoder.

Simplifications: the nesting limit of 10000 (decode.go `maxNestingDepth`) is not modelled.
-/
namespace Verif.Json

/-- Skip white space (scanner.go `isSpace`). -/
def skipWs : Text → Text
  | [] => []
  | c :: t => if wsChar c then skipWs t else c :: t

/-- The digit a character stands for. -/
def charDigit (c : Char) : Option (Fin 10) :=
  if h : 48 ≤ c.toNat ∧ c.toNat < 58 then some ⟨c.toNat - 48, by omega⟩ else none

/-- The longest prefix of digits. -/
def takeDigits : Text → List (Fin 10) × Text
  | [] => ([], [])
  | c :: t =>
    match charDigit c with
    | some d => let r := takeDigits t; (d :: r.1, r.2)
    | none => ([], c :: t)

/-- Fraction part: `.` and at least one digit; absent otherwise.  `none` is a syntax error. -/
def parseFrac : Text → Option (Option (List (Fin 10)) × Text)
  | '.' :: t =>
    match takeDigits t with
    | ([], _) => none
    | (ds, u) => some (some ds, u)
  | t => some (none, t)

/-- Digits of an exponent. -/
def parseExpDigits (up : Bool) (s : Option Bool) (t : Text) :
    Option (Option (Bool × Option Bool × List (Fin 10)) × Text) :=
  match takeDigits t with
  | ([], _) => none
  | (ds, u) => some (some (up, s, ds), u)

/-- Exponent part after its letter: optional sign, digits. -/
def parseExpSign (up : Bool) : Text → Option (Option (Bool × Option Bool × List (Fin 10)) × Text)
  | '-' :: t => parseExpDigits up (some true) t
  | '+' :: t => parseExpDigits up (some false) t
  | t => parseExpDigits up none t

/-- Exponent part; absent unless the text goes on with `e` or `E`. -/
def parseExp : Text → Option (Option (Bool × Option Bool × List (Fin 10)) × Text)
  | 'e' :: t => parseExpSign false t
  | 'E' :: t => parseExpSign true t
  | t => some (none, t)

/-- Integer part: a single `0`, or digits not starting with `0`. -/
def parseInt (t : Text) : Option (List (Fin 10) × Text) :=
  match t with
  | '0' :: u => some ([0], u)
  | _ =>
    match takeDigits t with
    | ([], _) => none
    | (ds, u) => some (ds, u)

/-- The optional minus sign. -/
def parseNeg : Text → Bool × Text
  | '-' :: t => (true, t)
  | t => (false, t)

/-- A number literal (scanner.go stateNeg .. stateE0). -/
def parseNum (t : Text) : Option (RawNum × Text) :=
  let (neg, t₁) := parseNeg t
  match parseInt t₁ with
  | none => none
  | some (int, t₂) =>
    match parseFrac t₂ with
    | none => none
    | some (frac, t₃) =>
      match parseExp t₃ with
      | none => none
      | some (exp, t₄) => some (⟨neg, int, frac, exp⟩, t₄)

/-- The rest of a string, up to and including the closing quote (scanner.go stateInString ff.,
decode.go `unquoteBytes`). -/
def parseStr : Text → Option (List StrItem × Text)
  | [] => none
  | c :: t =>
    if c = '"' then some ([], t)
    else if c = '\\' then
      match t with
      | [] => none
      | e :: t' =>
        if e = 'u' then
          match t' with
          | a :: b :: c' :: d :: t'' =>
            match hex4 a b c' d, parseStr t'' with
            | some n, some (is, u) => some (unitItem n :: is, u)
            | _, _ => none
          | _ => none
        else
          match simpleEsc e, parseStr t' with
          | some c', some (is, u) => some (.char c' :: is, u)
          | _, _ => none
    else if c.toNat < 0x20 then none
    else
      match parseStr t with
      | some (is, u) => some (.char c :: is, u)
      | none => none

mutual
/-- A value at the start of the text; returns what follows it.  The first argument bounds the number
of nested calls. -/
def parseValue : Nat → Text → Option (JVal × Text)
  | 0, _ => none
  | n + 1, t =>
    match t with
    | 'n' :: 'u' :: 'l' :: 'l' :: u => some (.null, u)
    | 't' :: 'r' :: 'u' :: 'e' :: u => some (.bool true, u)
    | 'f' :: 'a' :: 'l' :: 's' :: 'e' :: u => some (.bool false, u)
    | '"' :: u =>
      match parseStr u with
      | some (is, r) => some (.str (joinItems is), r)
      | none => none
    | '[' :: u =>
      match skipWs u with
      | ']' :: r => some (.arr [], r)
      | _ =>
        match parseElems n u with
        | some (vs, r) => some (.arr vs, r)
        | none => none
    | '{' :: u =>
      match skipWs u with
      | '}' :: r => some (.obj [], r)
      | _ =>
        match parseMembers n u with
        | some (ms, r) => some (.obj ms, r)
        | none => none
    | t =>
      match parseNum t with
      | some (r, u) => some (.num r.lit, u)
      | none => none
/-- Elements of an array up to and including the closing bracket. -/
def parseElems : Nat → Text → Option (List JVal × Text)
  | 0, _ => none
  | n + 1, t =>
    match parseValue n (skipWs t) with
    | none => none
    | some (v, u) =>
      match skipWs u with
      | ']' :: r => some ([v], r)
      | ',' :: r =>
        match parseElems n r with
        | some (vs, r') => some (v :: vs, r')
        | none => none
      | _ => none
/-- Members of an object up to and including the closing brace. -/
def parseMembers : Nat → Text → Option (List (Text × JVal) × Text)
  | 0, _ => none
  | n + 1, t =>
    match skipWs t with
    | '"' :: t₁ =>
      match parseStr t₁ with
      | none => none
      | some (is, t₂) =>
        match skipWs t₂ with
        | ':' :: t₃ =>
          match parseValue n (skipWs t₃) with
          | none => none
          | some (v, u) =>
            match skipWs u with
            | '}' :: r => some ([(joinItems is, v)], r)
            | ',' :: r =>
              match parseMembers n r with
              | some (ms, r') => some ((joinItems is, v) :: ms, r')
              | none => none
            | _ => none
        | _ => none
    | _ => none
end

/-- The whole text as one value with white space around it: what `json.Unmarshal` sees
(decode.go `checkValid` + `value`); `none` is a SyntaxError. -/
def parse (t : Text) : Option JVal :=
  match parseValue (t.length + 1) (skipWs t) with
  | some (v, u) => if skipWs u = [] then some v else none
  | none => none

/-! ### Output -/

/-- Lower-case hexadecimal digit (encode.go `hex`). -/
def hexDigit (n : Nat) : Char := if n < 10 then Char.ofNat (48 + n) else Char.ofNat (87 + n)

/-- `\u` escape of a code below 0x10000. -/
def uEsc (n : Nat) : Text :=
  ['\\', 'u', hexDigit (n / 4096 % 16), hexDigit (n / 256 % 16), hexDigit (n / 16 % 16), hexDigit (n % 16)]

/-- Escaping of one character by encoding/json's string encoder with escapeHTML on
(encode.go `appendString`).  (Go 1.22 writes `\b` and `\f` for two of the control characters where
older versions write `\u0008`, `\u000c`; the older form is used here.) -/
def escChar (c : Char) : Text :=
  if c = '"' ∨ c = '\\' then ['\\', c]
  else if c = '\n' then ['\\', 'n']
  else if c = '\r' then ['\\', 'r']
  else if c = '\t' then ['\\', 't']
  else if c.toNat < 0x20 ∨ c = '<' ∨ c = '>' ∨ c = '&' ∨ c.toNat = 0x2028 ∨ c.toNat = 0x2029 then uEsc c.toNat
  else [c]

/-- A string literal: `json.Marshal` of a Go string. -/
def quote (s : Text) : Text := '"' :: (s.flatMap escChar ++ ['"'])

/-- Decimal digits of a number, most significant first. -/
def natDigits (n : Nat) : List (Fin 10) :=
  if h : n < 10 then [⟨n, h⟩] else natDigits (n / 10) ++ [⟨n % 10, Nat.mod_lt _ (by decide)⟩]

/-- The text of a number literal in the canonical spelling. -/
def rawOfLit (l : NumLit) : RawNum where
  neg := l.neg
  int := natDigits l.ip
  frac := if l.frac = [] then none else some l.frac
  exp := l.exp.map fun e => (false, some (decide (e < 0)), natDigits e.natAbs)

/-- `encoding/json`'s `compact` with escapeHTML (indent.go): drops white space outside strings and
escapes `<`, `>`, `&`, U+2028 and U+2029 (which occur only inside strings).  `inStr` is "inside a
string", `esc` "just after a backslash". -/
def compactGo (inStr esc : Bool) : Text → Text
  | [] => []
  | c :: t =>
    let out := if c = '<' ∨ c = '>' ∨ c = '&' ∨ c.toNat = 0x2028 ∨ c.toNat = 0x2029 then uEsc c.toNat else [c]
    if inStr then
      if esc then out ++ compactGo true false t
      else if c = '\\' then out ++ compactGo true true t
      else if c = '"' then out ++ compactGo false false t
      else out ++ compactGo true false t
    else if c = '"' then out ++ compactGo true false t
    else if wsChar c then compactGo false false t
    else out ++ compactGo false false t

/-- `compact`: an error if the text is not one valid JSON value. -/
def compact (t : Text) : Option Text :=
  match parse t with
  | some _ => some (compactGo false false t)
  | none => none

end Verif.Json
