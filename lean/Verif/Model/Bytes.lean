import Verif.Model.Ocppj
/-!
# Texts as bytes

Go's strings and the contents of websocket messages are bytes, not characters, and need not be UTF-8 (gorilla/websocket does not check
text messages; ws/conn.go:176 takes any kind of message).  Elsewhere in the model a text is a list of characters.  Here is the byte
level: `unicode/utf8`, the parts of encoding/json and bytes that /repo applies to received and sent bytes.

A byte is written as the character with its number (0 to 255); `Raw` is a text of such characters.
-/
namespace Verif.Bytes
open Json Ocppj

/-- A list of bytes, each as the character with its number. -/
abbrev Raw := Text

/-- The bytes as such. -/
def raw (b : List UInt8) : Raw := b.map fun x => Char.ofNat x.toNat

/-- `utf8.RuneError`. -/
def runeError : Char := Char.ofNat 0xFFFD

/-- Is the byte in this range? -/
def within (lo hi : Nat) (c : Char) : Bool := lo ≤ c.toNat && c.toNat ≤ hi

/-- The second bytes accepted after a first byte (`acceptRanges`). -/
def second (c c1 : Char) : Bool :=
  within (if c.toNat = 0xE0 then 0xA0 else if c.toNat = 0xF0 then 0x90 else 0x80)
    (if c.toNat = 0xED then 0x9F else if c.toNat = 0xF4 then 0x8F else 0xBF) c1

/-- `utf8.DecodeRune` (unicode/utf8/utf8.go, tables `first` and `acceptRanges`): the first rune of the bytes `c :: t` and the bytes after
it.  An invalid encoding is `RuneError` and one byte long. -/
def decodeRune (c : Char) (t : Raw) : Char × Raw :=
  if c.toNat < 0x80 then (c, t)
  else if within 0xC2 0xDF c then
    match t with
    | c1 :: u =>
      if within 0x80 0xBF c1 then (Char.ofNat (c.toNat % 32 * 64 + c1.toNat % 64), u) else (runeError, t)
    | [] => (runeError, t)
  else if within 0xE0 0xEF c then
    match t with
    | c1 :: c2 :: u =>
      if second c c1 && within 0x80 0xBF c2 then
        (Char.ofNat (c.toNat % 16 * 4096 + c1.toNat % 64 * 64 + c2.toNat % 64), u)
      else (runeError, t)
    | _ => (runeError, t)
  else if within 0xF0 0xF4 c then
    match t with
    | c1 :: c2 :: c3 :: u =>
      if second c c1 && within 0x80 0xBF c2 && within 0x80 0xBF c3 then
        (Char.ofNat (c.toNat % 8 * 262144 + c1.toNat % 64 * 4096 + c2.toNat % 64 * 64 + c3.toNat % 64), u)
      else (runeError, t)
    | _ => (runeError, t)
  else (runeError, t)

theorem decodeRune_length (c : Char) (t : Raw) : (decodeRune c t).2.length ≤ t.length := by
  unfold decodeRune
  repeat' split
  all_goals simp
  all_goals omega

/-! ### Receiving -/

/-- The rest of a string literal, up to and including the closing quote: scanner.go `stateInString` ff. accept any byte from 0x20 on,
decode.go `unquoteBytes` decodes the bytes from 0x80 on as runes, replacing invalid ones. -/
def parseStr : Raw → Option (List StrItem × Raw)
  | [] => none
  | c :: t =>
    if c = '"' then some ([], t)
    else if c = '\\' then
      match t with
      | [] => none
      | e :: t' =>
        if e = 'u' then
          match t' with
          | a :: b :: c' :: d :: t'' =>
            match hex4 a b c' d, parseStr t'' with
            | some n, some (is, u) => some (unitItem n :: is, u)
            | _, _ => none
          | _ => none
        else
          match simpleEsc e, parseStr t' with
          | some c', some (is, u) => some (.char c' :: is, u)
          | _, _ => none
    else if c.toNat < 0x20 then none
    else
      match parseStr (decodeRune c t).2 with
      | some (is, u) => some (.char (decodeRune c t).1 :: is, u)
      | none => none
termination_by t => t.length
decreasing_by
  all_goals simp
  all_goals first | omega | (have := decodeRune_length c t; omega)

mutual
/-- A value at the start of the bytes; as `Json.parseValue`, but on bytes.  White space, punctuation, numbers and names are ASCII, so
that these bytes are compared as they are. -/
def parseValue : Nat → Raw → Option (JVal × Raw)
  | 0, _ => none
  | n + 1, t =>
    match t with
    | 'n' :: 'u' :: 'l' :: 'l' :: u => some (.null, u)
    | 't' :: 'r' :: 'u' :: 'e' :: u => some (.bool true, u)
    | 'f' :: 'a' :: 'l' :: 's' :: 'e' :: u => some (.bool false, u)
    | '"' :: u =>
      match parseStr u with
      | some (is, r) => some (.str (joinItems is), r)
      | none => none
    | '[' :: u =>
      match skipWs u with
      | ']' :: r => some (.arr [], r)
      | _ =>
        match parseElems n u with
        | some (vs, r) => some (.arr vs, r)
        | none => none
    | '{' :: u =>
      match skipWs u with
      | '}' :: r => some (.obj [], r)
      | _ =>
        match parseMembers n u with
        | some (ms, r) => some (.obj ms, r)
        | none => none
    | t =>
      match parseNum t with
      | some (r, u) => some (.num r.lit, u)
      | none => none
/-- Elements of an array up to and including the closing bracket. -/
def parseElems : Nat → Raw → Option (List JVal × Raw)
  | 0, _ => none
  | n + 1, t =>
    match parseValue n (skipWs t) with
    | none => none
    | some (v, u) =>
      match skipWs u with
      | ']' :: r => some ([v], r)
      | ',' :: r =>
        match parseElems n r with
        | some (vs, r') => some (v :: vs, r')
        | none => none
      | _ => none
/-- Members of an object up to and including the closing brace. -/
def parseMembers : Nat → Raw → Option (List (Text × JVal) × Raw)
  | 0, _ => none
  | n + 1, t =>
    match skipWs t with
    | '"' :: t₁ =>
      match parseStr t₁ with
      | none => none
      | some (is, t₂) =>
        match skipWs t₂ with
        | ':' :: t₃ =>
          match parseValue n (skipWs t₃) with
          | none => none
          | some (v, u) =>
            match skipWs u with
            | '}' :: r => some ([(joinItems is, v)], r)
            | ',' :: r =>
              match parseMembers n r with
              | some (ms, r') => some ((joinItems is, v) :: ms, r')
              | none => none
            | _ => none
        | _ => none
    | _ => none
end

/-- What `json.Unmarshal` sees in the bytes; `none` is a SyntaxError. -/
def parse (t : Raw) : Option JVal :=
  match parseValue (t.length + 1) (skipWs t) with
  | some (v, u) => if skipWs u = [] then some v else none
  | none => none

/-- `utf8.RuneStart`: not a continuation byte. -/
def runeStart (c : Char) : Bool := !within 0x80 0xBF c

/-- The single rune that these bytes are, if they are one. -/
def whole : Raw → Option Char
  | [] => none
  | c :: t => if (decodeRune c t).2 = [] then some (decodeRune c t).1 else none

/-- `utf8.DecodeLastRune` (unicode/utf8/utf8.go) on the reversed bytes `c :: r`: the rune and the reversed bytes before it.  The start is
looked for up to four bytes from the end; if the rune found there does not reach the end, the last byte is a `RuneError`. -/
def lastRune (c : Char) (r : Raw) : Char × Raw :=
  if c.toNat < 0x80 then (c, r)
  else
    match r with
    | [] => ((whole [c]).getD runeError, r)
    | d :: r2 =>
      if runeStart d then
        match whole [d, c] with
        | some x => (x, r2)
        | none => (runeError, r)
      else
        match r2 with
        | [] => (runeError, r)
        | e :: r3 =>
          if runeStart e then
            match whole [e, d, c] with
            | some x => (x, r3)
            | none => (runeError, r)
          else
            match r3 with
            | [] => (runeError, r)
            | f :: r4 =>
              if runeStart f then
                match whole [f, e, d, c] with
                | some x => (x, r4)
                | none => (runeError, r)
              else (runeError, r)

theorem lastRune_length (c : Char) (r : Raw) : (lastRune c r).2.length ≤ r.length := by
  unfold lastRune
  repeat' split
  all_goals simp
  all_goals omega

/-- Left half of `bytes.TrimSpace` (bytes.go `indexFunc` over the runes). -/
def trimLeft : Raw → Raw
  | [] => []
  | c :: t => if isSpace (decodeRune c t).1 then trimLeft (decodeRune c t).2 else c :: t
termination_by t => t.length
decreasing_by
  have := decodeRune_length c t
  simp
  omega

/-- Right half of `bytes.TrimSpace` (`lastIndexFunc`), on the reversed bytes. -/
def trimRightRev : Raw → Raw
  | [] => []
  | c :: r => if isSpace (lastRune c r).1 then trimRightRev (lastRune c r).2 else c :: r
termination_by t => t.length
decreasing_by
  have := lastRune_length c r
  simp
  omega

/-- ws/conn.go:181 `bytes.TrimSpace(bytes.Replace(messageBytes, newline, space, -1))`. -/
def normalise (t : Raw) : Raw := (trimRightRev (trimLeft (t.map fun c => if c = '\n' then ' ' else c)).reverse).reverse

/-- ws/conn.go:116-162 `UnmarshalMessage`, on bytes. -/
def unmarshalMessage (t : Raw) : GoRes (Option (Msg Payload)) :=
  match parse t with
  | none => .err "on unmarshalling websocket message"
  | some .null => readFrame []
  | some (.arr vs) =>
    match toAnys vs with
    | some frame => readFrame frame
    | none => .err "on unmarshalling websocket message"
  | some _ => .err "on unmarshalling websocket message"

/-- ws/conn.go:181-183: the message in these bytes. -/
def receive (b : List UInt8) : GoRes (Option (Msg Payload)) := unmarshalMessage (normalise (raw b))

/-! ### Sending -/

/-- The escapes of ASCII characters in encoding/json's string encoder (encode.go `htmlSafeSet` and the switch before it). -/
def escAscii (c : Char) : Raw :=
  if c = '"' ∨ c = '\\' then ['\\', c]
  else if c = '\n' then ['\\', 'n']
  else if c = '\r' then ['\\', 'r']
  else if c = '\t' then ['\\', 't']
  else if c.toNat < 0x20 ∨ c = '<' ∨ c = '>' ∨ c = '&' then uEsc c.toNat
  else [c]

/-- encode.go `encodeState.string` without the quotes: ASCII is escaped byte by byte; a rune that is no valid encoding is written as
`\ufffd`, U+2028 and U+2029 as escapes, other runes as the bytes they are. -/
def escBytes : Raw → Raw
  | [] => []
  | c :: t =>
    if c.toNat < 0x80 then escAscii c ++ escBytes t
    else
      let d := decodeRune c t
      (if d.1 = runeError ∧ d.2.length = t.length then uEsc 0xFFFD
       else if d.1.toNat = 0x2028 ∨ d.1.toNat = 0x2029 then uEsc d.1.toNat
       else c :: t.take (t.length - d.2.length)) ++ escBytes d.2
termination_by t => t.length
decreasing_by
  all_goals have := decodeRune_length c t
  all_goals simp
  all_goals omega

/-- `json.Marshal` of a Go string with these bytes. -/
def quote (s : List UInt8) : Raw := '"' :: (escBytes (raw s) ++ ['"'])

/-- indent.go: `c == 0xE2 && src[i+1] == 0x80 && src[i+2]&^1 == 0xA8`, the code it stands for and the bytes after it. -/
def lineSep (c : Char) (t : Raw) : Option (Nat × Raw) :=
  match t with
  | c1 :: c2 :: u =>
    if c.toNat = 0xE2 ∧ c1.toNat = 0x80 ∧ (c2.toNat = 0xA8 ∨ c2.toNat = 0xA9) then some (0x2020 + c2.toNat % 16, u) else none
  | _ => none

theorem lineSep_length {c : Char} {t : Raw} {p : Nat × Raw} (h : lineSep c t = some p) : p.2.length < t.length := by
  unfold lineSep at h
  split at h
  · split at h
    · cases h; simp; omega
    · cases h
  · cases h

/-- `compact` (encoding/json/indent.go) with escaping, on the bytes of a valid JSON text: as `Json.compactGo`, but U+2028 and U+2029 are
looked for as the bytes E2 80 A8 and E2 80 A9. -/
def compact (inStr esc : Bool) : Raw → Raw
  | [] => []
  | c :: t =>
    match h : lineSep c t with
    | some (n, u) => uEsc n ++ compact inStr false u
    | none =>
      let out := if c = '<' ∨ c = '>' ∨ c = '&' then uEsc c.toNat else [c]
      if inStr then
        if esc then out ++ compact true false t
        else if c = '\\' then out ++ compact true true t
        else if c = '"' then out ++ compact false false t
        else out ++ compact true false t
      else if c = '"' then out ++ compact true false t
      else if wsChar c then compact false false t
      else out ++ compact false false t
termination_by t => t.length
decreasing_by
  all_goals simp
  all_goals first | omega | (have := lineSep_length h; simp at this; omega)

end Verif.Bytes
