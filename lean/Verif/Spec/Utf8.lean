import Verif.Model.Num
/-!
# Bytes and characters

What the bytes of a text are, and which text bytes stand for when they need not be UTF-8.  The encoding of a single character is Lean's
own, `String.utf8EncodeChar`.
-/
namespace Verif.Bytes

/-- The bytes of a text: UTF-8. -/
def utf8 (t : Text) : List UInt8 := t.flatMap String.utf8EncodeChar

/-- The text that bytes stand for in Go: from left to right, bytes that begin with the encoding of a character stand for it, and any other
byte for U+FFFD. -/
inductive Decodes : List UInt8 → Text → Prop
  | nil : Decodes [] []
  | char {c rest t} : Decodes rest t → Decodes (String.utf8EncodeChar c ++ rest) (c :: t)
  | bad {b rest t} : (∀ c u, b :: rest ≠ String.utf8EncodeChar c ++ u) → Decodes rest t →
      Decodes (b :: rest) (Char.ofNat 0xFFFD :: t)

end Verif.Bytes
