import Verif.Lemmas.Bytes4
/-!
# C97: messages as bytes

The rest of the model treats a message as a text.  What arrives are bytes, and nothing on the way checks that they are UTF-8; what is
sent are Go strings, which need not be UTF-8 either.  Whatever the bytes are, they are read as the text they stand for (`Decodes`), and a
string that is sent is read as the text it stands for.
-/
namespace Verif.Bytes
open Json Ocppj

/-- Any bytes stand for exactly one text, and the bytes of a text for that text. -/
theorem C97_decodes (b : List UInt8) : ∃ t, Decodes b t ∧ ∀ t', Decodes b t' → t' = t :=
  ⟨lossy (raw b), (decodes_iff b _).2 rfl, fun _ h => ((decodes_iff b _).1 h).symm⟩

/-- The bytes of a text stand for it, and are the only ones that do so without U+FFFD. -/
theorem C97_utf8 (t : Text) : Decodes (utf8 t) t ∧ (Char.ofNat 0xFFFD ∉ t → ∀ b, Decodes b t → b = utf8 t) := by
  refine ⟨decodes_utf8 t, fun ht b h => ?_⟩
  induction h with
  | nil => rfl
  | @char c rest t _ ih => rw [ih (fun h => ht (List.mem_cons_of_mem _ h))]; rfl
  | @bad c rest t _ _ _ => exact (ht (List.mem_cons_self ..)).elim

/-- A message is read from its bytes as it is read from the text they stand for. -/
theorem C97_receive (F : FloatFmt) (o : Codec.Order) (side : Side) (b : List UInt8) (t : Text) (h : Decodes b t) :
    receive b = (ocppj F o side).read t := receive_decodes h

/-- In particular, a message that is not UTF-8 is read as the UTF-8 message in which each byte that belongs to no character is U+FFFD. -/
theorem C97_lenient (b : List UInt8) (t : Text) (h : Decodes b t) : receive b = receive (utf8 t) :=
  (receive_decodes h).trans (receive_decodes (decodes_utf8 t)).symm

/-- A Go string, whatever its bytes, is sent as UTF-8 and as a JSON string of the text the bytes stand for. -/
theorem C97_string (s : List UInt8) (t : Text) (h : Decodes s t) :
    (∃ w, quote s = raw (utf8 w) ∧ Str t w) ∧ parse (quote s) = some (.str t) := ⟨quote_text s t h, parse_quote s t h⟩

/-- A string that is UTF-8 is written, and a JSON text compacted, byte by byte as they are character by character in the rest of the
model. -/
theorem C97_writing (t : Text) : quote (utf8 t) = raw (utf8 (Json.quote t)) ∧
    ∀ i e, compact i e (raw (utf8 t)) = raw (utf8 (compactGo i e t)) := ⟨quote_utf8 t, compact_ru t⟩

/-! ### Cases -/

/-- `[2,"<FF>","Heartbeat",{}]`: the id is U+FFFD. -/
def badId (x : UInt8) : List UInt8 := utf8 ['[', '2', ',', '"'] ++ x :: utf8 "\",\"Heartbeat\",{}]".toList

theorem decodes_append {b u : List UInt8} {s t : Text} (h : Decodes u t) (hb : b = utf8 s) : Decodes (b ++ u) (s ++ t) := by
  subst hb
  induction s with
  | nil => exact h
  | cons c s ih =>
    have := Decodes.char (c := c) ih
    rw [← List.append_assoc] at this
    exact this

theorem bad_ff {b : UInt8} (hb : 0xF8 ≤ b.toNat) {rest : List UInt8} {t : Text} (h : Decodes rest t) :
    Decodes (b :: rest) (Char.ofNat 0xFFFD :: t) := by
  refine .bad (fun c u hc => ?_) h
  have h1 := congrArg raw hc
  rw [raw_append] at h1
  obtain ⟨a, r, ha, hs⟩ : ∃ a r, raw (String.utf8EncodeChar c) = a :: r ∧ a.toNat < 0xF8 := by
    have he : Enc c (raw (String.utf8EncodeChar c)) := enc_enc c
    have := char_lt c
    generalize raw (String.utf8EncodeChar c) = e at he
    cases he <;> exact ⟨_, _, rfl, by omega⟩
  rw [ha] at h1
  have h2 : Char.ofNat b.toNat = a := (List.cons.inj h1).1
  have h3 := (char_byte b).2
  rw [h2] at h3
  omega

/-- Two calls whose ids differ only in bytes that are no characters are the same message. -/
theorem C97_ids (x y : UInt8) (hx : 0xF8 ≤ x.toNat) (hy : 0xF8 ≤ y.toNat) : receive (badId x) = receive (badId y) :=
  (receive_decodes (decodes_append (bad_ff hx (decodes_utf8 _)) rfl)).trans
    (receive_decodes (decodes_append (bad_ff hy (decodes_utf8 _)) rfl)).symm

/-- `é` and `日` are not changed, a lone continuation byte is. -/
example : Decodes [0xC3, 0xA9, 0xE6, 0x97, 0xA5, 0x80, 0x41] ['é', '日', Char.ofNat 0xFFFD, 'A'] :=
  (decodes_iff _ _).2 (by decide +kernel)

/-- An over-long encoding, a surrogate, and a truncated character. -/
example : Decodes [0xC0, 0x80] [Char.ofNat 0xFFFD, Char.ofNat 0xFFFD] ∧
    Decodes [0xED, 0xA0, 0x80] [Char.ofNat 0xFFFD, Char.ofNat 0xFFFD, Char.ofNat 0xFFFD] ∧
    Decodes [0xE6, 0x97, 0x22] [Char.ofNat 0xFFFD, Char.ofNat 0xFFFD, '"'] :=
  ⟨(decodes_iff _ _).2 (by decide +kernel), (decodes_iff _ _).2 (by decide +kernel), (decodes_iff _ _).2 (by decide +kernel)⟩

set_option maxRecDepth 20000 in
/-- A message that is not UTF-8 is accepted. -/
example : (match receive (badId 0xFF) with
    | .ok (some (.call id action payload)) => id.toList == [Char.ofNat 0xFFFD] && action == "Heartbeat" && payload.length == 0
    | _ => false) = true := by decide +kernel

set_option maxRecDepth 20000 in
/-- A truncated character does not swallow the quote that follows it. -/
example : (match parse (raw [0x22, 0xE6, 0x97, 0x22]) with
    | some (.str s) => s == [Char.ofNat 0xFFFD, Char.ofNat 0xFFFD]
    | _ => false) = true := by decide +kernel

set_option maxRecDepth 20000 in
/-- A string that is not UTF-8 is written with an escape. -/
example : quote [0x41, 0xFF] = "\"A\\ufffd\"".toList := by decide +kernel

end Verif.Bytes
