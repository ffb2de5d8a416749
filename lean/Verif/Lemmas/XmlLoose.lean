import Verif.Spec.XmlLoose
import Verif.Lemmas.XmlDoc2
/-!
# What the XML decoder accepts is loosely XML: characters and tags
-/
set_option linter.unusedSimpArgs false
namespace Verif.Xml

theorem nameStart_iff (c : Char) : nameStart c = true ↔ NameStart c := by
  unfold nameStart NameStart Letter
  simp only [Bool.or_eq_true, beq_iff_eq, decide_eq_true_eq]
  tauto

theorem nameChar_iff (c : Char) : nameChar c = true ↔ NameChar c := by
  unfold nameChar NameChar NameStart Letter Char.isAlphanum
  simp only [Bool.or_eq_true, beq_iff_eq, decide_eq_true_eq]
  tauto

theorem dropWhile_head {p : Char → Bool} (t : Text) : ∀ c r, t.dropWhile p = c :: r → p c = false := by
  induction t with
  | nil => intro c r h; cases h
  | cons a t ih =>
    intro c r h
    rw [List.dropWhile_cons] at h
    split at h
    · exact ih c r h
    · rename_i hp
      obtain ⟨rfl, rfl⟩ := List.cons.inj h
      simpa using hp

theorem mem_takeWhile {p : Char → Bool} {t : Text} {c : Char} (h : c ∈ t.takeWhile p) : p c = true := by
  induction t with
  | nil => cases h
  | cons a t ih =>
    rw [List.takeWhile_cons] at h
    split at h
    · rename_i ha
      rcases List.mem_cons.1 h with rfl | h
      · exact ha
      · exact ih h
    · cases h

theorem readName_sound {t n r : Text} (h : readName t = some (n, r)) : t = n ++ r ∧ LooseName n ∧ NameEnds r := by
  unfold readName at h
  split at h
  · cases h
  · rename_i c m hw
    split at h
    · rename_i hc
      simp only [Option.some.injEq, Prod.mk.injEq] at h
      obtain ⟨rfl, rfl⟩ := h
      refine ⟨?_, ⟨c, m, rfl, (nameStart_iff c).1 hc, fun d hd => ?_⟩, fun d u hu => ?_⟩
      · rw [← hw, List.takeWhile_append_dropWhile]
      · have : d ∈ t.takeWhile nameChar := by rw [hw]; exact List.mem_cons_of_mem _ hd
        exact (nameChar_iff d).1 (mem_takeWhile this)
      · rw [← nameChar_iff, dropWhile_head t d u hu]; simp
    · cases h

theorem readNsName_sound {t n r : Text} (h : readNsName t = some (n, r)) : t = n ++ r ∧ LooseQName n ∧ NameEnds r := by
  unfold readNsName at h
  split at h
  · rename_i m u hm
    split at h
    · rename_i hc
      simp only [Option.some.injEq, Prod.mk.injEq] at h
      obtain ⟨rfl, rfl⟩ := h
      obtain ⟨h1, h2, h3⟩ := readName_sound hm
      exact ⟨h1, ⟨h2, hc⟩, h3⟩
    · cases h
  · cases h

theorem skipSpace_split (t : Text) : ∃ sp, Space sp ∧ t = sp ++ skipSpace t := by
  refine ⟨t.takeWhile fun c => c == ' ' || c == '\r' || c == '\n' || c == '\t', fun c hc => ?_, ?_⟩
  · have := mem_takeWhile hc
    simp only [Bool.or_eq_true, beq_iff_eq] at this
    tauto
  · exact (List.takeWhile_append_dropWhile).symm

/-! ### References -/

theorem number_sound {base : Nat} {t : Text} {acc n : Nat} (h : number base acc t = some n) :
    ∃ vs, List.Forall₂ (fun c v => v < base ∧ HexDigit c v) t vs ∧ n = vs.foldl (fun a v => a * base + v) acc := by
  induction t generalizing acc with
  | nil => simp only [number, Option.some.injEq] at h; exact ⟨[], .nil, h.symm⟩
  | cons c t ih =>
    rw [number] at h
    split at h
    · rename_i d hd
      split at h
      · rename_i hb
        obtain ⟨vs, h1, h2⟩ := ih h
        exact ⟨d :: vs, .cons ⟨hb, (hexVal_iff c d).1 hd⟩ h1, h2⟩
      · cases h
    · cases h

theorem runeOf_numbered {n : Nat} (hn : n ≤ 0x10FFFF) : Numbered n (runeOf n) := by
  unfold runeOf Numbered
  split
  · left; rfl
  · rename_i h
    right
    unfold Nat.isValidChar at h
    refine ⟨?_, ?_, rfl⟩ <;> omega

theorem entity_sound {e : Text} {c : Char} (h : entity e = some c) (hc : IsXmlChar c) : LooseRef e c := by
  unfold entity at h
  split at h
  · rename_i he; subst he; cases h; exact .lt
  split at h
  · rename_i he; subst he; cases h; exact .gt
  split at h
  · rename_i he; subst he; cases h; exact .amp
  split at h
  · rename_i he; subst he; cases h; exact .apos
  split at h
  · rename_i he; subst he; cases h; exact .quot
  split at h
  · rename_i d u
    split at h
    · rename_i n hn
      split at h
      · rename_i hl
        cases h
        obtain ⟨vs, h1, h2⟩ := number_sound hn
        exact .hex ⟨by simp, vs, h1, h2⟩ (runeOf_numbered hl) hc
      · cases h
    · cases h
  · rename_i d u _
    split at h
    · rename_i n hn
      split at h
      · rename_i hl
        cases h
        obtain ⟨vs, h1, h2⟩ := number_sound hn
        exact .dec ⟨by simp, vs, h1, h2⟩ (runeOf_numbered hl) hc
      · cases h
    · cases h
  · cases h

theorem hexDigit_bracket {c : Char} {v : Nat} (h : HexDigit c v) : c ≠ ']' := by
  have := (hexVal_iff c v).2 h
  rintro rfl; revert this; simp [hexVal]

theorem ref_bracket {e : Text} {c : Char} (h : LooseRef e c) : ']' ∉ e := by
  have num : ∀ {b t k}, Numeral b t k → ']' ∉ t := by
    rintro b t k ⟨-, vs, hf, -⟩
    clear h
    induction hf with
    | nil => simp
    | cons hcv _ ih =>
      simp only [List.mem_cons, not_or]
      exact ⟨(hexDigit_bracket hcv.2).symm, ih⟩
  cases h with
  | lt => decide
  | gt => decide
  | amp => decide
  | apos => decide
  | quot => decide
  | dec h1 => simp only [List.mem_cons, not_or]; exact ⟨by decide, num h1⟩
  | hex h1 => simp only [List.mem_cons, not_or]; exact ⟨by decide, by decide, num h1⟩

/-! ### Character data -/

theorem brackets_cons {x : Char} (hx : x ≠ ']') {l : Text} (h : "]]>".toList <:+: x :: l) : "]]>".toList <:+: l := by
  rcases List.infix_cons_iff.1 h with h | h
  · exact absurd (List.cons_prefix_cons.1 h).1.symm hx
  · exact h

theorem brackets_skip {e : Text} (he : ']' ∉ e) {l : Text} (h : "]]>".toList <:+: e ++ l) : "]]>".toList <:+: l := by
  induction e with
  | nil => exact h
  | cons x e ih =>
    simp only [List.mem_cons, not_or] at he
    exact ih he.2 (brackets_cons (Ne.symm he.1) h)

/-- The characters still to come at a state: after a carriage return a line feed is skipped. -/
def After (q : Option Char) (b1 : Option Char) (raw u : Text) : Prop :=
  if b1 = some '\r' then (∃ t, raw = '\n' :: t ∧ LooseChars q t u) ∨ raw.head? ≠ some '\n' ∧ LooseChars q raw u
  else LooseChars q raw u

theorem after_none {q : Option Char} {raw u : Text} : After q none raw u ↔ LooseChars q raw u := by
  unfold After; rw [if_neg (by simp)]

/-- What ends the text: a tag or the end, or the quote. -/
def Stop (q : Option Char) (rest r : Text) : Prop :=
  match q with
  | none => rest = r ∧ (r = [] ∨ r.head? = some '<')
  | some c => rest = c :: r ∨ rest = [] ∧ r = []

theorem stop_nil (q : Option Char) : Stop q [] [] := by
  cases q <;> simp [Stop]

theorem brackets_short {b0 b1 : Option Char} : ¬ "]]>".toList <:+: b0.toList ++ b1.toList := by
  intro h
  have := h.length_le
  cases b0 <;> cases b1 <;> simp at this

theorem after_nil (q b1 : Option Char) : After q b1 [] [] := by
  unfold After
  split
  · exact .inr ⟨by simp, .nil⟩
  · exact .nil

/-- A character that is kept. -/
theorem after_char {q b1 : Option Char} {c : Char} {raw u : Text} (hc : IsXmlChar c) (h1 : c ≠ '<') (h2 : c ≠ '&') (h3 : c ≠ '\r')
    (hq : q ≠ some c) (hn : ¬ (b1 = some '\r' ∧ c = '\n')) (h : After q (some c) raw u) : After q b1 (c :: raw) (c :: u) := by
  have h' : LooseChars q raw u := by
    unfold After at h
    rw [if_neg (by simpa using h3)] at h
    exact h
  unfold After
  split
  · rename_i hb
    refine .inr ⟨?_, .char hc h1 h2 h3 hq h'⟩
    simp only [List.head?_cons, ne_eq, Option.some.injEq]
    exact fun e => hn ⟨hb, e⟩
  · exact .char hc h1 h2 h3 hq h'

/-- A carriage return. -/
theorem after_cr {q b1 : Option Char} {raw u : Text} (h : After q (some '\r') raw u) : After q b1 ('\r' :: raw) ('\n' :: u) := by
  have h' : LooseChars q ('\r' :: raw) ('\n' :: u) := by
    unfold After at h
    rw [if_pos rfl] at h
    rcases h with ⟨t, rfl, h⟩ | ⟨h1, h⟩
    · exact .crlf h
    · exact .cr h1 h
  unfold After
  split
  · exact .inr ⟨by simp, h'⟩
  · exact h'

/-- The line feed of a line end. -/
theorem after_lf {q : Option Char} {raw u : Text} (h : After q (some '\n') raw u) : After q (some '\r') ('\n' :: raw) u := by
  unfold After at h ⊢
  rw [if_neg (by simp)] at h
  rw [if_pos rfl]
  exact .inl ⟨raw, rfl, h⟩

/-- A reference. -/
theorem after_ref {q b1 : Option Char} {e : Text} {c : Char} {raw u : Text} (hr : LooseRef e c) (h : LooseChars q raw u) :
    After q b1 ('&' :: (e ++ ';' :: raw)) (c :: u) := by
  unfold After
  split
  · exact .inr ⟨by simp, .ref hr h⟩
  · exact .ref hr h

theorem brackets_next {b0 b1 : Option Char} (hb : b1 = none → b0 = none) {c : Char} (hn : ¬ (b0 = some ']' ∧ b1 = some ']' ∧ c = '>'))
    {raw : Text} (h : ¬ "]]>".toList <:+: b1.toList ++ ((some c).toList ++ raw)) : ¬ "]]>".toList <:+: b0.toList ++ (b1.toList ++ c :: raw) := by
  cases b1 with
  | none => rw [hb rfl]; simpa using h
  | some y =>
    cases b0 with
    | none => simpa using h
    | some x =>
      intro hi
      rcases List.infix_cons_iff.1 hi with hp | hp
      · change "]]>".toList <+: x :: y :: c :: raw at hp
        simp only [String.reduceToList, List.cons_prefix_cons] at hp
        exact hn ⟨by rw [hp.1], by rw [hp.2.1], hp.2.2.1.symm⟩
      · exact h hp

mutual
theorem readText_sound {q : Option Char} : ∀ (t acc : Text) (b0 b1 : Option Char) (s r : Text),
    (b1 = none → b0 = none) → readText q false acc (.plain b0 b1) t = some (s, r) → (∀ c ∈ s, IsXmlChar c) →
    ∃ raw u rest, t = raw ++ rest ∧ Stop q rest r ∧ s = acc.reverse ++ u ∧ After q b1 raw u ∧
      (q = none → ¬ "]]>".toList <:+: b0.toList ++ (b1.toList ++ raw))
  | [], acc, b0, b1, s, r, hb, h, hs => by
    simp only [readText, Bool.false_eq_true, if_false, Option.some.injEq, Prod.mk.injEq] at h
    obtain ⟨rfl, rfl⟩ := h
    exact ⟨[], [], [], rfl, stop_nil q, by simp, after_nil _ _, fun _ => by simpa using brackets_short⟩
  | c :: t, acc, b0, b1, s, r, hb, h, hs => by
    rw [readText] at h
    split at h
    · simp at h
    rename_i h1
    have hn : q = none → ¬ (b0 = some ']' ∧ b1 = some ']' ∧ c = '>') := fun hq hx => h1 ⟨hq, hx⟩
    split at h
    · rename_i h2
      split at h
      · rename_i hq
        simp only [Option.some.injEq, Prod.mk.injEq] at h
        obtain ⟨rfl, rfl⟩ := h
        refine ⟨[], [], c :: t, rfl, ?_, by simp, after_nil _ _, fun _ => by simpa using brackets_short⟩
        subst hq
        simp only [Stop, List.head?_cons, Option.some.injEq]
        exact ⟨trivial, .inr h2.1⟩
      · cases h
    rename_i h2
    have hlt : c ≠ '<' := fun e => h2 ⟨e, rfl⟩
    split at h
    · rename_i h3
      simp only [Option.some.injEq, Prod.mk.injEq] at h
      obtain ⟨rfl, rfl⟩ := h
      refine ⟨[], [], c :: t, rfl, ?_, by simp, after_nil _ _, fun _ => by simpa using brackets_short⟩
      subst h3
      exact .inl rfl
    rename_i h3
    split at h
    · rename_i h4
      obtain ⟨rfl, -⟩ := h4
      obtain ⟨e', x, raw, u, rest, rfl, h5, rfl, h6, h7, h8⟩ := readEnt_sound t acc [] s r h hs
      simp only [List.reverse_nil, List.nil_append] at h6
      refine ⟨'&' :: (e' ++ ';' :: raw), x :: u, rest, by simp, h5, rfl, after_ref h6 h7, fun hq hi => ?_⟩
      have hi' : "]]>".toList <:+: '&' :: (e' ++ ';' :: raw) := by
        clear h h7
        cases b1 with
        | none => rw [hb rfl] at hi; simpa using hi
        | some y =>
          have step : "]]>".toList <:+: y :: '&' :: (e' ++ ';' :: raw) → "]]>".toList <:+: '&' :: (e' ++ ';' :: raw) := by
            intro hi
            rcases List.infix_cons_iff.1 hi with hp | hp
            · simp [List.cons_prefix_cons] at hp
            · exact hp
          cases b0 with
          | none => exact step (by simpa using hi)
          | some x' =>
            rcases List.infix_cons_iff.1 hi with hp | hp
            · simp [List.cons_prefix_cons] at hp
            · exact step hp
      exact h8 hq (brackets_cons (by decide) (brackets_skip (ref_bracket h6) (brackets_cons (by decide) hi')))
    rename_i h4
    have hamp : c ≠ '&' := fun e => h4 ⟨e, rfl⟩
    split at h
    · rename_i h5
      subst h5
      obtain ⟨raw, u, rest, rfl, e1, rfl, e2, e3⟩ := readText_sound t ('\n' :: acc) b1 (some '\r') s r (by simp) h hs
      exact ⟨'\r' :: raw, '\n' :: u, rest, by simp, e1, by simp, after_cr e2, fun hq => brackets_next hb (hn hq) (e3 hq)⟩
    rename_i h5
    split at h
    · rename_i h6
      obtain ⟨rfl, rfl⟩ := h6
      obtain ⟨raw, u, rest, rfl, e1, rfl, e2, e3⟩ := readText_sound t acc (some '\r') (some '\n') s r (by simp) h hs
      exact ⟨'\n' :: raw, u, rest, by simp, e1, by simp, after_lf e2, fun hq => brackets_next hb (hn hq) (e3 hq)⟩
    rename_i h6
    obtain ⟨raw, u, rest, rfl, e1, rfl, e2, e3⟩ := readText_sound t (c :: acc) b1 (some c) s r (by simp) h hs
    refine ⟨c :: raw, c :: u, rest, by simp, e1, by simp, after_char (hs c (by simp)) hlt hamp h5 (fun e => h3 e) h6 e2,
      fun hq => brackets_next hb (hn hq) (e3 hq)⟩
theorem readEnt_sound {q : Option Char} : ∀ (t acc e : Text) (s r : Text),
    readText q false acc (.ent e) t = some (s, r) → (∀ c ∈ s, IsXmlChar c) →
    ∃ e' c raw u rest, t = e' ++ ';' :: (raw ++ rest) ∧ Stop q rest r ∧ s = acc.reverse ++ c :: u ∧ LooseRef (e.reverse ++ e') c ∧ LooseChars q raw u ∧
      (q = none → ¬ "]]>".toList <:+: raw)
  | [], acc, e, s, r, h, hs => by simp [readText] at h
  | c :: t, acc, e, s, r, h, hs => by
    rw [readText] at h
    split at h
    · rename_i hc
      subst hc
      split at h
      · rename_i x hx
        obtain ⟨raw, u, rest, rfl, e1, rfl, e2, e3⟩ := readText_sound t (x :: acc) none none s r (by simp) h hs
        refine ⟨[], x, raw, u, rest, by simp, e1, by simp, ?_, after_none.1 e2, fun hq => by simpa using e3 hq⟩
        rw [List.append_nil]
        exact entity_sound hx (hs x (by simp))
      · cases h
    · obtain ⟨e', x, raw, u, rest, rfl, e1, rfl, e2, e3, e4⟩ := readEnt_sound t acc (c :: e) s r h hs
      exact ⟨c :: e', x, raw, u, rest, by simp, e1, rfl, by simpa using e2, e3, e4⟩
end

/-- Character data. -/
theorem textData_sound {q : Option Char} {t s r : Text} (h : textData q false t = some (s, r)) :
    ∃ raw rest, t = raw ++ rest ∧ Stop q rest r ∧ LooseChars q raw s ∧ (q = none → ¬ "]]>".toList <:+: raw) := by
  unfold textData at h
  split at h
  · rename_i s' r' hr
    split at h
    · rename_i ha
      simp only [Option.some.injEq, Prod.mk.injEq] at h
      obtain ⟨rfl, rfl⟩ := h
      obtain ⟨raw, u, rest, rfl, e1, rfl, e2, e3⟩ := readText_sound t [] none none s' r' (by simp) hr
        (fun c hc => (inRange_iff c).1 (List.all_eq_true.1 ha c hc))
      exact ⟨raw, rest, rfl, e1, after_none.1 e2, fun hq => by simpa using e3 hq⟩
    · cases h
  · cases h

/-! ### CDATA sections -/

/-- Text with line feeds for line ends; the flag is a carriage return just before. -/
def lineFeeds (b1 : Option Char) : Text → Text
  | [] => []
  | c :: t =>
    if c = '\r' then '\n' :: lineFeeds (some c) t
    else if b1 = some '\r' ∧ c = '\n' then lineFeeds (some c) t
    else c :: lineFeeds (some c) t

theorem brackets_first (t : Text) (h : "]]>".toList <:+: t) :
    ∃ raw r, t = raw ++ ("]]>".toList ++ r) ∧ ¬ "]]>".toList <:+: raw ++ [']', ']'] := by
  induction t with
  | nil => simp at h
  | cons c t ih =>
    by_cases hp : "]]>".toList <+: c :: t
    · obtain ⟨r, hr⟩ := hp
      exact ⟨[], r, hr.symm, fun hi => by have := hi.length_le; simp at this⟩
    · rcases List.infix_cons_iff.1 h with h | h
      · exact absurd h hp
      · obtain ⟨raw, r, rfl, hn⟩ := ih h
        refine ⟨c :: raw, r, rfl, fun hi => ?_⟩
        rcases List.infix_cons_iff.1 hi with hi | hi
        · apply hp
          refine List.IsPrefix.trans hi ⟨'>' :: r, ?_⟩
          simp
        · exact hn hi

theorem cdata_none (t : Text) : ∀ (acc : Text) (b0 b1 : Option Char), (b1 = none → b0 = none) →
    ¬ "]]>".toList <:+: b0.toList ++ (b1.toList ++ t) → readText none true acc (.plain b0 b1) t = none := by
  induction t with
  | nil => intro acc b0 b1 _ _; simp [readText]
  | cons c t ih =>
    intro acc b0 b1 hb hn
    have h1 : ¬ (b0 = some ']' ∧ b1 = some ']' ∧ c = '>') := by
      rintro ⟨rfl, rfl, rfl⟩
      exact hn ⟨[], t, by simp⟩
    have h2 : ¬ "]]>".toList <:+: b1.toList ++ ((some c).toList ++ t) := by
      intro hi
      apply hn
      exact List.IsInfix.trans hi ⟨b0.toList, [], by simp⟩
    rw [readText]
    simp only [true_and, h1, if_false, Bool.true_eq_false, and_false, reduceCtorEq]
    split
    · rename_i hc; subst hc; exact ih _ _ _ (by simp) h2
    · split
      · exact ih _ _ _ (by simp) h2
      · exact ih _ _ _ (by simp) h2

theorem cdata_some (raw r : Text) : ∀ (acc : Text) (b0 b1 : Option Char), (b1 = none → b0 = none) →
    ¬ "]]>".toList <:+: b0.toList ++ (b1.toList ++ (raw ++ [']', ']'])) →
    readText none true acc (.plain b0 b1) (raw ++ ("]]>".toList ++ r)) = some (acc.reverse ++ lineFeeds b1 raw, r) := by
  induction raw with
  | nil =>
    intro acc b0 b1 _ _
    simp [readText, lineFeeds]
  | cons c t ih =>
    intro acc b0 b1 hb hn
    have h1 : ¬ (b0 = some ']' ∧ b1 = some ']' ∧ c = '>') := by
      rintro ⟨rfl, rfl, rfl⟩
      exact hn ⟨[], t ++ [']', ']'], by simp⟩
    have h2 : ¬ "]]>".toList <:+: b1.toList ++ ((some c).toList ++ (t ++ [']', ']'])) := by
      intro hi
      apply hn
      exact List.IsInfix.trans hi ⟨b0.toList, [], by simp⟩
    rw [List.cons_append, readText]
    simp only [true_and, h1, if_false, Bool.true_eq_false, and_false, reduceCtorEq]
    rw [lineFeeds]
    split
    · rename_i hc; subst hc; rw [ih _ _ _ (by simp) h2]; simp
    · split
      · rw [ih _ _ _ (by simp) h2]
      · rw [ih _ _ _ (by simp) h2]; simp

theorem lineFeeds_verbatim (raw : Text) : (∀ c ∈ lineFeeds none raw, IsXmlChar c) → Verbatim raw (lineFeeds none raw) := by
  suffices H : ∀ (raw : Text) (b1 : Option Char), (∀ c ∈ lineFeeds b1 raw, IsXmlChar c) →
      if b1 = some '\r' then (∃ t, raw = '\n' :: t ∧ Verbatim t (lineFeeds b1 raw)) ∨ raw.head? ≠ some '\n' ∧ Verbatim raw (lineFeeds b1 raw)
      else Verbatim raw (lineFeeds b1 raw) by
    intro h
    have := H raw none h
    rw [if_neg (by simp)] at this
    exact this
  clear raw
  intro raw
  induction raw with
  | nil => intro b1 _; split <;> simp [lineFeeds, Verbatim.nil]
  | cons c t ih =>
    intro b1 h
    rw [lineFeeds] at h ⊢
    by_cases hc : c = '\r'
    · subst hc
      rw [if_pos rfl] at h ⊢
      have := ih (some '\r') (fun d hd => h d (List.mem_cons_of_mem _ hd))
      rw [if_pos rfl] at this
      have h' : Verbatim ('\r' :: t) ('\n' :: lineFeeds (some '\r') t) := by
        rcases this with ⟨t', rfl, h⟩ | ⟨h1, h⟩
        · exact .crlf h
        · exact .cr h1 h
      split
      · exact .inr ⟨by simp, h'⟩
      · exact h'
    · rw [if_neg hc] at h ⊢
      have key := ih (some c)
      rw [if_neg (by simpa using hc)] at key
      by_cases hl : b1 = some '\r' ∧ c = '\n'
      · rw [if_pos hl] at h ⊢
        rw [if_pos hl.1]
        exact .inl ⟨t, by rw [hl.2], key h⟩
      · rw [if_neg hl] at h ⊢
        have h' : Verbatim (c :: t) (c :: lineFeeds (some c) t) :=
          .char (h c (by simp)) hc (key fun d hd => h d (List.mem_cons_of_mem _ hd))
        split
        · rename_i hb
          refine .inr ⟨?_, h'⟩
          simp only [List.head?_cons, ne_eq, Option.some.injEq]
          exact fun e => hl ⟨hb, e⟩
        · exact h'

/-- A CDATA section. -/
theorem textData_cdata {t s r : Text} (h : textData none true t = some (s, r)) :
    ∃ raw, t = raw ++ ("]]>".toList ++ r) ∧ Verbatim raw s ∧ ¬ "]]>".toList <:+: raw := by
  unfold textData at h
  by_cases hi : "]]>".toList <:+: t
  · obtain ⟨raw, r', rfl, hn⟩ := brackets_first t hi
    have hc : readText none true [] (.plain none none) (raw ++ ("]]>".toList ++ r')) = some (lineFeeds none raw, r') :=
      cdata_some raw r' [] none none (by simp) (by simpa using hn)
    rw [hc] at h
    simp only at h
    by_cases ha : List.all (lineFeeds none raw) inRange = true
    · rw [if_pos ha] at h
      simp only [Option.some.injEq, Prod.mk.injEq] at h
      obtain ⟨rfl, rfl⟩ := h
      refine ⟨raw, rfl, lineFeeds_verbatim raw fun c hc => (inRange_iff c).1 (List.all_eq_true.1 ha c hc), fun hx => hn ?_⟩
      exact List.IsInfix.trans hx ⟨[], [']', ']'], by simp⟩
    · rw [if_neg ha] at h; cases h
  · rw [cdata_none t [] none none (by simp) (by simpa using hi)] at h
    cases h

end Verif.Xml
