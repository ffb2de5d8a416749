import Verif.Lemmas.XmlLoose3
import Verif.Props.SoapCut
import Verif.Props.SoapDoc
/-!
# C84, C85: texts that are not XML, and texts of which only the beginning arrives

`Spec.XmlLoose` says which texts are documents, if loosely written.
-/
namespace Verif.Soap
open Xml Ocppj

theorem decode_eq (t : Text) : decode t = (match parseXml t with | none => .err "XML syntax error" | some n => readRoot (resolve [] n)) := rfl

theorem decode_loose {t : Text} {env : Envelope} (h : decode t = .ok env) : ∃ x, LooseDocument t x ∧ readRoot (resolve [] x) = .ok env := by
  rw [decode_eq] at h
  split at h
  · cases h
  · rename_i x hx
    exact ⟨x, parseXml_sound hx, h⟩

theorem decode_doc {t : Text} {x : XNode} (h : LooseDocument t x) : decode t = readRoot (resolve [] x) := by
  rw [decode_eq, (parseXml_iff t x).2 h]

theorem decode_none {t : Text} (h : ¬ ∃ x, LooseDocument t x) : decode t = .err "XML syntax error" := by
  rw [decode_eq]
  cases hp : parseXml t with
  | none => rfl
  | some x => exact absurd ⟨x, parseXml_sound hp⟩ h

/-- What is no XML document: no handler is called and the server reports an error; a caller's `Send` returns an error. -/
theorem rejected {t : Text} (h : ¬ ∃ x, LooseDocument t x) :
    (∀ (G : FloatText) (atCs : Bool) (hd : Req → Text → HandlerResult), (serve G atCs hd t).calls = [] ∧ ∃ e, (serve G atCs hd t).result = .err e) ∧
    ∀ (r : Req) (status : Nat), ∃ e, receive r (.got status t) = .err e := by
  refine ⟨fun G atCs hd => ?_, fun r status => ?_⟩
  · rw [serve, decode_none h]; exact ⟨rfl, _, rfl⟩
  · rw [receive]
    split
    · exact ⟨_, rfl⟩
    · rw [decode_none h]; exact ⟨_, rfl⟩

/-- **C84** A server calls no handler for a text that is no XML document, not even loosely, and reports an error. -/
theorem C84_notServed (G : FloatText) (atCs : Bool) (h : Req → Text → HandlerResult) (t : Text) (ht : ∀ x, ¬ LooseDocument t x) :
    (serve G atCs h t).calls = [] ∧ ∃ e, (serve G atCs h t).result = .err e :=
  (rejected fun ⟨x, hx⟩ => ht x hx).1 G atCs h

/-- **C84** `Send` returns an error if the reply is no XML document, not even loosely. -/
theorem C84_notReturned (r : Req) (status : Nat) (t : Text) (ht : ∀ x, ¬ LooseDocument t x) : ∃ e, receive r (.got status t) = .err e :=
  (rejected fun ⟨x, hx⟩ => ht x hx).2 r status

/-- An element named `Envelope`, with whatever prefix, that has an end tag of the same name. -/
def EnvelopeText (t : Text) : Prop :=
  ∃ n inner sp, t = '<' :: (n ++ (inner ++ '<' :: '/' :: (n ++ (sp ++ ['>'])))) ∧ (n = "Envelope".toList ∨ ∃ p, n = p ++ ":Envelope".toList) ∧ Space sp

theorem loc_translate (ns : List (Text × Text)) (b : Bool) (n : XName) : (translate ns b n).loc = n.loc := by
  unfold translate
  split
  · rfl
  split
  · rfl
  split
  · rfl
  split
  · rfl
  · split <;> rfl

theorem loc_split {n l : Text} (h : (splitName n).loc = l) : n = l ∨ ∃ p, n = p ++ ':' :: l := by
  unfold splitName at h
  simp only at h
  split at h
  · rename_i c m hm
    split at h
    · exact .inl h
    · right
      refine ⟨n.takeWhile (· ≠ ':'), ?_⟩
      have hc : c = ':' := by
        have := dropWhile_head n c m hm
        simpa using this
      have := (List.takeWhile_append_dropWhile (p := (· ≠ ':')) (l := n)).symm
      rw [hm, hc] at this
      simp only at h
      rw [← h]
      exact this
  · exact .inl h

theorem envelope_text {t : Text} {env : Envelope} (h : decode t = .ok env) (hb : env.header ≠ none ∨ env.body.content ≠ none ∨ env.body.fault ≠ none) :
    ∃ misc root rest, t = misc ++ (root ++ rest) ∧ LooseMisc misc ∧ (∃ x, LooseElement root x) ∧ EnvelopeText root := by
  obtain ⟨x, ⟨misc, root, rest, rfl, hm, hr⟩, he⟩ := decode_loose h
  refine ⟨misc, root, rest, rfl, hm, ⟨x, hr⟩, ?_⟩
  have hname : ∀ n as ks, x = .elem n as ks → n = "Envelope".toList ∨ ∃ p, n = p ++ ":Envelope".toList := by
    rintro n as ks rfl
    rw [resolve, readRoot] at he
    split at he
    · rename_i hl
      rw [loc_translate] at hl
      exact loc_split hl
    · cases he
  cases hr with
  | @full n at_ as sp raw ks sp' h1 h2 h3 h4 h5 h6 =>
    exact ⟨n, at_ ++ (sp ++ '>' :: raw), sp', by simp, hname _ _ _ rfl, h6⟩
  | @empty n at_ as sp h1 h2 h3 h4 =>
    exfalso
    rw [resolve, readRoot] at he
    split at he
    · simp only [resolves, readParts] at he
      cases he
      simp at hb
    · cases he

/-- **C84** If a handler is called, the text is (what may stand before a document, then) an `Envelope` element, well-formed down to its
last element (`LooseElement`: every element has an end tag of its own name, in the right order; references are known; there are
characters of XML only), with the end tag of that `Envelope`, and then anything. -/
theorem C84_served (G : FloatText) (atCs : Bool) (h : Req → Text → HandlerResult) (t : Text) (hc : (serve G atCs h t).calls ≠ []) :
    ∃ misc root rest, t = misc ++ (root ++ rest) ∧ LooseMisc misc ∧ (∃ x, LooseElement root x) ∧ EnvelopeText root := by
  obtain ⟨⟨r, id⟩, hr⟩ := List.exists_mem_of_ne_nil _ hc
  obtain ⟨env, hd, h1, h2, -⟩ := (C53_called G atCs h t r id).1 hr
  exact envelope_text h1 (.inl (by rw [h2]; simp))

/-- The hypothesis can be met: a document of another implementation. -/
example (G : FloatText) (h : Req → Text → HandlerResult) : (serve G true h foreign).calls ≠ [] :=
  List.ne_nil_of_mem (foreign_called G h)

/-- **C84** If `Send` returns a response, the reply is such a text, too. -/
theorem C84_returned (r : Req) (status : Nat) (t : Text) (resp : Resp) (h : receive r (.got status t) = .ok resp) :
    ∃ misc root rest, t = misc ++ (root ++ rest) ∧ LooseMisc misc ∧ (∃ x, LooseElement root x) ∧ EnvelopeText root := by
  obtain ⟨st, body, env, ha, h1, -, h2, -⟩ := (C51_ok r _ resp).1 h
  cases ha
  exact envelope_text h1 (.inr (.inl (by rw [h2]; simp)))

/-- **C84** Texts with the same tree have the same effect; what follows the root element has none. -/
theorem C84_same {t t' : Text} {x : XNode} (h : LooseDocument t x) (h' : LooseDocument t' x) :
    (∀ (G : FloatText) (atCs : Bool) (hd : Req → Text → HandlerResult), serve G atCs hd t = serve G atCs hd t') ∧
    ∀ (r : Req) (status : Nat), receive r (.got status t) = receive r (.got status t') := by
  have hne : ∀ {t : Text}, LooseDocument t x → t ≠ [] := by
    rintro t ⟨misc, root, rest, rfl, -, hr⟩ he
    simp only [List.append_eq_nil_iff] at he
    cases hr <;> simp at he
  have e : decode t = decode t' := by rw [decode_doc h, decode_doc h']
  refine ⟨fun G atCs hd => by rw [serve, serve, e], fun r status => ?_⟩
  simp only [receive, e, hne h, hne h', false_and, if_false]

/-- **C84** There is at most one tree, and one end of the root element, in a text. -/
theorem C84_unique {misc root rest misc' root' rest' : Text} {x x' : XNode} (hm : LooseMisc misc) (hr : LooseElement root x)
    (hm' : LooseMisc misc') (hr' : LooseElement root' x') (e : misc ++ (root ++ rest) = misc' ++ (root' ++ rest')) : x = x' ∧ rest = rest' :=
  loose_unique hm hr hm' hr' e

/-- **C84** Well-formed documents are among these texts, with the same tree. -/
theorem C84_strict {t : Text} {x : XNode} (h : Document t x) : LooseDocument t x := document_loose h

/-- **C84** An element whose end tag has another name, wherever it is nested, makes the text no document: here the outermost one. -/
theorem C84_mismatch {misc n at_ sp raw n' sp' rest : Text} {as : List (Text × Text)} {ks : List XNode} (hm : LooseMisc misc) (hn : LooseQName n)
    (ha : LooseAttrs at_ as) (hs : Space sp) (he : NameEnds (at_ ++ sp)) (hc : LooseContent raw ks) (hn' : LooseQName n') (hs' : Space sp')
    (hne : n' ≠ n) (x : XNode) :
    ¬ LooseDocument (misc ++ '<' :: (n ++ (at_ ++ (sp ++ '>' :: (raw ++ '<' :: '/' :: (n' ++ (sp' ++ '>' :: rest))))))) x := by
  rw [← parseXml_iff]
  unfold parseXml
  rw [readTree_rest, looseMisc_read hm]
  have e : '<' :: (n ++ (at_ ++ (sp ++ '>' :: (raw ++ '<' :: '/' :: (n' ++ (sp' ++ '>' :: rest)))))) =
        '<' :: (n ++ (at_ ++ (sp ++ ((if false then ['/', '>'] else ['>']) ++ (raw ++ '<' :: '/' :: (n' ++ (sp' ++ '>' :: rest))))))) := by simp
  rw [e, readRest_step (looseOpen_read hn ha hs he false _) rfl (by simp; omega)]
  simp only [goRest]
  rw [looseContent_read hc ⟨n, as, []⟩ [] (n' ++ (sp' ++ '>' :: rest)), readRest, looseEnd_read hn' hs' rest]
  simp [onToken, Ne.symm hne]

/-- The hypotheses can be met: `<a>x</b>`. -/
example (x : XNode) : ¬ LooseDocument "<a>x</b>".toList x := by
  have q : ∀ c, c = 'a' ∨ c = 'b' → LooseQName [c] := by
    rintro c (rfl | rfl) <;> exact ⟨⟨_, [], rfl, .inl (.inl (by decide)), by simp⟩, by decide⟩
  have hx : LooseContent "x".toList [.text "x".toList] := by
    have := LooseContent.text (raw := "x".toList) (s := "x".toList) (t := [])
      ⟨by simp, .char (by decide) (by decide) (by decide) (by decide) (by simp) .nil, by decide, .inl rfl⟩ .nil
    simpa using this
  have := C84_mismatch (misc := []) (rest := []) .nil (q 'a' (.inl rfl)) .nil (sp := []) (by simp [Space]) (by simp [NameEnds]) hx
    (q 'b' (.inr rfl)) (sp' := []) (by simp [Space]) (by decide) x
  simpa using this

/-- A text that is accepted although it is no XML document: character data before the root, no white space between the attributes,
anything after the root. -/
example : LooseDocument "x<a b=\"1\"c='2'/>&".toList (.elem "a".toList [("b".toList, "1".toList), ("c".toList, "2".toList)] []) := by
  have q : ∀ c, c = 'a' ∨ c = 'b' ∨ c = 'c' → LooseQName [c] := by
    rintro c (rfl | rfl | rfl) <;> exact ⟨⟨_, [], rfl, .inl (.inl (by decide)), by simp⟩, by decide⟩
  have sp0 : Space [] := by simp [Space]
  have v : ∀ (p c : Char), p = '"' ∨ p = '\'' → c = '1' ∨ c = '2' → LooseChars (some p) [c] [c] := by
    rintro p c (rfl | rfl) (rfl | rfl) <;> exact .char (by decide) (by decide) (by decide) (by decide) (by decide) .nil
  have hm : LooseMisc "x".toList := by
    have := LooseMisc.text (raw := "x".toList) (s := "x".toList) (t := [])
      ⟨by simp, .char (by decide) (by decide) (by decide) (by decide) (by simp) .nil, by decide, .inl rfl⟩ .nil
    simpa using this
  have h2 := LooseAttrs.cons sp0 (q 'c' (by simp)) sp0 sp0 (.inr rfl) (v '\'' '2' (.inr rfl) (.inr rfl)) .nil
  have h1 := LooseAttrs.cons (sp := [' ']) (by simp [Space]) (q 'b' (by simp)) sp0 sp0 (.inl rfl) (v '"' '1' (.inl rfl) (.inl rfl)) h2
  have hr := LooseElement.empty (q 'a' (by simp)) h1 sp0 (by
    rintro c r h
    simp only [List.append_nil, List.nil_append, List.cons_append, List.cons.injEq] at h
    rw [← h.1, ← nameChar_iff]
    decide)
  exact ⟨"x".toList, "<a b=\"1\"c='2'/>".toList, "&".toList, by decide, hm, by simpa using hr⟩

/-! ### Truncated texts -/

/-- A document that begins another text is that document. -/
theorem loose_prefix {p t : Text} (hp : p <+: t) {x : XNode} (h : LooseDocument p x) : LooseDocument t x := by
  obtain ⟨e, rfl⟩ := hp
  obtain ⟨misc, root, rest, rfl, hm, hr⟩ := h
  exact ⟨misc, root, rest ++ e, by simp, hm, hr⟩

/-- **C85** If only the beginning of a request arrives, whoever wrote it and wherever it breaks off, the server does either exactly what it
would have done with the whole, or calls no handler and reports an error. -/
theorem C85_served (G : FloatText) (atCs : Bool) (h : Req → Text → HandlerResult) (t p : Text) (hp : p <+: t) :
    serve G atCs h p = serve G atCs h t ∨ (serve G atCs h p).calls = [] ∧ ∃ e, (serve G atCs h p).result = .err e := by
  by_cases hx : ∃ x, LooseDocument p x
  · obtain ⟨x, hx⟩ := hx
    exact .inl ((C84_same hx (loose_prefix hp hx)).1 G atCs h)
  · exact .inr ((rejected hx).1 G atCs h)

/-- **C85** If only the beginning of a reply arrives, `Send` returns either exactly what it would have returned for the whole, or an
error. -/
theorem C85_returned (r : Req) (status : Nat) (t p : Text) (hp : p <+: t) :
    receive r (.got status p) = receive r (.got status t) ∨ ∃ e, receive r (.got status p) = .err e := by
  by_cases hx : ∃ x, LooseDocument p x
  · obtain ⟨x, hx⟩ := hx
    exact .inl ((C84_same hx (loose_prefix hp hx)).2 r status)
  · exact .inr ((rejected hx).2 r status)

/-- **C85** What decides is whether the end of the root element has arrived: with it everything is as with the whole text, and without its
last character it is an error. -/
theorem C85_where {misc root rest : Text} {x : XNode} (hm : LooseMisc misc) (hr : LooseElement root x) (p : Text)
    (hp : p <+: misc ++ (root ++ rest)) : (∃ y, LooseDocument p y) ↔ (misc ++ root).length ≤ p.length := by
  constructor
  · rintro ⟨y, misc', root', rest', rfl, hm', hr'⟩
    obtain ⟨e, he⟩ := hp
    have e' : misc' ++ (root' ++ (rest' ++ e)) = misc ++ (root ++ rest) := by rw [← he]; simp
    obtain ⟨-, hrest⟩ := loose_unique hm' hr' hm hr e'
    have := congrArg List.length e'
    simp only [List.length_append, ← hrest] at this ⊢
    omega
  · intro hl
    have : misc ++ root <+: p := List.prefix_of_prefix_length_le (by rw [← List.append_assoc]; exact List.prefix_append _ _) hp hl
    obtain ⟨e, rfl⟩ := this
    exact ⟨x, misc, root, e, by simp, hm, hr⟩

/-- **C85** In particular a request that is a well-formed document and ends with its root element is an error whenever anything of it
is missing. -/
theorem C85_cut (G : FloatText) (atCs : Bool) (h : Req → Text → HandlerResult) {misc root : Text} {x : XNode} (hm : LooseMisc misc)
    (hr : LooseElement root x) (p : Text) (hp : p <+: misc ++ root) (hne : p ≠ misc ++ root) :
    ((serve G atCs h p).calls = [] ∧ ∃ e, (serve G atCs h p).result = .err e) ∧
    ∀ (r : Req) (status : Nat), ∃ e, receive r (.got status p) = .err e := by
  have hx : ¬ ∃ y, LooseDocument p y := by
    rw [C85_where (rest := []) hm hr p (by simpa using hp)]
    intro hl
    exact hne (hp.eq_of_length (Nat.le_antisymm hp.length_le hl))
  exact ⟨(rejected hx).1 G atCs h, (rejected hx).2⟩

/-- For that document of another implementation: with its last character missing it is an error, whole it is served. -/
example (G : FloatText) (h : Req → Text → HandlerResult) : ∃ k, (∀ j < k, (serve G true h (foreign.take j)).calls = []) ∧
    ∀ j ≥ k, (serve G true h (foreign.take j)).calls ≠ [] := by
  obtain ⟨x, hd, -⟩ := foreign_doc
  obtain ⟨misc, root, rest, e, hm, hr⟩ := C84_strict hd
  refine ⟨(misc ++ root).length, fun j hj => ?_, fun j hj => ?_⟩
  · refine ((rejected fun hx => ?_).1 G true h).1
    have := (C85_where hm hr (foreign.take j) (by rw [← e]; exact List.take_prefix _ _)).1 hx
    simp only [List.length_take] at this
    omega
  · have hl : (misc ++ root).length ≤ foreign.length := by rw [e]; simp
    obtain ⟨y, hy⟩ := (C85_where hm hr (foreign.take j) (by rw [← e]; exact List.take_prefix _ _)).2 (by
      rw [List.length_take]; omega)
    rw [(C84_same hy (loose_prefix (List.take_prefix _ _) hy)).1 G true h]
    exact List.ne_nil_of_mem (foreign_called G h)

end Verif.Soap
