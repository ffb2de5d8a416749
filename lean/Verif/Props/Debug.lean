import Verif.Lemmas.Debug2
set_option linter.unusedSimpArgs false
/-!
# C107: what the debug log of a connection tells
-/
namespace Verif.Debug
open Conn
variable {S : Sem} {side : Side} {tr : List (DEv S)} {s s' : DSt S}

/-- **C107** The debug logger does not change what a connection does: without the lines, an execution is one of the connection, and every
execution of the connection is one without the lines. -/
theorem C107_connection : (DExec side tr s → Exec side (conns tr) s.conn) ∧
    ∀ (t : List (Ev S)) (c : St S), Exec side t c → ∃ tr, ∃ s : DSt S, DExec side tr s ∧ conns tr = t ∧ s.conn = c := by
  refine ⟨DExec.conn, fun t c h => ?_⟩
  obtain ⟨tr, s, h1, h2, h3, -⟩ := DExec.exists h
  exact ⟨tr, s, h1, h2, h3⟩

/-- **C107** The lines about what is received are, for each text read in turn, the text and then, if it is a message, the message; at any
moment at most two of them are still to come. -/
theorem C107_received (h : DExec side tr s) :
    ∃ rest, inLines (printed tr) ++ rest = (framesRead (conns tr)).flatMap about ∧ rest.length ≤ 2 := by
  obtain ⟨rest, hr⟩ := h.rest
  refine ⟨rest, hr.all, ?_⟩
  by_cases hg : ∀ (k : Nat) (f : S.Frame), s.conn.readers[k]? ≠ some (Reader.got f)
  · rw [hr.idle hg]; simp
  · push Not at hg
    obtain ⟨k, f, hk⟩ := hg
    rw [hr.cur k f hk, List.length_drop, about_length]
    unfold lines
    split <;> omega

/-- A reader with a text has the text that was read last. -/
theorem got_last {t : List (Ev S)} {c : St S} (h : Exec side t c) : ∀ (k : Nat) (f : S.Frame), c.readers[k]? = some (Reader.got f) →
    ∃ fs, framesRead t = fs ++ [f] := by
  induction h with
  | nil => simp [init]
  | @snoc t e c c' h hst ih =>
    intro k f hk
    rw [framesRead_append]
    by_cases h1 : ∃ j g, e = .read j g
    · obtain ⟨j, g, rfl⟩ := h1
      cases hst with
      | read _ hj =>
      have hlt : j < c.readers.length := (List.getElem?_eq_some_iff.1 hj).1
      have e1 := (Exec.inv h |>.act j _ hj rfl).1
      simp only [St.setReader, List.getElem?_set] at hk
      split at hk
      · rename_i hjk
        subst hjk
        simp only [hlt, if_true, Option.some.injEq, Reader.got.injEq] at hk
        subst hk
        exact ⟨_, rfl⟩
      · have e2 := (Exec.inv h |>.act k _ hk rfl).1
        omega
    · have hn : framesRead [e] = [] := by cases e <;> simp [framesRead] at *
      rw [hn, List.append_nil]
      refine ih k f ?_
      by_cases h2 : ∃ j, e = .dispatch j
      · obtain ⟨j, rfl⟩ := h2
        cases hst with
        | dispatchPanic => exact hk
        | @dispatch _ f' p hc hr ha =>
          have hlt : j < c.readers.length := (List.getElem?_eq_some_iff.1 hr).1
          simp only [St.setReader, List.getElem?_set] at hk
          split at hk
          · exfalso
            simp only [hlt, if_true, Option.some.injEq] at hk
            subst hk
            unfold afterRead at ha
            split at ha <;> first | simp at ha | (split at ha <;> first | simp at ha | (split at ha <;> simp at ha))
          · exact hk
      · exact (step_got hst (fun k f hh => h1 ⟨k, f, hh⟩) (fun k hh => h2 ⟨k, hh⟩) k f).1 hk

/-- **C107** Nothing is done with a text before its lines are printed; so if the process dies of a text received, the last lines about
received texts are those about this text. -/
theorem C107_lastWords (h : DExec side tr s) {k : Nat} (hs : DStep side s (.conn (.dispatch k)) s') :
    ∃ fs f, framesRead (conns tr) = fs ++ [f] ∧ .read k f ∈ conns tr ∧ inLines (printed tr) = fs.flatMap about ++ about f ∧
      (s'.conn.crashed = true → afterRead s.conn f = none) := by
  obtain ⟨rest, hr⟩ := h.rest
  cases hs with
  | wrote _ h1 => simp [sends] at h1
  | failed _ h1 => simp [sends] at h1
  | other _ _ hd hst =>
    obtain ⟨f, hk⟩ : ∃ f, s.conn.readers[k]? = some (.got f) := by cases hst <;> exact ⟨_, by assumption⟩
    have hfull := hd k f rfl hk
    have h0 := hr.cur k f hk
    rw [hfull, about_drop] at h0
    subst h0
    obtain ⟨fs, hfs⟩ := got_last h.conn k f hk
    refine ⟨fs, f, hfs, Exec.got_read h.conn hk, ?_, ?_⟩
    · have := hr.all
      rw [List.append_nil] at this
      rw [this, hfs, List.flatMap_append]
      simp
    · intro hc
      cases hst with
      | dispatch hc' => simp [St.setReader, hc'] at hc
      | dispatchPanic _ hk' ha =>
        rw [hk] at hk'
        cases hk'
        exact ha

open Classical in
/-- **C107** The lines about what is sent are, for each attempt to write a text in turn, the text, and a second line if and only if the
attempt succeeded; except that an attempt may be under way with the first line printed, or its second line may still be to come.  In
particular nothing is between the two lines of an attempt except lines about what is received. -/
theorem C107_sent (h : DExec side tr s) :
    ∃ l, List.Forall₂ (Attempt (conns tr)) ((conns tr).filter fun e => Tries e) l ∧
      (outLines (printed tr) = l.flatMap block ∨ (∃ f, outLines (printed tr) = l.flatMap block ++ [.sending f]) ∨
        outLines (printed tr) ++ [.sent] = l.flatMap block) := by
  obtain ⟨l, h1, h2⟩ := h.outs
  refine ⟨l, h1, ?_⟩
  rcases hl : s.lock with _ | ⟨w, f, b⟩ <;> rw [hl] at h2
  · exact .inl h2
  · cases b
    · exact .inr (.inl ⟨f, h2⟩)
    · obtain ⟨l', rfl, h2⟩ := h2
      refine .inr (.inr ?_)
      rw [h2]
      simp [block]

/-- A step writes only if it is an attempt. -/
theorem wrote_tries {c c' : St S} {e : Ev S} (hst : Step side c e c') (h : e.wrote ≠ none) : Tries e := by
  cases hst <;> simp only [Ev.wrote, ne_eq, not_true_eq_false] at h
  case refuse => exact .inl ⟨_, _, _, _, rfl⟩
  case answerOk he _ => exact .inr (.inr ⟨_, _, _, _, rfl, _, he⟩)
  case writeOk => exact .inr (.inl ⟨_, _, rfl⟩)

theorem written_tries {t : List (Ev S)} {c : St S} (h : Exec side t c) : written t = written (tries t) := by
  induction h with
  | nil => rfl
  | @snoc t e c c' h hst ih =>
    rw [tries_append]
    unfold written at ih ⊢
    rw [List.filterMap_append, List.filterMap_append, ih]
    congr 1
    by_cases ht : Tries e
    · rw [tries_yes ht]
    · rw [tries_no ht]
      have : e.wrote = none := by
        by_contra hn
        exact ht (wrote_tries hst hn)
      simp [this]

theorem written_attempts {t es : List (Ev S)} {l : List (S.Frame × Bool)} (h : List.Forall₂ (Attempt t) es l) :
    written es = (l.filter (·.2)).map (·.1) := by
  induction h with
  | nil => rfl
  | @cons e x es l h _ ih =>
    unfold written at ih ⊢
    rw [List.filterMap_cons, ih]
    cases h with
    | @refusal k id c ok => cases ok <;> simp [Ev.wrote]
    | @reply id resp err w f _ hw =>
      rcases w with _ | g
      · simp [Ev.wrote]
      · obtain rfl := hw g rfl
        simp [Ev.wrote]
    | @call i id q w f _ _ hw =>
      rcases w with _ | g
      · simp [Ev.wrote]
      · obtain rfl := hw g rfl
        simp [Ev.wrote]

theorem confirmed_sending (f : S.Frame) (ls : List (Line S)) (h : ls.head? ≠ some .sent) : confirmed (.sending f :: ls) = confirmed ls := by
  cases ls with
  | nil => rfl
  | cons x ls =>
    cases x <;> first | rfl | exact absurd rfl h

theorem confirmed_blocks (l : List (S.Frame × Bool)) (r : List (Line S)) (hr : r.head? ≠ some .sent) :
    confirmed (l.flatMap block ++ r) = (l.filter (·.2)).map (·.1) ++ confirmed r := by
  have head : ∀ l : List (S.Frame × Bool), (l.flatMap block ++ r).head? ≠ some .sent := by
    intro l
    rcases l with _ | ⟨⟨f, b⟩, l⟩
    · simpa using hr
    · cases b <;> simp [block]
  induction l with
  | nil => rfl
  | cons x l ih =>
    obtain ⟨f, b⟩ := x
    cases b
    · show confirmed (.sending f :: (l.flatMap block ++ r)) = _
      rw [confirmed_sending _ _ (head l), ih]
      simp
    · show confirmed (.sending f :: .sent :: (l.flatMap block ++ r)) = _
      rw [confirmed, ih]
      simp

/-- **C107** So the log tells which texts have been written: those whose line is followed, among the lines about what is sent, by the second
line; in the order of the lines, and up to one text whose second line is still to come. -/
theorem C107_written (h : DExec side tr s) :
    written (conns tr) = confirmed (outLines (printed tr)) ∨ ∃ f, written (conns tr) = confirmed (outLines (printed tr)) ++ [f] ∧
      (outLines (printed tr)).getLast? = some (.sending f) := by
  obtain ⟨l, h1, h2⟩ := h.outs
  rw [written_tries h.conn, written_attempts h1]
  rcases hl : s.lock with _ | ⟨w, f, b⟩ <;> rw [hl] at h2
  · left
    rw [show outLines (printed tr) = _ from h2]
    have := confirmed_blocks l [] (by simp)
    simpa [confirmed] using this.symm
  · cases b
    · left
      rw [show outLines (printed tr) = _ from h2]
      have := confirmed_blocks l [.sending f] (by simp)
      simpa [confirmed] using this.symm
    · obtain ⟨l', rfl, h2⟩ := h2
      refine .inr ⟨f, ?_, by rw [h2]; simp⟩
      rw [h2, confirmed_blocks l' [.sending f] (by simp)]
      simp [confirmed]

/-- A text that is read gets its lines. -/
theorem DExec.tellAll {tr : List (DEv S)} {s : DSt S} (h : DExec side tr s) {k : Nat} (hc : s.conn.crashed = false)
    (hk : s.conn.readers[k]? = some .reading) (f : S.Frame) {m : Option (Msg S.Pay)} (hm : S.read f = .ok m) :
    ∃ s', DExec side (tr ++ [.conn (.read k f), .line (.reader k) (.raw f), .line (.reader k) (.parsed m)]) s' ∧ s'.lock = s.lock ∧ s'.conn.crashed = false := by
  have hlt : k < s.conn.readers.length := (List.getElem?_eq_some_iff.1 hk).1
  obtain ⟨_, hR⟩ := h.rest
  have h0 := hR.fresh k (.inl hk)
  have hk' : (s.conn.setReader k (.got f)).readers[k]? = some (Reader.got f) := by simp [St.setReader, hlt]
  have hnl : ∀ w ∈ who (Ev.read k f), ∀ g b, s.lock ≠ some (w, g, b) := by
    intro w hw g b hlk
    simp only [who, List.mem_singleton] at hw
    subst hw
    cases b
    · cases h.lock _ _ hlk with
      | refusal hr => rw [hk] at hr; cases hr
    · have := h.lockDone _ _ hlk
      rw [hk] at this; cases this
  have h1 := DExec.snoc h (DStep.other (e := .read k f) rfl hnl (by simp) (.read hc hk))
  have h2 := DExec.snoc h1 (DStep.raw (k := k) (f := f) hc hk' h0)
  have h3 := DExec.snoc h2 (DStep.parsed (k := k) (f := f) hc hk' (by simp [DSt.tell, h0]) hm)
  rw [List.append_assoc, List.append_assoc] at h3
  exact ⟨_, h3, rfl, hc⟩

/-- **C107** For instance: a `Send` prints its text and, when it is written, the second line; a text that is received in between prints its
lines between the two. -/
theorem C107_possible {id : String} {q : S.Req} {f g : S.Frame} {m : Option (Msg S.Pay)} (hq : S.encCall id q = .ok f) (hg : S.read g = .ok m) :
    ∃ tr, ∃ s : DSt S, DExec side tr s ∧ conns tr = [.spawn 0, .send 0 id q, .regSent 0, .regChan 0, .writeCall 0 (some f), .read 0 g] ∧
      printed tr = [.sending f, .raw g, .parsed m, .sent] := by
  have h1 : DExec side (S := S) _ _ := .snoc .nil (.other (e := .spawn 0) rfl (by simp [dinit]) (by simp) (.spawn rfl rfl))
  have h2 := DExec.snoc h1 (.other (e := .send 0 id q) rfl (by simp [dinit]) (by simp) (.send rfl (by simp [dinit, init]) hq))
  have h3 := DExec.snoc h2 (.other (e := .regSent 0) rfl (by simp [dinit]) (by simp) (.regSent (x := ⟨id, q, some f, .fresh⟩) rfl rfl rfl))
  have h4 := DExec.snoc h3 (.other (e := .regChan 0) rfl (by simp [dinit]) (by simp) (.regChan (x := ⟨id, q, some f, .half⟩) rfl rfl rfl))
  have h5 := DExec.snoc h4 (.sending (w := .sender 0) (f := f) rfl rfl (.call (x := ⟨id, q, some f, .registered⟩) rfl rfl rfl))
  have h6 := DExec.snoc h5 (.wrote (e := .writeCall 0 (some f)) rfl rfl rfl rfl (.writeOk (x := ⟨id, q, some f, .registered⟩) rfl rfl rfl rfl rfl))
  obtain ⟨s', h7, hl, hc⟩ := h6.tellAll (k := 0) rfl rfl g hg
  exact ⟨_, _, .snoc h7 (.sent hc hl), rfl, rfl⟩

/-! ### What the file looks like -/

open Ocppj Codec
variable {F : FloatFmt} {o : Codec.Order}

theorem nl_append {a b : Text} (ha : '\n' ∉ a) (hb : '\n' ∉ b) : '\n' ∉ a ++ b := by simp [ha, hb]

theorem text_raw (M : MapFmt) (f : Text) : Line.text M (.raw f : Line (ocppj F o side)) = "Received a message, raw: ".toList ++ normalise f := rfl
theorem text_sending (M : MapFmt) (f : Text) : Line.text M (.sending f : Line (ocppj F o side)) = "Sending message [raw]: ".toList ++ f := rfl
theorem text_sent (M : MapFmt) : Line.text M (.sent : Line (ocppj F o side)) = "Sent message!".toList := rfl

theorem clean_raw (M : MapFmt) (f : Text) : '\n' ∉ Line.text M (.raw f : Line (ocppj F o side)) := by
  rw [text_raw]; exact nl_append (by decide) (normalise_clean f)
theorem clean_sending (M : MapFmt) {f : Text} (hf : '\n' ∉ f) : '\n' ∉ Line.text M (.sending f : Line (ocppj F o side)) := by
  rw [text_sending]; exact nl_append (by decide) hf

theorem fileOf_error (M : MapFmt) (f t : Text) :
    fileOf M [(.raw f : Line (ocppj F o side)), .parsed (some (.error "" "" (String.ofList ('\n' :: t)) []))] =
      (fileOf M [(.raw f : Line (ocppj F o side))] ++ ("Received a message, parsed: ".toList ++ ('[' :: "".toList ++ "] ".toList))) ++
        '\n' :: (t ++ (": ".toList ++ M.s [] ++ ['\n'])) := by
  have h : fileOf M [(.raw f : Line (ocppj F o side)), .parsed (some (.error "" "" (String.ofList ('\n' :: t)) []))] =
      fileOf M [(.raw f : Line (ocppj F o side))] ++ ("Received a message, parsed: ".toList ++
        ('[' :: "".toList ++ "] ".toList ++ (String.ofList ('\n' :: t)).toList ++ ": ".toList ++ M.s []) ++ ['\n']) := by
    show List.flatMap _ _ = List.flatMap _ _ ++ _
    rw [List.flatMap_cons, List.flatMap_cons, List.flatMap_cons, List.flatMap_nil, List.append_nil, List.append_nil]
    rfl
  rw [h, String.toList_ofList]
  generalize "Received a message, parsed: ".toList = a
  generalize "".toList = b
  generalize "] ".toList = c
  generalize ": ".toList = d
  generalize fileOf M [(.raw f : Line (ocppj F o side))] = e
  simp

/-- **C107** Each line that gives a text sent or received as it is, and each that tells that a text was sent, is one line of the file, also if
the text received has newlines in it. -/
theorem C107_oneLine (M : MapFmt) {tr : List (DEv (ocppj F o side))} {s : DSt (ocppj F o side)} (h : DExec side tr s) (l : Line (ocppj F o side))
    (hl : l ∈ printed tr) (hp : ∀ m, l ≠ .parsed m) : '\n' ∉ l.text M := by
  cases l with
  | parsed m => exact absurd rfl (hp m)
  | raw f => exact clean_raw M f
  | sent => rw [text_sent]; decide
  | sending f =>
    have hf : '\n' ∉ (show Text from f) := by
      induction h with
      | nil => simp at hl
      | @snoc tr e s s' h hs ih =>
        cases hs with
        | other | unencoded | wrote | failed => rw [printed_conn] at hl; exact ih hl
        | raw | parsed | sent =>
          rw [printed_line, List.mem_append, List.mem_singleton] at hl
          rcases hl with hl | hl
          · exact ih hl
          · cases hl
        | @sending w g hc h0 ha =>
          rw [printed_line, List.mem_append, List.mem_singleton] at hl
          rcases hl with hl | hl
          · exact ih hl
          · cases hl
            cases ha with
            | refusal => exact encRefusal_clean _ _
            | reply _ he => exact encReply_clean he
            | call hx _ hf => exact encCall_clean (Exec.frames h.conn _ _ _ hx hf)
    exact clean_sending M hf

/-- **C107** But a line that gives a message in its parsed form can contain anything: whatever lines there could be, the peer can send
a text whose lines look, from one line of the file on, like these; and it can do so whenever the connection reads. -/
theorem C107_forged (M : MapFmt) (ls : List (Line (ocppj F o side))) {tr : List (DEv (ocppj F o side))} {s : DSt (ocppj F o side)} (h : DExec side tr s)
    {k : Nat} (hc : s.conn.crashed = false) (hk : s.conn.readers[k]? = some .reading) :
    ∃ f tr' s' pre post, DExec side (tr ++ tr') s' ∧ conns tr' = [.read k f] ∧ fileOf M (printed tr') = pre ++ '\n' :: (fileOf M ls ++ post) := by
  obtain ⟨f, hf1, hf2⟩ := C10_error F "" "" (String.ofList ('\n' :: fileOf M ls))
  have hread : (ocppj F o side).read f = .ok (some (.error "" "" (String.ofList ('\n' :: fileOf M ls)) [])) := hf2
  obtain ⟨s', hs', -⟩ := h.tellAll hc hk f hread
  exact ⟨f, _, s', _, _, hs', rfl, fileOf_error M f (fileOf M ls)⟩

end Verif.Debug
