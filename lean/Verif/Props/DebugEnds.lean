import Verif.Props.Debug
import Verif.Lemmas.System
import Verif.Props.Settle
set_option linter.unusedSimpArgs false
/-!
# C110: the debug logs of the two ends of a connection agree
-/
namespace Verif.Debug
open Conn Ocppj Json Codec
variable {S : Sem} {side : Side}

theorem received_append (a b : List (Line S)) : received (a ++ b) = received a ++ received b := List.filterMap_append ..

theorem received_inLines (ls : List (Line S)) : received (inLines ls) = received ls := by
  induction ls with
  | nil => rfl
  | cons l ls ih =>
    unfold inLines received at *
    cases l <;> simp [List.filter_cons, Line.isIn, ih]

theorem received_about (f : S.Frame) : received (about f) = [f] := by
  unfold about
  split <;> rfl

theorem received_abouts (fs : List S.Frame) : received (fs.flatMap about) = fs := by
  induction fs with
  | nil => rfl
  | cons f fs ih => rw [List.flatMap_cons, received_append, received_about, ih]; rfl

/-- The texts whose line is printed are, in order, those read; up to what is to come. -/
theorem DExec.received {tr : List (DEv S)} {s : DSt S} (h : DExec side tr s) :
    ∃ r, received (printed tr) ++ r = framesRead (conns tr) ∧ ((∀ (k : Nat) (f : S.Frame), s.conn.readers[k]? ≠ some (Reader.got f)) → r = []) := by
  obtain ⟨rest, hr⟩ := h.rest
  refine ⟨Debug.received rest, ?_, fun hg => by rw [hr.idle hg]; rfl⟩
  have := congrArg Debug.received hr.all
  rwa [received_append, received_inLines, received_abouts] at this

theorem DExec.confirmed_idle {tr : List (DEv S)} {s : DSt S} (h : DExec side tr s) (hl : s.lock = none) :
    written (conns tr) = confirmed (outLines (printed tr)) := by
  obtain ⟨l, h1, h2⟩ := h.outs
  rw [written_tries h.conn, written_attempts h1]
  rw [hl] at h2
  rw [show outLines (printed tr) = _ from h2]
  have := confirmed_blocks l [] (by simp)
  simpa [confirmed] using this.symm

theorem confirmed_sub (ls : List (Line S)) : ∀ f ∈ confirmed ls, Line.sending f ∈ ls := by
  intro f
  induction ls using confirmed.induct with
  | case1 g ls ih =>
    rw [confirmed, List.mem_cons]
    rintro (rfl | h)
    · simp
    · simp [ih h]
  | case2 l ls hn ih =>
    rw [confirmed]
    · intro h; exact List.mem_cons_of_mem _ (ih h)
    · exact hn
  | case3 => simp [confirmed]

variable {F : FloatFmt} {o o₁ o₂ : Codec.Order}

/-- The texts that the log of an end says to have been written. -/
def sentTexts (ls : List (Line (ocppj F o side))) : List Text := confirmed (outLines ls)

/-- The texts that the log of an end says to have been received. -/
def receivedTexts (ls : List (Line (ocppj F o side))) : List Text := received ls

theorem C110_core {A B : Side} {dA : List (DEv (ocppj F o₁ A))} {sA} (ha : DExec A dA sA) {dB : List (DEv (ocppj F o₂ B))} {sB} (hb : DExec B dB sB)
    {l : List Text} (he : textsOut (conns dA) = textsIn (conns dB) ++ l) :
    ∃ rest, sentTexts (printed dA) = receivedTexts (printed dB) ++ rest ∨
      ∃ f : Text, (outLines (printed dA)).getLast? = some (.sending f) ∧ sentTexts (printed dA) ++ [f] = receivedTexts (printed dB) ++ rest := by
  obtain ⟨r, hr, -⟩ := hb.received
  obtain ⟨r, rfl⟩ : ∃ r' : List Text, r' = r := ⟨r, rfl⟩
  have hr' : receivedTexts (printed dB) ++ r = textsIn (conns dB) := hr
  rw [← hr', List.append_assoc] at he
  refine ⟨r ++ l, ?_⟩
  rcases C107_written ha with hw | ⟨f, hw, hl⟩
  · left
    rw [← he]; exact hw.symm
  · right
    refine ⟨f, hl, ?_⟩
    rw [← he]; exact hw.symm

/-- **C110** What the log of the central system says to have been received is, text by text and in order, what the log of the charge point says
to have been written, up to what is under way or still to be told; the log that tells of a text as written may be behind by one text,
whose first line it then ends with. -/
theorem C110_toCs {tr} {x : Sys F o₁ o₂} (h : Sys.Exec tr x) {dA sA} (ha : DExec .cp dA sA) (ea : conns dA = atCp tr)
    {dB sB} (hb : DExec .cs dB sB) (eb : conns dB = atCs tr) :
    ∃ rest, sentTexts (printed dA) = receivedTexts (printed dB) ++ rest ∨
      ∃ f : Text, (outLines (printed dA)).getLast? = some (.sending f) ∧ sentTexts (printed dA) ++ [f] = receivedTexts (printed dB) ++ rest := by
  refine C110_core ha hb (l := x.toCs) ?_
  rw [ea, eb]
  exact h.ends.2.2.1

/-- **C110** The same in the other direction. -/
theorem C110_toCp {tr} {x : Sys F o₁ o₂} (h : Sys.Exec tr x) {dA sA} (ha : DExec .cs dA sA) (ea : conns dA = atCs tr)
    {dB sB} (hb : DExec .cp dB sB) (eb : conns dB = atCp tr) :
    ∃ rest, sentTexts (printed dA) = receivedTexts (printed dB) ++ rest ∨
      ∃ f : Text, (outLines (printed dA)).getLast? = some (.sending f) ∧ sentTexts (printed dA) ++ [f] = receivedTexts (printed dB) ++ rest := by
  refine C110_core ha hb (l := x.toCp) ?_
  rw [ea, eb]
  exact h.ends.2.2.2

/-- **C110** When nothing is under way, no end is writing and none is printing lines about a text, the two logs tell the same texts. -/
theorem C110_quiet {tr} {x : Sys F o₁ o₂} (h : Sys.Exec tr x) {dA sA} (ha : DExec .cp dA sA) (ea : conns dA = atCp tr)
    {dB sB} (hb : DExec .cs dB sB) (eb : conns dB = atCs tr) (lA : sA.lock = none) (lB : sB.lock = none) (u1 : x.toCs = []) (u2 : x.toCp = [])
    (rA : ∀ (k : Nat) (f : Text), sA.conn.readers[k]? ≠ some (Reader.got f)) (rB : ∀ (k : Nat) (f : Text), sB.conn.readers[k]? ≠ some (Reader.got f)) :
    sentTexts (printed dA) = receivedTexts (printed dB) ∧ sentTexts (printed dB) = receivedTexts (printed dA) := by
  obtain ⟨-, -, h1, h2⟩ := h.ends
  obtain ⟨r1, e1, n1⟩ := ha.received
  obtain ⟨r2, e2, n2⟩ := hb.received
  have n1 := n1 rA
  have n2 := n2 rB
  subst n1 n2
  rw [List.append_nil] at e1 e2
  rw [u1, List.append_nil] at h1
  rw [u2, List.append_nil] at h2
  have w1 := ha.confirmed_idle lA
  have w2 := hb.confirmed_idle lB
  rw [ea] at w1 e1
  rw [eb] at w2 e2
  exact ⟨w1.symm.trans (h1.trans e2.symm), w2.symm.trans (h2.trans e1.symm)⟩

theorem noGot {c : St (ocppj F o side)} {t} (h : Conn.Exec side t c) (hq : ∃ k, c.loop = .sel k ∧ c.readers[k]? = some .reading) :
    ∀ (k : Nat) (f : Text), c.readers[k]? ≠ some (Reader.got f) := by
  obtain ⟨k, -, hk⟩ := hq
  intro j f hj
  have e1 := (Exec.inv h |>.act j _ hj rfl).1
  have e2 := (Exec.inv h |>.act k _ hk rfl).1
  obtain rfl : j = k := by omega
  rw [hk] at hj
  cases hj

/-- **C110** In particular when nothing has gone wrong with the connection and nothing is left to do (C83): then each end's log tells of
exactly the texts, in the same order, of which the other's does. -/
theorem C110_settled {tr} {x : Sys F o₁ o₂} (h : Sys.Exec tr x) (hp : Proper (atCp tr)) (hs : Proper (atCs tr)) (mp : Smooth (atCp tr)) (ms : Smooth (atCs tr))
    (hr : AtRest x) {dA sA} (ha : DExec .cp dA sA) (ea : conns dA = atCp tr) (xa : sA.conn = x.cp) (lA : sA.lock = none)
    {dB sB} (hb : DExec .cs dB sB) (eb : conns dB = atCs tr) (xb : sB.conn = x.cs) (lB : sB.lock = none) :
    sentTexts (printed dA) = receivedTexts (printed dB) ∧ sentTexts (printed dB) = receivedTexts (printed dA) := by
  obtain ⟨l1, l2⟩ := h.linked hp hs
  obtain ⟨e1, e2, -, -⟩ := h.ends
  obtain ⟨h1, h2⟩ := h.half hp hs mp ms
  obtain ⟨q1, n1⟩ := l1.quiet mp e1 h1 hr.cp
  obtain ⟨q2, n2⟩ := l2.quiet ms e2 h2 hr.cs
  exact C110_quiet h ha ea hb eb lA lB n2 n1 (by rw [xa]; exact noGot e1 q1.listening) (by rw [xb]; exact noGot e2 q2.listening)

/-! ### As lines of the files -/

theorem frameText_same {ps : List (GoRes Text)} {t : Text} (h : frameText ps = .ok t) : normalise t = t := by
  have hn := frameText_clean h
  unfold frameText at h
  rcases hj : joinElems ps ['['] with u | m | m <;> rw [hj] at h <;> simp only [GoRes.bind, reduceCtorEq] at h
  split at h
  · rename_i t' hc
    cases h
    obtain ⟨v, -, hv⟩ := compact_sound hc
    rw [normalise_eq, nl_id fun c hc hcn => hn (hcn ▸ hc)]
    simpa using trim_ws (w := []) (w' := []) isWs_nil isWs_nil hv
  · cases h

theorem encCall_same {id : String} {q : Req} {t : Text} (h : encCall F id q = .ok t) : normalise t = t := by
  unfold encCall at h
  rcases hj : requestPayload F q with u | m | m <;> rw [hj] at h <;> simp only [GoRes.bind, reduceCtorEq] at h
  exact frameText_same h

theorem encReply_same {id : String} {resp : Option Resp} {err : Option String} {t : Text} (h : encReply F id resp err = .ok t) : normalise t = t := by
  unfold encReply at h
  split at h
  · exact frameText_same h
  · split at h <;> exact frameText_same h

theorem encRefusal_same (id c : String) : normalise (encRefusal F id c) = encRefusal F id c := by
  unfold encRefusal
  split
  · rename_i t ht; exact frameText_same ht
  · rfl

/-- A text that the library writes is shown as it is where it is received. -/
theorem written_same {t : List (Ev (ocppj F o side))} {c} (h : Conn.Exec side t c) {f : Text} (hf : f ∈ textsOut t) : normalise f = f := by
  rcases Exec.written h hf with ⟨k, id, c, -, he⟩ | ⟨id, resp, err, -, he, -⟩ | ⟨i, y, -, -, he, -⟩
  · have he : f = encRefusal F id c := he
    rw [he]; exact encRefusal_same id c
  · exact encReply_same he
  · exact encCall_same he

theorem C110_file_core (M M' : MapFmt) {A B : Side} {dA : List (DEv (ocppj F o₁ A))} {sA} (ha : DExec A dA sA) {dB : List (DEv (ocppj F o₂ B))} {sB} (hb : DExec B dB sB)
    {l : List Text} (he : textsOut (conns dA) = textsIn (conns dB) ++ l) {f : Text} (hf : f ∈ receivedTexts (printed dB)) :
    (.sending f : Line (ocppj F o₁ A)) ∈ printed dA ∧ ∃ u : Text, Line.text M' (.raw f : Line (ocppj F o₂ B)) = "Received a message, raw: ".toList ++ u ∧
      Line.text M (.sending f : Line (ocppj F o₁ A)) = "Sending message [raw]: ".toList ++ u := by
  have hin : f ∈ textsIn (conns dB) := by
    obtain ⟨r, hr, -⟩ := hb.received
    rw [show textsIn (conns dB) = _ from hr.symm]
    exact List.mem_append_left _ hf
  have hout : f ∈ textsOut (conns dA) := by rw [he]; exact List.mem_append_left _ hin
  constructor
  · have : (.sending f : Line (ocppj F o₁ A)) ∈ outLines (printed dA) := by
      have hw : f ∈ written (conns dA) := hout
      rcases C107_written ha with h | ⟨g, h, hl⟩
      · rw [h] at hw
        exact confirmed_sub _ _ hw
      · rw [h] at hw
        rcases List.mem_append.1 hw with hw | hw
        · exact confirmed_sub _ _ hw
        · obtain rfl := List.mem_singleton.1 hw
          exact List.mem_of_getLast? hl
    exact (List.mem_filter.1 this).1
  · refine ⟨f, ?_, text_sending M f⟩
    rw [text_raw, written_same ha.conn hout]

/-- **C110** So whoever compares the two files finds for each line that gives a text received one at the other end that gives the same text
as sent, character for character. -/
theorem C110_files (M M' : MapFmt) {tr} {x : Sys F o₁ o₂} (h : Sys.Exec tr x) {dA sA} (ha : DExec .cp dA sA) (ea : conns dA = atCp tr)
    {dB sB} (hb : DExec .cs dB sB) (eb : conns dB = atCs tr) :
    (∀ f : Text, (.raw f : Line (ocppj F o₂ .cs)) ∈ printed dB → ∃ l ∈ printed dA, ∃ u : Text,
      Line.text M' (.raw f : Line (ocppj F o₂ .cs)) = "Received a message, raw: ".toList ++ u ∧ l.text M = "Sending message [raw]: ".toList ++ u) ∧
    (∀ f : Text, (.raw f : Line (ocppj F o₁ .cp)) ∈ printed dA → ∃ l ∈ printed dB, ∃ u : Text,
      Line.text M (.raw f : Line (ocppj F o₁ .cp)) = "Received a message, raw: ".toList ++ u ∧ l.text M' = "Sending message [raw]: ".toList ++ u) := by
  obtain ⟨-, -, h1, h2⟩ := h.ends
  rw [← ea, ← eb] at h1 h2
  constructor
  · intro f hf
    obtain ⟨hm, u, e1, e2⟩ := C110_file_core M M' ha hb h1 (f := f) (List.mem_filterMap.2 ⟨_, hf, rfl⟩)
    exact ⟨_, hm, u, e1, e2⟩
  · intro f hf
    obtain ⟨hm, u, e1, e2⟩ := C110_file_core M' M hb ha h2 (f := f) (List.mem_filterMap.2 ⟨_, hf, rfl⟩)
    exact ⟨_, hm, u, e1, e2⟩

/-- **C110** Whatever the two ends do, the two logs can be written. -/
theorem C110_possible {tr} {x : Sys F o₁ o₂} (h : Sys.Exec tr x) :
    ∃ dA sA dB sB, DExec .cp dA sA ∧ conns dA = atCp tr ∧ sA.conn = x.cp ∧ DExec .cs dB sB ∧ conns dB = atCs tr ∧ sB.conn = x.cs := by
  obtain ⟨h1, h2, -, -⟩ := h.ends
  obtain ⟨dA, sA, a1, a2, a3⟩ := (C107_connection (tr := []) (s := dinit _)).2 _ _ h1
  obtain ⟨dB, sB, b1, b2, b3⟩ := (C107_connection (tr := []) (s := dinit _)).2 _ _ h2
  exact ⟨dA, sA, dB, sB, a1, a2, a3, b1, b2, b3⟩

/-- **C110** And there are such: with one `Send`, answered, between the two ends. -/
theorem C110_example (F : FloatFmt) (o₁ o₂ : Codec.Order) (id : String) (q : Req) (resp : Resp) (hcp : q.type.isChargePoint = true)
    (hs : q.type.action ≠ "DataTransfer".toList) (ht : resp.type = q.type.response)
    (hq : HasTy q.type.ty q.val) (hr : HasTy resp.type.ty resp.val)
    (hi : q.val.IntsAll fun n => |n| ≤ 2 ^ 53) (hi' : resp.val.IntsAll fun n => |n| ≤ 2 ^ 53)
    (hp : q.val.TimesAll GoTime.Plain) (hp' : resp.val.TimesAll GoTime.Plain)
    (hm : ∃ t, marshal F q.type.ty q.val = .ok t) (hm' : ∃ t, marshal F resp.type.ty resp.val = .ok t) :
    ∃ tr, ∃ x : Sys F o₁ o₂, Sys.Exec tr x ∧ Proper (atCp tr) ∧ Proper (atCs tr) ∧ Smooth (atCp tr) ∧ Smooth (atCs tr) ∧ AtRest x ∧
      Ev.finish (S := ocppj F o₁ .cp) 0 (.resp (⟨resp.type, resp.val.cutTimes⟩ : Resp)) ∈ atCp tr ∧
      ∃ dA sA dB sB, DExec .cp dA sA ∧ conns dA = atCp tr ∧ sA.conn = x.cp ∧ sA.lock = none ∧
        DExec .cs dB sB ∧ conns dB = atCs tr ∧ sB.conn = x.cs ∧ sB.lock = none := by
  obtain ⟨tr, x, -, h, h1, h2, h3, h4, h5, -, -, -, h6, -⟩ := oneTrip F o₁ o₂ id q resp hcp hs ht hq hr hi hi' hp hp' hm hm'
  obtain ⟨e1, e2, -, -⟩ := h.ends
  obtain ⟨dA, sA, a1, a2, a3, a4, -⟩ := DExec.exists e1
  obtain ⟨dB, sB, b1, b2, b3, b4, -⟩ := DExec.exists e2
  exact ⟨tr, x, h, h1, h2, h3, h4, h5, h6, dA, sA, dB, sB, a1, a2, a3, a4, b1, b2, b3, b4⟩

end Verif.Debug
