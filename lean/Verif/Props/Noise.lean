import Verif.Lemmas.Noise
import Verif.Props.ConnOcpp
/-!
# C77: texts that are no messages
-/
namespace Verif.Conn
variable {S : Sem} {side : Side}

/-- **C77** Texts that are no messages might as well not have been sent: to every history there is one in which exactly these
texts are not read, in which everything observable happens in the same order (requests taken, handler calls, refusals and
replies with what they write, Sends with what they write and return, closing, failed reads), and which leaves the pending calls,
the Sends and the connection as they are. -/
theorem C77_invisible {tr : List (Ev S)} {s : St S} (h : Exec side tr s) :
    ∃ tr' s', Exec side tr' s' ∧ framesRead tr' = (framesRead tr).filter (fun f => !noMessage f) ∧
      tr'.filterMap Ev.visible = tr.filterMap Ev.visible ∧
      s'.sent = s.sent ∧ s'.chan = s.chan ∧ s'.senders = s.senders ∧ s'.closed = s.closed ∧ s'.crashed = s.crashed := by
  obtain ⟨tr', r, l, h1, -, h2, h3⟩ := erase h
  exact ⟨tr', _, h1, h3, h2, rfl, rfl, rfl, rfl, rfl⟩

/-- What is written is observable. -/
theorem visible_wrote (e : Ev S) : (e.visible.bind Ev.wrote) = e.wrote := by
  cases e with
  | refuse k id c ok => cases ok <;> rfl
  | _ => rfl

/-- **C77** In particular the same frames are written in the same order, and the same requests are taken. -/
theorem C77_written {tr : List (Ev S)} {s : St S} (h : Exec side tr s) :
    ∃ tr' s', Exec side tr' s' ∧ framesRead tr' = (framesRead tr).filter (fun f => !noMessage f) ∧
      tr'.filterMap Ev.wrote = tr.filterMap Ev.wrote ∧ taken tr' = taken tr ∧ handlerCalls tr' = handlerCalls tr ∧
      handlerRets tr' = handlerRets tr ∧ s'.closed = s.closed := by
  obtain ⟨tr', s', h1, h2, h3, -, -, -, h4, -⟩ := C77_invisible h
  have key : ∀ {β : Type} (f : Ev S → Option β), (∀ e, e.visible.bind f = f e) → tr'.filterMap f = tr.filterMap f := by
    intro β f hf
    have : ∀ l : List (Ev S), l.filterMap f = (l.filterMap Ev.visible).filterMap f := by
      intro l
      rw [List.filterMap_filterMap]
      congr 1
      funext e
      exact (hf e).symm
    rw [this, this tr, h3]
  refine ⟨tr', s', h1, h2, key _ visible_wrote, key _ ?_, key _ ?_, key _ ?_, h4⟩ <;>
  · intro e
    cases e with
    | take k id r arg => cases arg <;> rfl
    | _ => rfl

/-- **C77** After such a text the connection goes on: the text can be dealt with and the next one read at once, whereby nothing else
changes. -/
theorem C77_goesOn {tr : List (Ev S)} {s : St S} (h : Exec side tr s) {k : Nat} {f : S.Frame} (hk : s.readers[k]? = some (.got f))
    (hf : noMessage f = true) (hcr : s.crashed = false) (hcl : s.closed = false) :
    (∀ s', Step side s (.dispatch k) s' → s' = s.setReader k (.offer .err)) ∧
    ∃ s', Run side s [.dispatch k, .result k .err, .spawn (k + 1)] s' ∧ s'.readers[k + 1]? = some .reading ∧
      s'.sent = s.sent ∧ s'.chan = s.chan ∧ s'.senders = s.senders ∧ s'.closed = false ∧ s'.crashed = false := by
  have hafter : afterRead s f = some (.offer .err) := by
    unfold noMessage at hf
    unfold afterRead
    cases he : S.read f with
    | err m => rfl
    | ok m => rw [he] at hf; cases hf
    | panic m => rw [he] at hf; cases hf
  refine ⟨?_, ?_⟩
  · intro s' hs
    cases hs with
    | dispatch hc hk' hp' => rw [hk] at hk'; cases hk'; rw [hafter] at hp'; cases hp'; rfl
    | dispatchPanic hc hk' hp' => rw [hk] at hk'; cases hk'; rw [hafter] at hp'; cases hp'
  have hi := Exec.inv h
  obtain ⟨hlen, hloop⟩ := hi.act k _ hk rfl
  have hsel : s.loop = .sel k := by
    rcases hloop with h1 | h1
    · exact h1
    · rcases Exec.exited h h1 with h2 | h2
      · rw [hcl] at h2; simp at h2
      · rw [hcr] at h2; simp at h2
  have hlt : k < s.readers.length := by omega
  have st0 : Step side s (.dispatch k) (s.setReader k (.offer .err)) := .dispatch hcr hk hafter
  have st1 : Step side (s.setReader k (.offer .err)) (.result k .err) _ :=
    Step.result (k := k) (e := .err) hcr hsel (by simp [St.setReader, hlt])
  have hres : afterResult (S := S) side .err = .top := by cases side <;> rfl
  have st2 := Step.spawn (side := side) (S := S)
    (s := { (s.setReader k (.offer .err)).setReader k .gone with
            loop := afterResult side .err
            closed := s.closed || (decide (side = .cs ∧ ReadRes.err = .closeErr)) }) hcr hres
  have hl2 : ((s.setReader k (.offer .err)).setReader k .gone).readers.length = k + 1 := by
    simp [St.setReader]; omega
  simp only [hl2] at st2
  refine ⟨_, Run.snoc (Run.snoc (Run.snoc .nil st0) st1) st2, ?_, rfl, rfl, rfl, ?_, hcr⟩
  · rw [List.getElem?_append_right (by omega)]; simp [hl2]
  · simp [hcl]

end Verif.Conn

namespace Verif.Ocppj
open Json Codec Decode Encode Trip Conn

/-- **C77** Which texts these are on an OCPP-J connection: those that are no JSON texts or have numbers out of range, and those
of a malformed value (no array, or one with an element of the wrong kind). -/
theorem C77_texts (F : FloatFmt) (o : Order) (side : Side) (t : Text) :
    noMessage (S := ocppj F o side) t = true ↔
      (∀ j, ¬ (JsonText j (normalise t) ∧ InRange j)) ∨ ∃ j, JsonText j (normalise t) ∧ InRange j ∧ Malformed j := by
  have e : noMessage (S := ocppj F o side) t = (receive t).isErr := rfl
  rw [e]
  by_cases hx : ∃ j, JsonText j (normalise t) ∧ InRange j
  · obtain ⟨j, hj, hr⟩ := hx
    obtain ⟨h1, h2⟩ := unmarshalMessage_spec (normalise t)
    obtain ⟨t1, t2, t3⟩ := trichotomy hr
    have hM : (receive t).isErr = true ↔ Malformed j := by
      constructor
      · intro he
        rcases t1 with ⟨vs, m, rfl, hs⟩ | h | h
        · have : receive t = .ok (some m) := (h1 m).2 ⟨vs, hj, hr, hs⟩
          rw [this] at he; cases he
        · have : Crashes (receive t) := h2.2 ⟨j, hj, hr, h⟩
          cases hc : receive t with
          | err m => rw [hc] at this; simp [Crashes] at this
          | ok m => rw [hc] at he; cases he
          | panic m => rw [hc] at he; cases he
        · exact h
      · intro hm
        cases hc : receive t with
        | err m => rfl
        | panic m =>
          obtain ⟨j', a, b, c⟩ := h2.1 (by rw [show unmarshalMessage (normalise t) = _ from hc]; simp [Crashes])
          rw [jsonText_unique a hj] at c
          exact absurd hm (t3 c)
        | ok x =>
          cases x with
          | none =>
            obtain ⟨j', a, b, c⟩ := h2.1 (by rw [show unmarshalMessage (normalise t) = _ from hc]; simp [Crashes])
            rw [jsonText_unique a hj] at c
            exact absurd hm (t3 c)
          | some m =>
            obtain ⟨vs, a, b, c⟩ := (h1 m).1 hc
            have := jsonText_unique a hj
            exact absurd hm (t2 ⟨vs, m, this.symm, c⟩)
    rw [hM]
    constructor
    · intro h; exact .inr ⟨j, hj, hr, h⟩
    · rintro (h | ⟨j', a, b, c⟩)
      · exact absurd ⟨hj, hr⟩ (h j)
      · rw [jsonText_unique hj a]; exact c
  · have hx' : ∀ j, ¬ (JsonText j (normalise t) ∧ InRange j) := fun j hj => hx ⟨j, hj⟩
    obtain ⟨m, hm⟩ := (C11_everyText t).2 hx'
    rw [hm]
    exact iff_of_true rfl (.inl hx')

/-- A text of a malformed value: an object instead of an array. -/
example (F : FloatFmt) (o : Order) (side : Side) : noMessage (S := ocppj F o side) "{}".toList = true := by
  refine (C77_texts F o side _).2 (.inr ⟨.obj [], ?_, True.intro, .notArray (by simp) (by simp)⟩)
  exact (Value.objNil (w := []) (by intro c hc; cases hc)).jsonText

/-- A history with such a text, which is dealt with. -/
example (F : FloatFmt) (o : Order) (side : Side) : ∃ s, Exec (S := ocppj F o side) side
    [.spawn 0, .read 0 "{}".toList, .dispatch 0, .result 0 .err, .spawn 1] s ∧ s.closed = false := by
  have hf : noMessage (S := ocppj F o side) "{}".toList = true := by
    refine (C77_texts F o side _).2 (.inr ⟨.obj [], ?_, True.intro, .notArray (by simp) (by simp)⟩)
    exact (Value.objNil (w := []) (by intro c hc; cases hc)).jsonText
  have h0 : Exec (S := ocppj F o side) side [.spawn 0, .read 0 "{}".toList] _ :=
    .snoc (.snoc (tr := []) .nil (.spawn rfl rfl)) (.read (S := ocppj F o side) (k := 0) (f := "{}".toList) rfl rfl)
  obtain ⟨-, s', h1, -, -, -, -, h2, -⟩ := C77_goesOn h0 (k := 0) (f := "{}".toList) rfl hf rfl rfl
  exact ⟨s', Run.append h0 h1, h2⟩

end Verif.Ocppj
