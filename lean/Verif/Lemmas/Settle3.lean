import Verif.Lemmas.Settle2
/-!
# Schedules in which nothing goes wrong: no crash, and what is left when nothing is left to do
-/
set_option linter.unusedSimpArgs false
namespace Verif.Conn
variable {S : Sem} {side : Side}

/-- The loop listens to a reader that has not finished. -/
theorem Exec.current {tr : List (Ev S)} {s : St S} (h : Exec side tr s) {k : Nat} (hk : s.loop = .sel k) :
    ∃ p, s.readers[k]? = some p ∧ p ≠ .gone := by
  induction h generalizing k with
  | nil => simp [init] at hk
  | @snoc tr e s s' hr hs ih =>
    have hac : ∀ e', afterResult (S := S) side e' ≠ .sel k := by
      intro e'; unfold afterResult; split <;> simp
    have hat : ∀ id r, afterTake (S := S) side id r ≠ .sel k := by
      intro id r; unfold afterTake; repeat' split
      all_goals simp
    have hlt : ∀ (k : Nat) (p : Reader S), s.readers[k]? = some p → k < s.readers.length :=
      fun k p h => (List.getElem?_eq_some_iff.1 h).1
    cases hs
    case dispatch k' f p hc hk' hp =>
      have hp' : p ≠ .gone := by
        unfold afterRead at hp
        repeat' split at hp
        all_goals simp at hp
        all_goals subst hp; simp
      simp only [St.setReader, List.getElem?_set] at *
      grind
    case spawn =>
      cases hk
      exact ⟨.reading, by simp, by simp⟩
    all_goals
      simp only [St.setReader, St.setPhase, List.getElem?_set, List.getElem?_append] at *
      grind

/-- A reader with an answer has read it. -/
theorem Exec.answer_read {tr : List (Ev S)} {s : St S} (h : Exec side tr s) {k : Nat} {ch : Option Nat} {x : Answer S}
    (hk : s.readers[k]? = some (.toSender ch x)) : ∃ f id, Ev.read k f ∈ tr ∧
      ((∃ p, S.read f = .ok (some (.result id p))) ∨ ∃ c d p, S.read f = .ok (some (.error id c d p))) := by
  induction h with
  | nil => simp [init] at hk
  | @snoc tr e s s' hr hs ih =>
    by_cases ho : s.readers[k]? = some (.toSender ch x)
    · obtain ⟨f, id, h1, h2⟩ := ih ho
      exact ⟨f, id, List.mem_append_left _ h1, h2⟩
    · cases hs
      case dispatch k' f p hc hk' hp =>
        simp only [St.setReader, List.getElem?_set] at hk
        split at hk
        · rename_i hkk
          subst hkk
          split at hk
          · cases hk
            have h1 : Ev.read k' f ∈ tr := Exec.got_read hr hk'
            unfold afterRead at hp
            repeat' split at hp
            all_goals simp at hp
            · exact ⟨f, _, List.mem_append_left _ h1, .inl ⟨_, by assumption⟩⟩
            · exact ⟨f, _, List.mem_append_left _ h1, .inl ⟨_, by assumption⟩⟩
            · exact ⟨f, _, List.mem_append_left _ h1, .inr ⟨_, _, _, by assumption⟩⟩
          · cases hk
        · exact absurd hk ho
      all_goals
        simp only [St.setReader, St.setPhase, List.getElem?_set, List.getElem?_append] at *
        grind

/-- A request without a frame could not be encoded. -/
theorem Exec.noFrame {tr : List (Ev S)} {s : St S} (h : Exec side tr s) {i : Nat} {x : Sender S} (hx : s.senders[i]? = some x)
    (hf : x.frame = none) : ∃ m, S.encCall x.id x.req = .err m := by
  induction h generalizing x with
  | nil => simp [init] at hx
  | @snoc tr e s s' hr hs ih =>
    cases hs <;> simp only [St.setReader, St.setPhase, List.getElem?_set, List.getElem?_append] at * <;> grind

end Verif.Conn

namespace Verif.Ocppj
open Json Codec Decode Encode Trip Conn

variable {F : FloatFmt} {o₁ o₂ : Order} {a b : Side} {trA : List (Ev (ocppj F o₁ a))} {trB : List (Ev (ocppj F o₂ b))}

theorem encCall_ok {id : String} {q : Req} {text : Text} (hv : HasTy q.type.ty q.val) (h : marshal F q.type.ty q.val = .ok text) :
    ∃ f, encCall F id q = .ok f := by
  obtain ⟨t, _, p, _, _, _, h1, h2⟩ := C10_request F id q hv text h
  exact ⟨t, h1⟩

theorem encReply_ok {id : String} {resp : Option Resp} {err : Option String} (hv : ∀ r, resp = some r → HasTy r.type.ty r.val)
    (h : err ≠ none ∨ ∃ r text, resp = some r ∧ marshal F r.type.ty r.val = .ok text) :
    ∃ f, encReply F id resp err = .ok f ∧ replyOf f = some id := by
  cases err with
  | some e =>
    obtain ⟨t, h1, h2⟩ := C10_handlerError F id resp e
    exact ⟨t, h1, by simp [replyOf, h2]⟩
  | none =>
    obtain h | ⟨r, text, rfl, hm⟩ := h
    · exact absurd rfl h
    · obtain ⟨t, _, p, _, _, h1, h2⟩ := C10_result F id r (hv r rfl) text hm
      exact ⟨t, h1, by simp [replyOf, h2]⟩

/-- What the peer writes can be read without a panic. -/
theorem Linked.readable (h : Linked trA trB) {f : Text} (hf : f ∈ textsOut trB) : (receive f).isPanic = false ∧ receive f ≠ .ok none := by
  obtain ⟨sB, hB⟩ := h.right
  rcases Exec.written hB hf with ⟨k, id', c, hk, he⟩ | ⟨id', resp, err, hw, he, hm⟩ | ⟨j, x, -, -, he, hsx⟩
  · have : receive f = .ok (some (.error id' c "on handling message" [])) := by
      rw [he]; exact C10_refusal F id' c
    simp [this, GoRes.isPanic]
  · rcases reply_read (handlerRet_typed h.properB.typed hm) he with ⟨e, -, h1⟩ | ⟨-, -, e, h1⟩ | ⟨-, r, p', -, h1⟩ <;>
      simp [h1, GoRes.isPanic]
  · obtain ⟨p', h1⟩ := call_read (h.properB.typed.1 j x.id x.req hsx) he
    simp [h1, GoRes.isPanic]

/-- Nobody crashes. -/
theorem Linked.noCrash (h : Linked trA trB) (hm : Smooth trA) {sA : St (ocppj F o₁ a)} (hA : Conn.Exec a trA sA) : sA.crashed = false := by
  by_contra hc
  rw [Bool.not_eq_false] at hc
  obtain ⟨tr', e, rfl, hcr⟩ := Exec.crash hA hc
  have hread : ∀ k f, Ev.read (S := ocppj F o₁ a) k f ∈ tr' → f ∈ textsOut trB := by
    intro k f hk
    refine h.back.subset ?_
    show (f : Text) ∈ textsIn _
    unfold textsIn framesRead
    exact List.mem_filterMap.2 ⟨_, List.mem_append_left _ hk, rfl⟩
  cases hcr with
  | @text k f h1 h2 =>
    obtain ⟨g1, g2⟩ := h.readable (hread k f h1)
    rcases h2 with h2 | h2
    · exact absurd (g1.symm.trans h2) (by simp)
    · exact g2 h2
  | @result k f id p i r h1 h2 h3 h4 h5 h6 =>
    have hid : replyOf f = some id := by
      unfold replyOf
      rw [show receive f = _ from h2]
    obtain ⟨j, x, fc, g1, g2, g3, g4⟩ := h.reply_origin hA (hread k f h1) hid
    have g5 := g4 p h2
    rcases Exec.sender_of_send hA i id r (List.mem_append_left _ h3) with ⟨y, hy, h7, h8⟩ | ⟨-, h7⟩
    · obtain rfl := (Exec.minv hA).ids i j y x hy g1 (h7.trans g2.symm)
      obtain rfl : y = x := Option.some.inj (hy.symm.trans g1)
      rw [h8] at g5
      exact g5 (resultToResponse_panic h6)
    · obtain ⟨s0, hA0, hs0⟩ := Run.split hA
      have hn := Exec.sender_of_send hA0 i id r h3
      have h9 : s0.crashed = false ∧ sA.senders = s0.senders := by
        obtain ⟨s1, g6, g7⟩ := Run.cons_inv hs0
        have g8 : s1 = sA := by
          generalize hh : ([] : List (Ev (ocppj F o₁ a))) = t at g7
          cases g7 with
          | nil => rfl
          | snoc _ _ => simp at hh
        subst g8
        refine ⟨step_not_crashed g6, ?_⟩
        cases g6 <;> rfl
      rcases hn with ⟨y, hy, h7, h8⟩ | ⟨h8, -⟩
      · rw [← h9.2] at hy
        exact absurd (List.getElem?_eq_some_iff.1 hy).1 (by omega)
      · rw [h9.1] at h8; cases h8
  | @send i id r h1 =>
    obtain ⟨text, ht⟩ := hm.requests i id r (by simp)
    obtain ⟨f, hf⟩ := encCall_ok (id := id) (h.properA.typed.1 i id r (by simp)) ht
    rw [show (ocppj F o₁ a).encCall id r = _ from hf] at h1
    cases h1
  | @handler id h1 h2 => exact absurd (hm.noFault (.handlerPanic id) (by simp)) (by simp [Fault])
  | @answer id resp err _ h1 h2 => exact absurd (hm.noFault (.answer id resp err none) (by simp)) (by simp [Fault])

/-! ### Both ends -/

theorem atCp_inl {α β : Type} (tr : List (α ⊕ β)) (e : α) : atCp (tr ++ [.inl e]) = atCp tr ++ [e] := by simp [atCp]
theorem atCs_inl {α β : Type} (tr : List (α ⊕ β)) (e : α) : atCs (tr ++ [.inl e]) = atCs tr := by simp [atCs]
theorem atCp_inr {α β : Type} (tr : List (α ⊕ β)) (e : β) : atCp (tr ++ [.inr e]) = atCp tr := by simp [atCp]
theorem atCs_inr {α β : Type} (tr : List (α ⊕ β)) (e : β) : atCs (tr ++ [.inr e]) = atCs tr ++ [e] := by simp [atCs]

theorem Proper.prefix {tr tr' : List (Ev (ocppj F o₁ a))} (h : Proper (tr ++ tr')) : Proper tr :=
  ⟨⟨fun i id q hm => h.typed.1 i id q (List.mem_append_left _ hm), fun id r err hm => h.typed.2 id r err (List.mem_append_left _ hm)⟩,
    fun i id q hm => h.own i id q (List.mem_append_left _ hm)⟩

theorem Sys.Exec.half {tr : List (Ev (ocppj F o₁ .cp) ⊕ Ev (ocppj F o₂ .cs))} {x : Sys F o₁ o₂} (h : Sys.Exec tr x)
    (hp : Proper (atCp tr)) (hs : Proper (atCs tr)) (hmp : Smooth (atCp tr)) (hms : Smooth (atCs tr)) :
    Half (atCp tr) x.cp ∧ Half (atCs tr) x.cs := by
  induction h with
  | nil => exact ⟨fun k f id hm => by simp [atCp] at hm, fun k f id hm => by simp [atCs] at hm⟩
  | @snoc tr e x y h hst ih =>
    have hl := (Sys.Exec.snoc h hst).linked hp hs
    obtain ⟨e1, e2, -, -⟩ := h.ends
    cases hst with
    | @cp e s' l hst hc =>
      rw [atCp_inl] at hp hmp hl
      rw [atCs_inl] at hs hms hl
      obtain ⟨h1, h2⟩ := ih hp.prefix hs hmp.prefix hms
      rw [atCp_inl, atCs_inl]
      exact ⟨half_step e1 hst hl.1 hmp h1, h2⟩
    | @cs e s' l hst hc =>
      rw [atCp_inr] at hp hmp hl
      rw [atCs_inr] at hs hms hl
      obtain ⟨h1, h2⟩ := ih hp hs.prefix hmp hms.prefix
      rw [atCp_inr, atCs_inr]
      exact ⟨h1, half_step e2 hst hl.2 hms h2⟩

/-- Nothing is left to do at an end, with these frames under way to it. -/
def Still (s : St (ocppj F o₁ a)) (l : List Text) : Prop :=
  ∀ e s' l', Conn.Step a s e s' → Consumes e l l' → Fault e = true ∨ isSend e = true

theorem AtRest.cp {x : Sys F o₁ o₂} (h : AtRest x) : Still x.cp x.toCp := fun _ _ _ h1 h2 => h _ _ (.cp h1 h2)
theorem AtRest.cs {x : Sys F o₁ o₂} (h : AtRest x) : Still x.cs x.toCs := fun _ _ _ h1 h2 => h _ _ (.cs h1 h2)

/-- What an end looks like when nothing is left to do. -/
structure Quiet (s : St (ocppj F o₁ a)) : Prop where
  listening : ∃ k, s.loop = .sel k ∧ s.readers[k]? = some .reading
  phases : ∀ (i : Nat) (x : Sender (ocppj F o₁ a)), s.senders[i]? = some x → x.phase = .waiting ∨ ∃ y, x.phase = .done (.answered y)

theorem Linked.quiet (h : Linked trA trB) (hm : Smooth trA) {sA : St (ocppj F o₁ a)} (hA : Conn.Exec a trA sA) (hh : Half trA sA) {l : List Text}
    (hs : Still sA l) : Quiet sA ∧ l = [] := by
  have hc := h.noCrash hm hA
  have hcalm := Exec.calm hA hm.noFault
  have hst : ∀ e s', Conn.Step a sA e s' → (∀ k f, e ≠ .read k f) → Fault e = false → isSend e = false → False := by
    intro e s' h1 h2 h3 h4
    rcases hs e s' l h1 (.other h2) with h5 | h5
    · rw [h3] at h5; cases h5
    · rw [h4] at h5; cases h5
  have hloop : ∃ k, sA.loop = .sel k := by
    cases hl : sA.loop with
    | top => exact (hst _ _ (.spawn hc hl) (by simp) rfl rfl).elim
    | sel k => exact ⟨k, rfl⟩
    | handling id r => exact (hst _ _ (.handlerRet none none hc hl) (by simp) rfl rfl).elim
    | answering id resp err =>
      have hr := Exec.answering_ret hA hl
      have hans := hm.answers id resp err hr
      obtain ⟨f, hf, -⟩ := encReply_ok (F := F) (id := id) (fun r hr' => h.properA.typed.2 id r err (by subst hr'; exact hr)) hans
      exact (hst _ _ (.answerOk hc hl hf hcalm.open_) (by simp) rfl rfl).elim
    | exited => exact absurd hl hcalm.loop
  obtain ⟨k, hk⟩ := hloop
  obtain ⟨p, hp, hg⟩ := Exec.current hA hk
  have hp' : p = .reading := by
    cases p with
    | reading => rfl
    | got f =>
      cases hd : afterRead sA f with
      | none => exact (hst _ _ (.dispatchPanic hc hp hd) (by simp) rfl rfl).elim
      | some q => exact (hst _ _ (.dispatch hc hp hd) (by simp) rfl rfl).elim
    | refusing id c => exact (hst _ _ (.refuse true hc hp fun _ => hcalm.open_) (by simp) rfl rfl).elim
    | toLoop id r => exact (hst _ _ (.take hc ⟨k, hk⟩ hp) (by simp) rfl rfl).elim
    | toSender ch x =>
      obtain ⟨f, id, h1, h2⟩ := Exec.answer_read hA hp
      have hid : replyOf f = some id := by
        unfold replyOf
        rcases h2 with ⟨p, h2⟩ | ⟨c, d, p, h2⟩ <;> rw [show receive f = _ from h2]
      obtain ⟨i, y, q, g1, g2, g3, g4⟩ := hh k f id h1 hid
      obtain rfl : q = .toSender ch x := Option.some.inj (g3.symm.trans hp)
      obtain ⟨rfl, g5⟩ := g4
      exact (hst _ _ (.deliver hc hp g1 g5) (by simp) rfl rfl).elim
    | offer e => exact (hst _ _ (.result hc hk hp) (by simp) rfl rfl).elim
    | gone => exact absurd rfl hg
  subst hp'
  refine ⟨⟨⟨k, hk, hp⟩, ?_⟩, ?_⟩
  · intro i x hx
    obtain ⟨c1, c2, c3, c4⟩ := hcalm.phases i x hx
    cases hph : x.phase with
    | fresh => exact (hst _ _ (.regSent hc hx hph) (by simp) rfl rfl).elim
    | half => exact (hst _ _ (.regChan hc hx hph) (by simp) rfl rfl).elim
    | registered =>
      cases hf : x.frame with
      | none => exact absurd hf (c4 (by rw [hph]; simp))
      | some f => exact (hst _ _ (.writeOk hc hx hph hf hcalm.open_) (by simp) rfl rfl).elim
    | waiting => exact .inl rfl
    | received y => exact (hst _ _ (.finish hc hx hph) (by simp) rfl rfl).elim
    | done o =>
      cases o with
      | answered y => exact .inr ⟨y, rfl⟩
      | timeout => exact absurd hph c1
      | writeErr => exact absurd hph c2
      | encodeErr =>
        obtain ⟨m, hm'⟩ := Exec.noFrame hA hx (c3 hph)
        have hsend : Ev.send i x.id x.req ∈ trA := by simpa using (Exec.sends hA i x hx).1
        obtain ⟨text, ht⟩ := hm.requests i x.id x.req hsend
        obtain ⟨f, hf⟩ := encCall_ok (id := x.id) (h.properA.typed.1 i x.id x.req hsend) ht
        rw [show (ocppj F o₁ a).encCall x.id x.req = _ from hf] at hm'
        cases hm'
  · cases l with
    | nil => rfl
    | cons f l =>
      rcases hs _ _ l (.read (f := f) hc hp) .read with h5 | h5 <;> cases h5


end Verif.Ocppj
