import Verif.Lemmas.Settle5
/-!
# C83: a connection on which nothing goes wrong settles, and then every Send has returned
-/
namespace Verif.Ocppj
open Json Codec Decode Encode Trip Conn

variable {F : FloatFmt} {o₁ o₂ : Order} {tr : List (Ev (ocppj F o₁ .cp) ⊕ Ev (ocppj F o₂ .cs))} {x : Sys F o₁ o₂}

/-- **C83** While nothing goes wrong there are at most sixteen steps for each `Send`, and two to begin with, whatever the schedule: the
goroutines at both ends cannot go on for ever by themselves. -/
theorem C83_settles (h : Sys.Exec tr x) (hp : Proper (atCp tr)) (hs : Proper (atCs tr)) (hmp : Smooth (atCp tr)) (hms : Smooth (atCs tr)) :
    tr.length ≤ 16 * sendCount tr + 2 :=
  h.length_le hp hs hmp hms

/-- **C83** As long as nothing has gone wrong and something is left to do, it can be done without anything going wrong and without another
`Send`, until nothing is left to do. -/
theorem C83_rest (h : Sys.Exec tr x) (hp : Proper (atCp tr)) (hs : Proper (atCs tr)) (hmp : Smooth (atCp tr)) (hms : Smooth (atCs tr)) :
    ∃ t y, Sys.Exec (tr ++ t) y ∧ AtRest y ∧ (∀ e ∈ t, ¬External e) ∧ Proper (atCp (tr ++ t)) ∧ Proper (atCs (tr ++ t)) ∧
      Smooth (atCp (tr ++ t)) ∧ Smooth (atCs (tr ++ t)) :=
  h.toRest hp hs hmp hms

/-- **C83** When nothing has gone wrong and nothing is left to do, every `Send`, at either end, has returned with an answer of the peer
(what the answer says of the peer's handler is C57). -/
theorem C83_returned (h : Sys.Exec tr x) (hp : Proper (atCp tr)) (hs : Proper (atCs tr)) (hmp : Smooth (atCp tr)) (hms : Smooth (atCs tr))
    (hr : AtRest x) :
    (∀ i id (q : Req), Ev.send (S := ocppj F o₁ .cp) i id q ∈ atCp tr → ∃ y, Ev.finish i y ∈ atCp tr) ∧
    (∀ i id (q : Req), Ev.send (S := ocppj F o₂ .cs) i id q ∈ atCs tr → ∃ y, Ev.finish i y ∈ atCs tr) :=
  h.returned hp hs hmp hms hr

/-- **C83** While nothing goes wrong nobody crashes, no connection is closed, no loop ends. -/
theorem C83_alive (h : Sys.Exec tr x) (hp : Proper (atCp tr)) (hs : Proper (atCs tr)) (hmp : Smooth (atCp tr)) (hms : Smooth (atCs tr)) :
    (x.cp.crashed = false ∧ x.cp.closed = false ∧ x.cp.loop ≠ .exited) ∧ (x.cs.crashed = false ∧ x.cs.closed = false ∧ x.cs.loop ≠ .exited) := by
  obtain ⟨l1, l2⟩ := h.linked hp hs
  obtain ⟨e1, e2, -, -⟩ := h.ends
  have c1 := Exec.calm e1 hmp.noFault
  have c2 := Exec.calm e2 hms.noFault
  exact ⟨⟨l1.noCrash hmp e1, c1.open_, c1.loop⟩, l2.noCrash hms e2, c2.open_, c2.loop⟩

/-- A schedule in which nothing goes wrong with one `Send`. -/
theorem oneTrip (F : FloatFmt) (o₁ o₂ : Order) (id : String) (q : Req) (resp : Resp) (hcp : q.type.isChargePoint = true)
    (hs : q.type.action ≠ "DataTransfer".toList) (ht : resp.type = q.type.response)
    (hq : HasTy q.type.ty q.val) (hr : HasTy resp.type.ty resp.val)
    (hi : q.val.IntsAll fun n => |n| ≤ 2 ^ 53) (hi' : resp.val.IntsAll fun n => |n| ≤ 2 ^ 53)
    (hp : q.val.TimesAll GoTime.Plain) (hp' : resp.val.TimesAll GoTime.Plain)
    (hm : ∃ t, marshal F q.type.ty q.val = .ok t) (hm' : ∃ t, marshal F resp.type.ty resp.val = .ok t) :
    ∃ tr : List (Ev (ocppj F o₁ .cp) ⊕ Ev (ocppj F o₂ .cs)), ∃ x v, Sys.Exec tr x ∧ Proper (atCp tr) ∧ Proper (atCs tr) ∧
      Smooth (atCp tr) ∧ Smooth (atCs tr) ∧ AtRest x ∧ sendCount tr = 1 ∧ tr.length = 16 * sendCount tr + 2 ∧
      Ev.send (S := ocppj F o₁ .cp) 0 id q ∈ atCp tr ∧
      Ev.finish (S := ocppj F o₁ .cp) 0 (.resp (⟨resp.type, resp.val.cutTimes⟩ : Resp)) ∈ atCp tr ∧
      handled (atCp tr) = [] ∧ returned (atCp tr) = [] ∧ handled (atCs tr) = [(id, some ⟨q.type, v⟩)] ∧ returned (atCs tr) = [(id, some resp, none)] ∧
      (∀ i, Ev.handlerPanic (S := ocppj F o₁ .cp) i ∉ atCp tr) ∧ (∀ i, Ev.handlerPanic (S := ocppj F o₂ .cs) i ∉ atCs tr) := by
  obtain ⟨t, hm⟩ := hm
  obtain ⟨t', hm'⟩ := hm'
  obtain ⟨f, p, v, h1, h2, h3, -, -⟩ := C14_request F o₂ id q hs hq hi hp t hm
  obtain ⟨g, p', h4, h5, h6⟩ := C14_response F o₁ id q.type hs resp ht hr hi' hp' t' hm'
  obtain ⟨x, hx, n1, n2, n3, n4, n5⟩ := roundTrip_state (o₁ := o₁) (o₂ := o₂) (q' := ⟨q.type, v⟩) hcp h1 h2 h3 h4 h5 h6
  have pp : Proper (atCp (roundTrip F o₁ o₂ id q ⟨q.type, v⟩ f g (some resp) none (.resp (⟨resp.type, resp.val.cutTimes⟩ : Resp)))) := by
    refine ⟨⟨?_, ?_⟩, ?_⟩
    · intro i id' r hm
      simp [roundTrip, atCp] at hm
      obtain ⟨-, -, rfl⟩ := hm
      exact hq
    · intro id' r e hm
      simp [roundTrip, atCp] at hm
    · intro i id' r hm
      simp [roundTrip, atCp] at hm
      obtain ⟨-, -, rfl⟩ := hm
      simp [hcp]
  have ps : Proper (atCs (roundTrip F o₁ o₂ id q ⟨q.type, v⟩ f g (some resp) none (.resp (⟨resp.type, resp.val.cutTimes⟩ : Resp)))) := by
    refine ⟨⟨?_, ?_⟩, ?_⟩
    · intro i id' r hm
      simp [roundTrip, atCs] at hm
    · intro id' r e hm
      simp [roundTrip, atCs] at hm
      obtain ⟨-, rfl, -⟩ := hm
      exact hr
    · intro i id' r hm
      simp [roundTrip, atCs] at hm
  have mp : Smooth (atCp (roundTrip F o₁ o₂ id q ⟨q.type, v⟩ f g (some resp) none (.resp (⟨resp.type, resp.val.cutTimes⟩ : Resp)))) := by
    refine ⟨?_, ?_, ?_⟩
    · simp [roundTrip, atCp, Fault]
    · intro i id' r hm
      simp [roundTrip, atCp] at hm
      obtain ⟨-, -, rfl⟩ := hm
      exact ⟨_, by assumption⟩
    · intro id' r e hm
      simp [roundTrip, atCp] at hm
  have ms : Smooth (atCs (roundTrip F o₁ o₂ id q ⟨q.type, v⟩ f g (some resp) none (.resp (⟨resp.type, resp.val.cutTimes⟩ : Resp)))) := by
    refine ⟨?_, ?_, ?_⟩
    · simp [roundTrip, atCs, Fault]
    · intro i id' r hm
      simp [roundTrip, atCs] at hm
    · intro id' r e hm
      simp [roundTrip, atCs] at hm
      obtain ⟨-, rfl, -⟩ := hm
      exact .inr ⟨_, _, rfl, hm'⟩
  have q1 := hx.snoc (.cp (.result n1 n3 n4) (.other (by intros; simp)))
  have q2 := q1.snoc (.cp (.spawn n1 rfl) (.other (by intros; simp)))
  have q3 := q2.snoc (.cs (.spawn n2 n5) (.other (by intros; simp)))
  refine ⟨_, _, v, q3, ?_, ?_, ?_, ?_, ?_, ?_, ?_, ?_, ?_, ?_, ?_, ?_, ?_, ?_, ?_⟩
  · rw [atCp_inr, atCp_inl, atCp_inl]
    exact (pp.snoc rfl (by simp)).snoc rfl (by simp)
  · rw [atCs_inr, atCs_inl, atCs_inl]
    exact ps.snoc rfl (by simp)
  · rw [atCp_inr, atCp_inl, atCp_inl]
    exact (mp.snoc rfl rfl (by simp)).snoc rfl rfl (by simp)
  · rw [atCs_inr, atCs_inl, atCs_inl]
    exact ms.snoc rfl rfl (by simp)
  · refine q3.full ?_ ?_ ?_ ?_ ?_
    · rw [atCp_inr, atCp_inl, atCp_inl]
      exact (pp.snoc rfl (by simp)).snoc rfl (by simp)
    · rw [atCs_inr, atCs_inl, atCs_inl]
      exact ps.snoc rfl (by simp)
    · rw [atCp_inr, atCp_inl, atCp_inl]
      exact (mp.snoc rfl rfl (by simp)).snoc rfl rfl (by simp)
    · rw [atCs_inr, atCs_inl, atCs_inl]
      exact ms.snoc rfl rfl (by simp)
    · exact Nat.le_refl 18
  · rfl
  · rfl
  · simp [roundTrip, atCp]
  · simp [roundTrip, atCp]
  · rfl
  · rfl
  · rfl
  · rfl
  · simp [roundTrip, atCp]
  · simp [roundTrip, atCs]

/-- **C83** It happens: for every charge point request other than DataTransfer and every response belonging to it, both encodable, there is
a schedule in which nothing goes wrong, and at the end of which nothing is left to do, in which `Send` of the request returns the response; and
it takes as many steps as are possible for one `Send`. -/
theorem C83_possible (F : FloatFmt) (o₁ o₂ : Order) (id : String) (q : Req) (resp : Resp) (hcp : q.type.isChargePoint = true)
    (hs : q.type.action ≠ "DataTransfer".toList) (ht : resp.type = q.type.response)
    (hq : HasTy q.type.ty q.val) (hr : HasTy resp.type.ty resp.val)
    (hi : q.val.IntsAll fun n => |n| ≤ 2 ^ 53) (hi' : resp.val.IntsAll fun n => |n| ≤ 2 ^ 53)
    (hp : q.val.TimesAll GoTime.Plain) (hp' : resp.val.TimesAll GoTime.Plain)
    (hm : ∃ t, marshal F q.type.ty q.val = .ok t) (hm' : ∃ t, marshal F resp.type.ty resp.val = .ok t) :
    ∃ tr : List (Ev (ocppj F o₁ .cp) ⊕ Ev (ocppj F o₂ .cs)), ∃ x, Sys.Exec tr x ∧ Proper (atCp tr) ∧ Proper (atCs tr) ∧
      Smooth (atCp tr) ∧ Smooth (atCs tr) ∧ AtRest x ∧ sendCount tr = 1 ∧ tr.length = 16 * sendCount tr + 2 ∧
      Ev.send (S := ocppj F o₁ .cp) 0 id q ∈ atCp tr ∧
      Ev.finish (S := ocppj F o₁ .cp) 0 (.resp (⟨resp.type, resp.val.cutTimes⟩ : Resp)) ∈ atCp tr := by
  obtain ⟨tr, x, v, h1, h2, h3, h4, h5, h6, h7, h8, h9, h10, -⟩ := oneTrip F o₁ o₂ id q resp hcp hs ht hq hr hi hi' hp hp' hm hm'
  exact ⟨tr, x, h1, h2, h3, h4, h5, h6, h7, h8, h9, h10⟩

end Verif.Ocppj
