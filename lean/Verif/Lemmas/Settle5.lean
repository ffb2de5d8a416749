import Verif.Lemmas.Settle4
/-!
# Schedules in which nothing goes wrong: they come to an end
-/
set_option linter.unusedSimpArgs false
namespace Verif.Conn
variable {S : Sem} {side : Side}

/-- Events of a Send that are over. -/
def Phase.rank : Phase S → Nat
  | .fresh => 1
  | .half => 2
  | .registered => 3
  | .waiting => 4
  | .received _ => 4
  | .done _ => 5

/-- Events left to a reader, until the next one is started. -/
def Reader.left : Reader S → Nat
  | .reading => 0
  | .got _ => 4
  | .refusing _ _ => 3
  | .toLoop _ _ => 3
  | .toSender _ _ => 3
  | .offer _ => 2
  | .gone => 0

/-- Events left until the loop reads again. -/
def St.left (s : St S) : Nat :=
  match s.loop with
  | .top => 1
  | .sel k => (s.readers[k]?.map Reader.left).getD 0
  | .handling _ _ => 3
  | .answering _ _ _ => 2
  | .exited => 0

/-- Sum of the ranks. -/
def ranks (l : List (Sender S)) : Nat := (l.map fun x => x.phase.rank).sum

theorem ranks_set {l : List (Sender S)} {i : Nat} {x : Sender S} (h : l[i]? = some x) (y : Sender S) :
    ranks (l.set i y) + x.phase.rank = ranks l + y.phase.rank := by
  induction l generalizing i with
  | nil => simp at h
  | cons z l ih =>
    cases i with
    | zero => simp at h; subst h; simp [ranks]; omega
    | succ i =>
      have := ih (i := i) (by simpa using h)
      simp only [ranks, List.set_cons_succ, List.map_cons, List.sum_cons] at this ⊢
      omega

theorem ranks_append (l : List (Sender S)) (x : Sender S) : ranks (l ++ [x]) = ranks l + x.phase.rank := by
  simp [ranks]

theorem ranks_le (l : List (Sender S)) : ranks l ≤ 5 * l.length := by
  induction l with
  | nil => simp [ranks]
  | cons z l ih =>
    have : z.phase.rank ≤ 5 := by cases z.phase <;> simp [Phase.rank]
    simp only [ranks, List.map_cons, List.sum_cons, List.length_cons] at ih ⊢
    omega

/-- The number of events is bounded by what was read, taken and sent. -/
theorem Exec.bounded {tr : List (Ev S)} {s : St S} (h : Exec side tr s) (hf : ∀ e ∈ tr, Ocppj.Fault e = false) (hc : s.crashed = false) :
    tr.length + s.left ≤ 5 * (framesRead tr).length + (taken tr).length + 1 + ranks s.senders := by
  induction h with
  | nil => simp [init, St.left, framesRead, taken, ranks]
  | @snoc tr e s s' hr hs ih =>
    have hcalm := Exec.calm hr fun e he => hf e (List.mem_append_left _ he)
    have hinv := Exec.inv hr
    have hfe := hf e (by simp)
    have ih' := ih (fun e he => hf e (List.mem_append_left _ he)) (step_not_crashed hs)
    clear ih
    have hlt : ∀ (k : Nat) (p : Reader S), s.readers[k]? = some p → k < s.readers.length :=
      fun k p h => (List.getElem?_eq_some_iff.1 h).1
    have hcur : ∀ (k : Nat) (p : Reader S), s.readers[k]? = some p → p.active = true → s.loop = .sel k := by
      intro k p h1 h2
      rcases (hinv.act k p h1 h2).2 with h3 | h3
      · exact h3
      · exact absurd h3 hcalm.loop
    have hleft : ∀ (k : Nat) (p : Reader S), s.readers[k]? = some p → p.active = true → s.left = p.left := by
      intro k p h1 h2
      simp [St.left, hcur k p h1 h2, h1]
    have hset : ∀ (k : Nat) (p q : Reader S) (s1 : St S), s.readers[k]? = some p → p.active = true → s1.loop = s.loop →
        s1.readers = s.readers.set k q → s1.left = q.left := by
      intro k p q s1 h1 h2 h3 h4
      simp [St.left, h3, h4, hcur k p h1 h2, hlt k p h1]
    rw [List.length_append, framesRead, taken, List.filterMap_append, List.filterMap_append, List.length_append, List.length_append]
    change tr.length + s.left ≤ 5 * (framesRead tr).length + (taken tr).length + 1 + ranks s.senders at ih'
    simp only [framesRead, taken] at ih'
    cases hs
    case spawn hc' hl =>
      have h1 : s.left = 1 := by simp [St.left, hl]
      have h2 : ({ s with loop := .sel s.readers.length, readers := s.readers ++ [.reading] } : St S).left = 0 := by
        simp [St.left, Reader.left]
      rw [h2]
      simp only [List.length_singleton, List.filterMap_cons, List.filterMap_nil, List.length_nil]
      omega
    case read k f hc' hk =>
      have h1 := hleft k _ hk rfl
      have h2 := hset k _ (.got f) (s.setReader k (.got f)) hk rfl rfl rfl
      rw [h2]
      simp only [Reader.left, St.setReader] at h1 ⊢
      simp only [List.length_singleton, List.filterMap_cons, List.filterMap_nil, List.length_nil]
      omega
    case dispatch k f p hc' hk hp =>
      have h1 := hleft k _ hk rfl
      have h2 := hset k _ p (s.setReader k p) hk rfl rfl rfl
      have h3 : p.left ≤ 3 := by
        unfold afterRead at hp
        repeat' split at hp
        all_goals simp at hp
        all_goals subst hp; simp [Reader.left]
      rw [h2]
      simp only [Reader.left] at h1
      simp only [St.setReader]
      simp only [List.length_singleton, List.filterMap_cons, List.filterMap_nil, List.length_nil]
      omega
    case refuse k id c ok hc' hk hok =>
      have h1 := hleft k _ hk rfl
      have h2 := hset k _ (.offer (if ok then .nil else .err)) (s.setReader k (.offer (if ok then .nil else .err))) hk rfl rfl rfl
      rw [h2]
      simp only [Reader.left, St.setReader] at h1 ⊢
      simp only [List.length_singleton, List.filterMap_cons, List.filterMap_nil, List.length_nil]
      omega
    case take k id r hc' hl hk =>
      have h1 := hleft k _ hk rfl
      have h2 : ({ s.setReader k (.offer .nil) with loop := afterTake side id r } : St S).left ≤ 3 := by
        have : ∀ k, afterTake (S := S) side id r ≠ .sel k := by
          intro k; unfold afterTake; repeat' split
          all_goals simp
        simp only [St.left]
        split <;> first | omega | (rename_i h; exact absurd h (this _))
      simp only [Reader.left, St.setReader] at h1 h2 ⊢
      simp only [List.length_singleton, List.filterMap_cons, List.filterMap_nil, List.length_nil]
      omega
    case handlerRet id r resp err hc' hl =>
      simp only [St.left, hl, List.length_singleton, List.filterMap_cons, List.filterMap_nil, List.length_nil] at ih' ⊢
      omega
    case answerOk id resp err f hc' hl _ _ =>
      simp only [St.left, hl, List.length_singleton, List.filterMap_cons, List.filterMap_nil, List.length_nil] at ih' ⊢
      omega
    case result k e hc' hl hk =>
      have h1 : s.left = 2 := by simp [St.left, hl, hk, Reader.left]
      have h2 : ({ s.setReader k .gone with loop := afterResult side e, closed := s.closed || (decide (side = .cs ∧ e = .closeErr)) } : St S).left ≤ 1 := by
        have : afterResult (S := S) side e = .top ∨ afterResult (S := S) side e = .exited := by
          unfold afterResult; split <;> simp
        rcases this with h | h <;> simp [St.left, h]
      simp only [St.setReader] at h1 h2 ⊢
      simp only [List.length_singleton, List.filterMap_cons, List.filterMap_nil, List.length_nil]
      omega
    case seeClosed k hc' hl hcl => rw [hcalm.open_] at hcl; cases hcl
    case send id r f hc' hn he =>
      have h2 : ({ s with senders := s.senders ++ [⟨id, r, some f, .fresh⟩] } : St S).left = s.left := rfl
      rw [h2, ranks_append]
      simp only [Phase.rank, List.length_singleton, List.filterMap_cons, List.filterMap_nil, List.length_nil]
      omega
    case sendErr id r m hc' hn he =>
      have h2 : ({ s with senders := s.senders ++ [⟨id, r, none, .done .encodeErr⟩] } : St S).left = s.left := rfl
      rw [h2, ranks_append]
      simp only [Phase.rank, List.length_singleton, List.filterMap_cons, List.filterMap_nil, List.length_nil]
      omega
    case regSent i x hc' hx hp =>
      have h1 := ranks_set hx { x with phase := .half }
      rw [hp] at h1
      have h2 : ({ s.setPhase i x .half with sent := upd s.sent x.id (some (S.action x.req)) } : St S).left = s.left := rfl
      rw [h2]
      simp only [Phase.rank, St.setPhase, List.length_singleton, List.filterMap_cons, List.filterMap_nil, List.length_nil] at h1 ⊢
      omega
    case regChan i x hc' hx hp =>
      have h1 := ranks_set hx { x with phase := .registered }
      rw [hp] at h1
      have h2 : ({ s.setPhase i x .registered with chan := upd s.chan x.id (some i) } : St S).left = s.left := rfl
      rw [h2]
      simp only [Phase.rank, St.setPhase, List.length_singleton, List.filterMap_cons, List.filterMap_nil, List.length_nil] at h1 ⊢
      omega
    case writeOk i x f hc' hx hp _ _ =>
      have h1 := ranks_set hx { x with phase := .waiting }
      rw [hp] at h1
      have h2 : (s.setPhase i x .waiting).left = s.left := rfl
      rw [h2]
      simp only [Phase.rank, St.setPhase, List.length_singleton, List.filterMap_cons, List.filterMap_nil, List.length_nil] at h1 ⊢
      omega
    case deliver k i y x hc' hk hx hp =>
      have h1 := ranks_set hx { x with phase := .received y }
      rw [hp] at h1
      have h2 := hleft k _ hk rfl
      have h3 := hset k _ (.offer .nil) ((s.setReader k (.offer .nil)).setPhase i x (.received y)) hk rfl rfl rfl
      rw [h3]
      simp only [Phase.rank, Reader.left, St.setPhase, St.setReader, List.length_singleton, List.filterMap_cons, List.filterMap_nil, List.length_nil] at h1 h2 ⊢
      omega
    case finish i y x hc' hx hp =>
      have h1 := ranks_set hx { x with phase := .done (.answered y) }
      rw [hp] at h1
      have h2 : ({ s.setPhase i x (.done (.answered y)) with sent := upd s.sent x.id none, chan := upd s.chan x.id none } : St S).left = s.left := rfl
      rw [h2]
      simp only [Phase.rank, St.setPhase, List.length_singleton, List.filterMap_cons, List.filterMap_nil, List.length_nil] at h1 ⊢
      omega
    all_goals first
      | (simp [Ocppj.Fault] at hfe; done)
      | (cases hc; done)

theorem Exec.sendCount {tr : List (Ev S)} {s : St S} (h : Exec side tr s) : s.senders.length ≤ tr.countP Ocppj.isSend := by
  induction h with
  | nil => simp [init]
  | @snoc tr e s s' hr hs ih =>
    rw [List.countP_append]
    cases hs <;> simp [St.setReader, St.setPhase, Ocppj.isSend] <;> omega

theorem written_length (tr : List (Ev S)) : (written tr).length ≤ (refusals tr).length + (answers tr).length + (callsOut tr).length := by
  induction tr with
  | nil => simp [written]
  | cons e tr ih =>
    unfold written refusals answers callsOut at *
    simp only [List.filterMap_cons]
    rcases e with _ | _ | _ | _ | ⟨_, _, _, _ | _⟩ | _ | _ | _ | ⟨_, _, _, _ | _⟩ | _ | _ | _ | _ | _ | _ | _ | ⟨_, _ | _⟩ | _ | _ | _ <;>
      simp [Ev.wrote, Ev.callOut] <;> omega

end Verif.Conn

namespace Verif.Ocppj
open Json Codec Decode Encode Trip Conn

variable {F : FloatFmt} {o₁ o₂ : Order} {a b : Side} {trA : List (Ev (ocppj F o₁ a))} {trB : List (Ev (ocppj F o₂ b))}

theorem due_length (l : List Text) : (l.filterMap callOf).length = (l.filterMap (requestDue F)).length + (l.filterMap (refusalDue F)).length := by
  induction l with
  | nil => rfl
  | cons f l ih =>
    simp only [List.filterMap_cons]
    rcases hr : receive f with (_ | (_ | _ | _)) | _ | _
    case ok.some.call id' action p =>
      have e1 : callOf f = some id' := by simp [callOf, hr]
      cases hd : dueTo F action p with
      | ok r =>
        have e2 : requestDue F f = some (id', r) := by simp [requestDue, due, hr, hd]
        have e3 : refusalDue F f = none := by simp [refusalDue, due, hr, hd]
        simp only [e1, e2, e3, List.length_cons, ih]; omega
      | error c =>
        have e2 : requestDue F f = none := by simp [requestDue, due, hr, hd]
        have e3 : refusalDue F f = some (id', c) := by simp [refusalDue, due, hr, hd]
        simp only [e1, e2, e3, List.length_cons, ih]; omega
    all_goals
      have e1 : callOf f = none := by simp [callOf, hr]
      have e2 : requestDue F f = none := by simp [requestDue, due, hr]
      have e3 : refusalDue F f = none := by simp [refusalDue, due, hr]
      simp only [e1, e2, e3]; exact ih

theorem calls_length {sA : St (ocppj F o₁ a)} (hA : Conn.Exec a trA sA) (ht : Typed trA) :
    ((textsOut trA).filterMap callOf).length ≤ (callTexts trA).length ∧ (callTexts trA).length ≤ trA.countP isSend := by
  constructor
  · have h1 : (textsOut trA).filterMap callOf = (callTexts trA).filterMap fun x => callOf x.2 := by
      refine written_filterMap (S := ocppj F o₁ a) callOf trA ?_ ?_
      · intro id c
        show callOf (encRefusal F id c) = none
        simp [callOf, C10_refusal]
      · intro id resp err f hm
        obtain ⟨-, -, ⟨rp, -, h3⟩, h4⟩ := C24_one_reply_per_request hA
        have hmem : (id, resp, err) ∈ handlerRets trA := by
          rw [h3, List.mem_append]
          left
          simp only [answers, List.mem_filterMap]
          exact ⟨_, hm, rfl⟩
        have hty := handlerRet_typed ht hmem
        unfold callOf
        rcases reply_read hty (h4 id resp err f hm) with ⟨e, -, h1⟩ | ⟨-, -, e, h1⟩ | ⟨-, r, p', -, h1⟩ <;> simp [h1]
    rw [h1]
    exact List.length_filterMap_le _ _
  · obtain ⟨h2, h3⟩ := Exec.callsOut hA
    have h4 : ((callTexts trA).map (·.1)).length ≤ (List.range sA.senders.length).length := by
      refine (List.subperm_of_subset h2 ?_).length_le
      intro i hi
      obtain ⟨⟨j, f⟩, hj, rfl⟩ := List.mem_map.1 hi
      obtain ⟨x, hx, -⟩ := h3 j f hj
      exact List.mem_range.2 (List.getElem?_eq_some_iff.1 hx).1
    rw [List.length_map, List.length_range] at h4
    exact h4.trans (Exec.sendCount hA)

/-- Requests taken and calls refused are no more than the Sends at the other end. -/
theorem Linked.due_le (h : Linked trA trB) : (takenReqs trB).length + (refusals trB).length ≤ trA.countP isSend := by
  obtain ⟨sA, hA⟩ := h.left
  obtain ⟨sB, hB⟩ := h.right
  obtain ⟨⟨p, hp, -⟩, p', hp', -⟩ := C20_calls hB
  obtain ⟨p', hp2⟩ : ∃ p' : List (String × Req), (textsIn trB).filterMap (requestDue F) = takenReqs trB ++ p' := ⟨p', hp'⟩
  have hp1 : (textsIn trB).filterMap (refusalDue F) = refusals trB ++ p := hp
  have h1 := due_length (F := F) (textsIn trB)
  rw [hp1, hp2, List.length_append, List.length_append] at h1
  have h2 : ((textsIn trB).filterMap callOf).length ≤ ((textsOut trA).filterMap callOf).length := (h.there.sublist.filterMap _).length_le
  obtain ⟨h3, h4⟩ := calls_length hA h.properA.typed
  omega

theorem Linked.reads_le (h : Linked trA trB) : (textsIn trA).length ≤ trA.countP isSend + trB.countP isSend := by
  obtain ⟨sA, hA⟩ := h.left
  obtain ⟨sB, hB⟩ := h.right
  have h1 : (textsIn trA).length ≤ (textsOut trB).length := h.back.length_le
  have h2 : (textsOut trB).length ≤ (refusals trB).length + (answers trB).length + (callTexts trB).length := written_length trB
  have h3 := h.due_le
  have h4 := (answers_ids hB).length_le
  rw [List.length_map, List.length_map] at h4
  obtain ⟨-, h5⟩ := calls_length hB h.properB.typed
  omega

theorem Linked.length_le (h : Linked trA trB) (hm : Smooth trA) :
    trA.length ≤ 10 * trA.countP isSend + 6 * trB.countP isSend + 1 := by
  obtain ⟨sA, hA⟩ := h.left
  have h1 := Exec.bounded hA hm.noFault (h.noCrash hm hA)
  have h2 : (framesRead trA).length ≤ trA.countP isSend + trB.countP isSend := h.reads_le
  have h3 : (taken trA).length + (refusals trA).length ≤ trB.countP isSend := h.symm.due_le
  have h4 := ranks_le sA.senders
  have h5 := Exec.sendCount hA
  omega

variable {tr : List (Ev (ocppj F o₁ .cp) ⊕ Ev (ocppj F o₂ .cs))} {x : Sys F o₁ o₂}

theorem ends_length {α β : Type} (tr : List (α ⊕ β)) : tr.length = (atCp tr).length + (atCs tr).length := by
  induction tr with
  | nil => rfl
  | cons e tr ih =>
    cases e with
    | inl e =>
      rw [show atCp (Sum.inl e :: tr) = e :: atCp tr from rfl, show atCs (Sum.inl e :: tr) = atCs tr from rfl]
      simp only [List.length_cons]; omega
    | inr e =>
      rw [show atCp (Sum.inr e :: tr) = atCp tr from rfl, show atCs (Sum.inr e :: tr) = e :: atCs tr from rfl]
      simp only [List.length_cons]; omega

theorem sendCount_ends (tr : List (Ev (ocppj F o₁ .cp) ⊕ Ev (ocppj F o₂ .cs))) :
    sendCount tr = (atCp tr).countP isSend + (atCs tr).countP isSend := by
  unfold sendCount
  induction tr with
  | nil => rfl
  | cons e tr ih =>
    rw [List.countP_cons, ih]
    cases e with
    | inl e =>
      rw [show atCp (Sum.inl e :: tr) = e :: atCp tr from rfl, show atCs (Sum.inl e :: tr) = atCs tr from rfl, List.countP_cons]
      simp only [Sum.elim_inl]; split <;> simp_all <;> omega
    | inr e =>
      rw [show atCp (Sum.inr e :: tr) = atCp tr from rfl, show atCs (Sum.inr e :: tr) = e :: atCs tr from rfl, List.countP_cons]
      simp only [Sum.elim_inr]; split <;> simp_all <;> omega

theorem Sys.Exec.length_le (h : Sys.Exec tr x) (hp : Proper (atCp tr)) (hs : Proper (atCs tr)) (hmp : Smooth (atCp tr)) (hms : Smooth (atCs tr)) :
    tr.length ≤ 16 * sendCount tr + 2 := by
  obtain ⟨l1, l2⟩ := h.linked hp hs
  have h1 := l1.length_le hmp
  have h2 := l2.length_le hms
  rw [ends_length, sendCount_ends]
  omega

/-- An event that is neither a fault nor a Send, nor a return of the handler, keeps a history smooth and proper. -/
theorem Smooth.snoc {e : Ev (ocppj F o₁ a)} (h : Smooth trA) (h1 : Fault e = false) (h2 : isSend e = false)
    (h3 : ∀ id (resp : Option Resp) err, e = .handlerRet (S := ocppj F o₁ a) id resp err → err ≠ none) : Smooth (trA ++ [e]) := by
  constructor
  · intro e' he
    rw [List.mem_append, List.mem_singleton] at he
    rcases he with he | rfl
    · exact h.noFault e' he
    · exact h1
  · intro i id q hm
    rw [List.mem_append, List.mem_singleton] at hm
    rcases hm with hm | rfl
    · exact h.requests i id q hm
    · cases h2
  · intro id resp err hm
    rw [List.mem_append, List.mem_singleton] at hm
    rcases hm with hm | hm
    · exact h.answers id resp err hm
    · exact .inl (h3 id resp err hm.symm)

theorem Proper.snoc {e : Ev (ocppj F o₁ a)} (h : Proper trA) (h2 : isSend e = false)
    (h3 : ∀ id (resp : Option Resp) err, e = .handlerRet (S := ocppj F o₁ a) id resp err → resp = none) : Proper (trA ++ [e]) := by
  refine ⟨⟨?_, ?_⟩, ?_⟩
  · intro i id q hm
    rw [List.mem_append, List.mem_singleton] at hm
    rcases hm with hm | rfl
    · exact h.typed.1 i id q hm
    · cases h2
  · intro id r err hm
    rw [List.mem_append, List.mem_singleton] at hm
    rcases hm with hm | hm
    · exact h.typed.2 id r err hm
    · exact absurd (h3 id (some r) err hm.symm) (by simp)
  · intro i id q hm
    rw [List.mem_append, List.mem_singleton] at hm
    rcases hm with hm | rfl
    · exact h.own i id q hm
    · cases h2

/-- A step that is neither a fault nor a Send can be taken so that the handler, if it returns, returns an error. -/
theorem Still.next {s : St (ocppj F o₁ a)} {l : List Text} (h : ¬Still s l) : ∃ e s' l', Conn.Step a s e s' ∧ Consumes e l l' ∧
    Fault e = false ∧ isSend e = false ∧
    ∀ id (resp : Option Resp) err, e = .handlerRet (S := ocppj F o₁ a) id resp err → err ≠ none ∧ resp = none := by
  unfold Still at h
  push Not at h
  obtain ⟨e, s', l', h1, h2, h3, h4⟩ := h
  replace h3 := Bool.eq_false_iff.2 h3
  replace h4 := Bool.eq_false_iff.2 h4
  by_cases hh : ∃ id resp err, e = .handlerRet (S := ocppj F o₁ a) id resp err
  · obtain ⟨id, resp, err, rfl⟩ := hh
    cases h1 with
    | @handlerRet _ r _ _ hc hl =>
      refine ⟨.handlerRet id none (some "error"), _, l, .handlerRet none (some "error") hc hl, .other (by simp), rfl, rfl, ?_⟩
      intro id' resp' err' he
      cases he
      exact ⟨by simp, rfl⟩
  · exact ⟨e, s', l', h1, h2, h3, h4, fun id resp err he => absurd ⟨id, resp, err, he⟩ hh⟩

theorem not_atRest {x : Sys F o₁ o₂} (h : ¬AtRest x) : ¬Still x.cp x.toCp ∨ ¬Still x.cs x.toCs := by
  by_contra hn
  push Not at hn
  refine h fun e y hs => ?_
  cases hs with
  | cp h1 h2 => exact hn.1 _ _ _ h1 h2
  | cs h1 h2 => exact hn.2 _ _ _ h1 h2

/-- When there have been as many events as there can be, nothing is left to do. -/
theorem Sys.Exec.full (h : Sys.Exec tr x) (hp : Proper (atCp tr)) (hs : Proper (atCs tr)) (hmp : Smooth (atCp tr)) (hms : Smooth (atCs tr))
    (hn : 16 * sendCount tr + 2 ≤ tr.length) : AtRest x := by
  by_contra hr
  rcases not_atRest hr with hr | hr
  · obtain ⟨e, s', l', h1, h2, h3, h4, h5⟩ := Still.next hr
    have := (Sys.Exec.snoc h (.cp h1 h2)).length_le (by rw [atCp_inl]; exact hp.snoc h4 fun id r err he => (h5 id r err he).2)
      (by rw [atCs_inl]; exact hs) (by rw [atCp_inl]; exact hmp.snoc h3 h4 fun id r err he => (h5 id r err he).1) (by rw [atCs_inl]; exact hms)
    simp only [sendCount, List.countP_append, List.countP_singleton, Sum.elim_inl, h4, List.length_append, List.length_singleton] at this hn
    simp only [Bool.false_eq_true, if_false] at this
    omega
  · obtain ⟨e, s', l', h1, h2, h3, h4, h5⟩ := Still.next hr
    have := (Sys.Exec.snoc h (.cs h1 h2)).length_le (by rw [atCp_inr]; exact hp)
      (by rw [atCs_inr]; exact hs.snoc h4 fun id r err he => (h5 id r err he).2)
      (by rw [atCp_inr]; exact hmp) (by rw [atCs_inr]; exact hms.snoc h3 h4 fun id r err he => (h5 id r err he).1)
    simp only [sendCount, List.countP_append, List.countP_singleton, Sum.elim_inr, h4, List.length_append, List.length_singleton] at this hn
    simp only [Bool.false_eq_true, if_false] at this
    omega

/-- A smooth history can be continued, without faults and new Sends, until nothing is left to do. -/
theorem Sys.Exec.toRest (h : Sys.Exec tr x) (hp : Proper (atCp tr)) (hs : Proper (atCs tr)) (hmp : Smooth (atCp tr)) (hms : Smooth (atCs tr)) :
    ∃ t y, Sys.Exec (tr ++ t) y ∧ AtRest y ∧ (∀ e ∈ t, ¬External e) ∧ Proper (atCp (tr ++ t)) ∧ Proper (atCs (tr ++ t)) ∧
      Smooth (atCp (tr ++ t)) ∧ Smooth (atCs (tr ++ t)) := by
  generalize hn : 16 * sendCount tr + 2 - tr.length = n
  induction n generalizing tr x with
  | zero =>
    by_cases hr : AtRest x
    · exact ⟨[], x, by simpa using h, hr, by simp, by simpa using hp, by simpa using hs, by simpa using hmp, by simpa using hms⟩
    · exact absurd (h.full hp hs hmp hms (by omega)) hr
  | succ n ih =>
    by_cases hr : AtRest x
    · exact ⟨[], x, by simpa using h, hr, by simp, by simpa using hp, by simpa using hs, by simpa using hmp, by simpa using hms⟩
    · rcases not_atRest hr with hr | hr
      · obtain ⟨e, s', l', h1, h2, h3, h4, h5⟩ := Still.next hr
        obtain ⟨t, y, g1, g2, g3, g4⟩ := ih (Sys.Exec.snoc h (.cp h1 h2)) (by rw [atCp_inl]; exact hp.snoc h4 fun id r err he => (h5 id r err he).2)
          (by rw [atCs_inl]; exact hs) (by rw [atCp_inl]; exact hmp.snoc h3 h4 fun id r err he => (h5 id r err he).1) (by rw [atCs_inl]; exact hms)
          (by
            simp only [sendCount, List.countP_append, List.countP_singleton, Sum.elim_inl, h4, List.length_append, List.length_singleton] at hn ⊢
            simp only [Bool.false_eq_true, if_false]
            omega)
        rw [List.append_assoc] at g1 g4
        refine ⟨[.inl e] ++ t, y, g1, g2, ?_, g4⟩
        intro e' he
        rcases List.mem_cons.1 he with rfl | he
        · simp [External, h3, h4]
        · exact g3 e' he
      · obtain ⟨e, s', l', h1, h2, h3, h4, h5⟩ := Still.next hr
        obtain ⟨t, y, g1, g2, g3, g4⟩ := ih (Sys.Exec.snoc h (.cs h1 h2)) (by rw [atCp_inr]; exact hp)
          (by rw [atCs_inr]; exact hs.snoc h4 fun id r err he => (h5 id r err he).2)
          (by rw [atCp_inr]; exact hmp) (by rw [atCs_inr]; exact hms.snoc h3 h4 fun id r err he => (h5 id r err he).1)
          (by
            simp only [sendCount, List.countP_append, List.countP_singleton, Sum.elim_inr, h4, List.length_append, List.length_singleton] at hn ⊢
            simp only [Bool.false_eq_true, if_false]
            omega)
        rw [List.append_assoc] at g1 g4
        refine ⟨[.inr e] ++ t, y, g1, g2, ?_, g4⟩
        intro e' he
        rcases List.mem_cons.1 he with rfl | he
        · simp [External, h3, h4]
        · exact g3 e' he

end Verif.Ocppj
