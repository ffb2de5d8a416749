import Verif.Lemmas.Conn6
import Verif.Model.Service
import Verif.Props.Conn
import Verif.Props.Frame
/-!
# Connections that speak OCPP-J

The executions of a connection (`Verif.Model.Conn`) with the real meaning of the texts (`Verif.Model.Ocppj`).
-/
namespace Verif.Ocppj
open Json Codec Decode Encode Trip Conn

variable {F : FloatFmt} {o : Order} {side : Side}

/-- The request and response objects given to the library have the types they claim (Go's type checker sees to that). -/
def Typed (tr : List (Ev (ocppj F o side))) : Prop :=
  (∀ i id (r : Req), Ev.send (S := ocppj F o side) i id r ∈ tr → HasTy r.type.ty r.val) ∧
  (∀ id (r : Resp) e, Ev.handlerRet (S := ocppj F o side) id (some r) e ∈ tr → HasTy r.type.ty r.val)

/-! ### C12: crashes -/

/-- **C12** Every text of a crashing value crashes the process as soon as it has been read. -/
theorem C12_crash (F : FloatFmt) (o : Order) (side : Side) (t : Text) (j : JVal) (hj : JsonText j (normalise t)) (hr : InRange j)
    (hc : Crashing j) {tr : List (Ev (ocppj F o side))} {s : St (ocppj F o side)} (_h : Exec side tr s) {k : Nat}
    (hk : s.readers[k]? = some (.got t)) (hn : s.crashed = false) :
    (∃ s', Step side s (.dispatch k) s') ∧ ∀ s', Step side s (.dispatch k) s' → s'.crashed = true := by
  have hcr := (C12_crash_iff t).2 ⟨j, hj, hr, hc⟩
  have ha : afterRead s t = none := by
    unfold afterRead
    have e : (ocppj F o side).read t = receive t := rfl
    rw [e]
    cases h : receive t with
    | panic m => rfl
    | err m => rw [h] at hcr; simp [Crashes] at hcr
    | ok x =>
      cases x with
      | none => rfl
      | some m => rw [h] at hcr; simp [Crashes] at hcr
  refine ⟨⟨_, .dispatchPanic hn hk ha⟩, ?_⟩
  intro s' hs
  cases hs with
  | dispatch h1 h2 h3 => rw [hk] at h2; cases h2; rw [ha] at h3; cases h3
  | dispatchPanic => rfl

theorem encReply_noPanic (F : FloatFmt) (id : String) (resp : Option Resp) (err : Option String)
    (hv : ∀ r, resp = some r → HasTy r.type.ty r.val) : (encReply F id resp err).isPanic = false := by
  cases err with
  | some e =>
    obtain ⟨t, h, _⟩ := C10_handlerError F id resp e
    rw [h]; rfl
  | none =>
    cases resp with
    | none =>
      obtain ⟨t, e, h, _⟩ := C16_stranded F id
      rw [h]; rfl
    | some r =>
      have hn := C08_response_noPanic F r.type r.val (hv r rfl)
      cases hm : marshal F r.type.ty r.val with
      | ok text =>
        obtain ⟨t, _, _, _, _, h, _⟩ := C10_result F id r (hv r rfl) text hm
        rw [h]; rfl
      | err e => simp [encReply, frameText, hm, joinElems, GoRes.bind, GoRes.isPanic, typeText]
      | panic e => rw [hm] at hn; cases hn

theorem encCall_panic (F : FloatFmt) (id : String) (r : Req) (hv : HasTy r.type.ty r.val)
    (h : (encCall F id r).isPanic = true) : (marshal F r.type.ty r.val).isPanic = true := by
  cases hm : marshal F r.type.ty r.val with
  | panic e => rfl
  | err e => rw [(C10_unsendable F id r).1 e hm] at h; cases h
  | ok text =>
    obtain ⟨t, _, _, _, _, _, h', _⟩ := C10_request F id r hv text hm
    rw [h'] at h; cases h

theorem resultToResponse_panic {F : FloatFmt} {o : Order} {q : ReqType} {p : Payload}
    (h : (resultToResponse F o (String.ofList q.action) p).isPanic = true) : q.action = "DataTransfer".toList := by
  by_contra hne
  have ha := C17_actions.2.1 q hne
  unfold resultToResponse at h
  rw [String.toList_ofList, ha] at h
  simp only [] at h
  have hd := (C04_decode o (.resp q.response) (anyText F (.obj p))).2.1
  change (decode o q.response.ty (anyText F (.obj p))).isPanic = false at hd
  split at h
  · cases h
  · cases h
  · rename_i m hm; rw [hm] at hd; cases hd

/-- **C12** The process crashes in no other way than these: by a text with a crashing value; by a CallResult to a DataTransfer
that this side sent and has not been answered yet (C19); by sending a SendLocalList with an entry without expiry date
(C08); or, at a charge point only, by a panic of the user's handler. -/
theorem C12_crash_only {tr : List (Ev (ocppj F o side))} {s : St (ocppj F o side)} (h : Exec side tr s) (ht : Typed tr)
    (hc : s.crashed = true) :
    ∃ tr' e, tr = tr' ++ [e] ∧
      ((∃ (k : Nat) (t : Text) (j : JVal), e = .dispatch k ∧ Ev.read (S := ocppj F o side) k t ∈ tr' ∧ JsonText j (normalise t) ∧ InRange j ∧
          Crashing j) ∨
       (∃ (k : Nat) (t : Text) (id : String) (p : Payload) (i : Nat) (q : Req), e = .dispatch k ∧
          Ev.read (S := ocppj F o side) k t ∈ tr' ∧ receive t = .ok (some (.result id p)) ∧
          Ev.send (S := ocppj F o side) i id q ∈ tr' ∧ q.type.action = "DataTransfer".toList ∧
          .regSent i ∈ tr' ∧ ∀ a, .finish i a ∉ tr') ∨
       (∃ (i : Nat) (id : String) (r : Req), e = Ev.send (S := ocppj F o side) i id r ∧ r.type = .csreqSendLocalList ∧
          ∃ v entries u, r.val = .struct [v, .slice entries, u] ∧ ∃ x ∈ entries, ExpiryMissing x) ∨
       (side = .cp ∧ ∃ id ∈ (handlerCalls tr').map (·.1), e = Ev.handlerPanic (S := ocppj F o side) id)) := by
  obtain ⟨tr', e, rfl, hcr⟩ := Exec.crash h hc
  refine ⟨tr', e, rfl, ?_⟩
  cases hcr with
  | @text k f h1 h2 =>
    refine .inl ?_
    have hcr : Crashes (receive f) := by
      change (receive f).isPanic = true ∨ receive f = .ok none at h2
      rcases h2 with h2 | h2
      · cases hr : receive f with
        | panic m => simp [Crashes]
        | ok x => rw [hr] at h2; cases h2
        | err x => rw [hr] at h2; cases h2
      · rw [h2]; simp [Crashes]
    obtain ⟨j, g1, g2, g3⟩ := (C12_crash_iff f).1 hcr
    exact ⟨k, f, j, rfl, h1, g1, g2, g3⟩
  | @result k f id p i r h1 h2 h3 h4 h5 h6 =>
    exact .inr (.inl ⟨k, f, id, p, i, r, rfl, h1, h2, h3, resultToResponse_panic h6, h4, h5⟩)
  | @send i id r h1 =>
    have hv := ht.1 i id r (by simp)
    obtain ⟨g1, g2⟩ := (C08_panic_iff F (.req r.type) r.val hv).1 (encCall_panic F id r hv h1)
    exact .inr (.inr (.inl ⟨i, id, r, rfl, by simpa using g1, g2⟩))
  | @handler id h1 h2 => exact .inr (.inr (.inr ⟨h1, id, h2, rfl⟩))
  | @answer id resp err _ h1 h2 =>
    have := encReply_noPanic F id resp err (fun r hr => ht.2 id r err (by subst hr; exact List.mem_append_left _ h1))
    exact absurd (this.symm.trans h2) (by simp)

/-! ### C16 -/

/-- **C16** The frame written for a handler that returned neither a response nor an error does not answer anything: there is no
call for which the library, on the other side, would take it for an answer. -/
theorem C16_noAnswer {tr : List (Ev (ocppj F o side))} {s : St (ocppj F o side)} (h : Exec side tr s) (id : String) (t : Text)
    (hw : Ev.answer (S := ocppj F o side) id none none (some t) ∈ tr) (side' : Side) (id' action : String)
    (x : Answer (ocppj F o side')) : ¬ AnswerTo (S := ocppj F o side') id' action t x := by
  have he := (C24_one_reply_per_request h).2.2.2 id none none t hw
  obtain ⟨t', e, h1, h2⟩ := C16_stranded F id
  have : t' = t := by
    have : GoRes.ok t' = GoRes.ok t := h1.symm.trans he
    simpa using this
  subst this
  intro ha
  have hread : ∀ y, (ocppj F o side').read t' ≠ .ok y := fun y hy => by
    have : GoRes.err e = GoRes.ok y := h2.symm.trans hy
    cases this
  cases ha with
  | resp h _ => exact hread _ h
  | code h _ => exact hread _ h
  | callErr h => exact hread _ h

/-! ### C18 -/

theorem resultToResponse_typed {F : FloatFmt} {o : Order} {q : ReqType} {p : Payload} {r : Resp}
    (h : resultToResponse F o (String.ofList q.action) p = .ok r) : r.type = q.response ∧ HasTy r.type.ty r.val := by
  unfold resultToResponse at h
  rw [String.toList_ofList] at h
  cases hq : reqFromAction q.action with
  | none => rw [hq] at h; simp at h
  | some q' =>
    have hqq : q' = q := by
      by_cases hd : q.action = "DataTransfer".toList
      · rw [hd, C17_actions.2.2.1] at hq; cases hq
      · rw [C17_actions.2.1 q hd] at hq; cases hq; rfl
    subst hqq
    rw [hq] at h
    simp only [] at h
    split at h
    · rename_i v hv
      cases h
      exact ⟨rfl, (C04_decode o (.resp q'.response) _).2.2 v hv⟩
    · cases h
    · cases h

/-- **C18** (OCPP-J) A `Send` that returns a response returns one of the type belonging to the request sent, of the right
direction; the service's type assertion succeeds. -/
theorem C18_json {tr : List (Ev (ocppj F o side))} {s : St (ocppj F o side)} (h : Exec side tr s) (i : Nat) (r : Resp)
    (hf : Ev.finish (S := ocppj F o side) i (.resp r) ∈ tr) :
    ∃ id q, Ev.send (S := ocppj F o side) i id q ∈ tr ∧ r.type = q.type.response ∧ HasTy r.type.ty r.val ∧
      assertResponse q.type.isChargePoint r = some r := by
  obtain ⟨k, f, id, q, ha, _, hs⟩ := (C21_responses_never_crossed h).1 i _ hf
  cases ha with
  | resp h1 h2 =>
    obtain ⟨g1, g2⟩ := resultToResponse_typed (q := q.type) h2
    refine ⟨id, q, hs.subset (by simp), g1, g2, ?_⟩
    unfold assertResponse
    rw [g1, (C17_actions.2.2.2 q.type).2.2]
    simp

/-! ### C19 -/

/-- **C19** A CallResult that answers a DataTransfer which this side has sent and not got an answer for crashes the process,
whatever its payload. -/
theorem C19_crash {tr : List (Ev (ocppj F o side))} {s : St (ocppj F o side)} (h : Exec side tr s) (hn : s.crashed = false)
    (i : Nat) (id : String) (q : Req) (hs : Ev.send (S := ocppj F o side) i id q ∈ tr) (hd : q.type.action = "DataTransfer".toList)
    (hr : .regSent i ∈ tr) (hf : ∀ a, .finish i a ∉ tr) (k : Nat) (t : Text) (p : Payload)
    (hk : s.readers[k]? = some (.got t)) (ht : receive t = .ok (some (.result id p))) :
    (∃ s', Step side s (.dispatch k) s') ∧ ∀ s', Step side s (.dispatch k) s' → s'.crashed = true := by
  have hp := (C29_pending_entries h id).1.2 ⟨i, q, hs, hr, hf⟩
  have ha : afterRead s t = none := by
    unfold afterRead
    rw [show (ocppj F o side).read t = _ from ht]
    cases hsent : s.sent id with
    | none => exact absurd hsent hp
    | some a =>
      obtain ⟨i', x, hx, h1, h2, _⟩ := ((Exec.minv h).sent id a).1 hsent
      have hx' : x.req = q := by
        rcases Exec.sender_of_send h i id q hs with ⟨y, hy, h3, h4⟩ | ⟨h3, _⟩
        · have := (Exec.minv h).ids _ _ _ _ hx hy (h1.trans h3.symm)
          subst this
          rw [hx] at hy; cases hy; exact h4
        · rw [hn] at h3; cases h3
      have ha : a = "DataTransfer" := by
        rw [h2, hx']
        change String.ofList q.type.action = _
        rw [hd]; rfl
      subst ha
      have hpan := (C19_dataTransfer F o p).2
      simp only [hsent]
      rw [show (ocppj F o side).toResponse = resultToResponse F o from rfl]
      cases hx : resultToResponse F o "DataTransfer" p with
      | panic m => rfl
      | ok m => rw [hx] at hpan; cases hpan
      | err m => rw [hx] at hpan; cases hpan
  refine ⟨⟨_, .dispatchPanic hn hk ha⟩, ?_⟩
  intro s' hs'
  cases hs' with
  | dispatch h1 h2 h3 => rw [hk] at h2; cases h2; rw [ha] at h3; cases h3
  | dispatchPanic => rfl

/-! ### C20 -/

/-- What is due to a call: an error code if the action is not supported or the payload is not a JSON object of the action's
request type; otherwise the request. -/
def dueTo (F : FloatFmt) (action : String) (p : Payload) : Except String Req :=
  match reqFromAction action.toList with
  | none => .error "NotSupported"
  | some r =>
    match (MsgType.req r).read (jsonOf F (.obj p)) with
    | none => .error "FormationViolation"
    | some v => .ok ⟨r, v⟩

/-- What is due to a text that is a Call, with its id. -/
def due (F : FloatFmt) (t : Text) : Option (String × Except String Req) :=
  match receive t with
  | .ok (some (.call id action p)) => some (id, dueTo F action p)
  | _ => none

/-- The refusal due. -/
def refusalDue (F : FloatFmt) (t : Text) : Option (String × String) :=
  match due F t with
  | some (id, .error c) => some (id, c)
  | _ => none

/-- The request due to the handler. -/
def requestDue (F : FloatFmt) (t : Text) : Option (String × Req) :=
  match due F t with
  | some (id, .ok r) => some (id, r)
  | _ => none

theorem callToRequest_eq (F : FloatFmt) (o : Order) (action : String) (p : Payload) :
    callToRequest F o action p = dueTo F action p := by
  unfold dueTo
  unfold callToRequest
  cases reqFromAction action.toList with
  | none => rfl
  | some r =>
    simp only []
    have hj := (anyText_value F (.obj p)).jsonText
    cases hr : (MsgType.req r).read (jsonOf F (.obj p)) with
    | some v =>
      have := (decode_iff (o := o) (m := .req r) hj v).2 hr
      rw [show decode o r.ty (anyText F (.obj p)) = .ok v from this]
    | none =>
      cases hd : decode o r.ty (anyText F (.obj p)) with
      | ok v =>
        have := (decode_iff (o := o) (m := .req r) hj v).1 hd
        rw [hr] at this; cases this
      | err e => rfl
      | panic e => rfl

theorem refusedIn_eq (F : FloatFmt) (o : Order) (side : Side) (t : Text) :
    refusedIn (S := ocppj F o side) t = refusalDue F t := by
  unfold refusedIn refusalDue due
  rw [show (ocppj F o side).read t = receive t from rfl, show (ocppj F o side).toRequest = callToRequest F o from rfl]
  rcases receive t with (_ | (_ | _ | _)) | _ | _
  all_goals try rfl
  rename_i id action p
  simp only []
  rw [callToRequest_eq]
  cases dueTo F action p <;> rfl

theorem requestIn_eq (F : FloatFmt) (o : Order) (side : Side) (t : Text) :
    requestIn (S := ocppj F o side) t = requestDue F t := by
  unfold requestIn requestDue due
  rw [show (ocppj F o side).read t = receive t from rfl, show (ocppj F o side).toRequest = callToRequest F o from rfl]
  rcases receive t with (_ | (_ | _ | _)) | _ | _
  all_goals try rfl
  rename_i id action p
  simp only []
  rw [callToRequest_eq]
  cases dueTo F action p <;> rfl

/-- **C20** Of the texts read, exactly those that are bad calls are refused, in order and with the code due; exactly the other
calls are taken by the serving loop, in order and as decoded (the last one may still be on its way). -/
theorem C20_calls {tr : List (Ev (ocppj F o side))} {s : St (ocppj F o side)} (h : Exec side tr s) :
    (∃ p, (framesRead tr).filterMap (refusalDue F) = refusals tr ++ p ∧ p.length ≤ 1) ∧
    (∃ p : List (String × (ocppj F o side).Req), (framesRead tr).filterMap (requestDue F) = taken tr ++ p ∧ p.length ≤ 1) := by
  constructor
  · have := Exec.refused h
    rw [show (refusedIn (S := ocppj F o side)) = refusalDue F from funext (refusedIn_eq F o side)] at this
    exact ⟨_, this, refusing_length (Exec.inv h)⟩
  · obtain ⟨p, h1, h2⟩ := C23_requests_in_order h
    rw [show (requestIn (S := ocppj F o side)) = requestDue F from funext (requestIn_eq F o side)] at h1
    exact ⟨p, h1, h2⟩

/-- **C20** What is written for a refusal is a CallError with the id and the code. -/
theorem C20_frame (k : Nat) (id code : String) :
    ∃ t, (Ev.refuse (S := ocppj F o side) k id code true).wrote = some t ∧
      receive t = .ok (some (.error id code "on handling message" [])) :=
  ⟨_, rfl, C10_refusal F id code⟩

/-- **C20** A bad call that has been read can be refused at once. -/
theorem C20_progress {tr : List (Ev (ocppj F o side))} {s : St (ocppj F o side)} (_h : Exec side tr s) (hn : s.crashed = false)
    (hc : s.closed = false) (k : Nat) (t : Text) (hk : s.readers[k]? = some (.got t)) (id code : String)
    (hd : refusalDue F t = some (id, code)) : ∃ s', Run side s [.dispatch k, .refuse k id code true] s' := by
  rw [← refusedIn_eq F o side] at hd
  have ha : afterRead s t = some (.refusing id code) := by
    unfold refusedIn at hd
    unfold afterRead
    repeat' split at hd
    all_goals simp_all
  have hlt : k < s.readers.length := (List.getElem?_eq_some_iff.1 hk).1
  have r1 := Run.snoc (.nil) (Step.dispatch (side := side) hn hk ha)
  exact ⟨_, Run.snoc r1 (.refuse true hn (by simp [St.setReader, hlt]) fun _ => hc)⟩

/-! ### C47 -/

/-- **C47** (OCPP-J) At the central system the handler gets exactly the charge point requests among the requests taken, and
the replies attempted are one for each of these (the last one possibly outstanding): a central system request is neither
given to the handler nor replied to. -/
theorem C47_cs {tr : List (Ev (ocppj F o .cs))} {s : St (ocppj F o .cs)} (h : Exec .cs tr s) :
    handlerCalls tr = ((taken tr).filter fun x => x.2.type.isChargePoint).map (fun x => (x.1, some x.2)) ∧
    ∃ p, ((taken tr).filter fun x => x.2.type.isChargePoint).map (fun x => x.1) = (answers tr).map (·.1) ++ p ∧ p.length ≤ 1 := by
  have e : handlerCalls tr = ((taken tr).filter fun x => x.2.type.isChargePoint).map (fun x => (x.1, some x.2)) := by
    rw [Exec.handlerCalls_eq h]
    generalize taken tr = l
    induction l with
    | nil => rfl
    | cons x l ih =>
      have hm : (ocppj F o .cs).mine x.2 = x.2.type.isChargePoint := rfl
      rw [List.filterMap_cons, List.filter_cons]
      cases hx : x.2.type.isChargePoint with
      | true => simp [handlerArg, hm, hx, ih]
      | false => simp [handlerArg, hm, hx, ih]
  refine ⟨e, ?_⟩
  obtain ⟨⟨c, q, h1, h2, h4, h5⟩, h3⟩ := Exec.handler h
  refine ⟨s.loop.replying.map (·.1) ++ (q.map (·.1) ++ s.loop.running.map (·.1)), ?_, ?_⟩
  · have : ((taken tr).filter fun x => x.2.type.isChargePoint).map (fun x => x.1) = (handlerCalls tr).map (·.1) := by
      rw [e]; simp
    rw [this, h1, List.map_append, List.map_append, h2, h3]; simp
  · rcases h5 with rfl | ⟨h5, h6⟩
    · cases s.loop <;> simp
    · rw [h6]; simp [h5]

/-- **C47** (OCPP-J) At a charge point the handler is called for every request taken, with nil in place of a charge point
request. -/
theorem C47_cp {tr : List (Ev (ocppj F o .cp))} {s : St (ocppj F o .cp)} (h : Exec .cp tr s) :
    handlerCalls tr = (taken tr).map fun x => (x.1, if x.2.type.isChargePoint then none else some x.2) := by
  rw [Exec.handlerCalls_eq h]
  generalize taken tr = l
  induction l with
  | nil => rfl
  | cons x l ih =>
    have hm : (ocppj F o .cp).mine x.2 = !x.2.type.isChargePoint := rfl
    rw [List.filterMap_cons, List.map_cons]
    cases hx : x.2.type.isChargePoint with
    | true => simp [handlerArg, hm, hx, ih]
    | false => simp [handlerArg, hm, hx, ih]

/-! ### The hypotheses can be met -/

/-- C12: a connection on which `null` has been read. -/
example : ∃ s, Exec (S := ocppj F o side) side [.spawn 0, .read 0 "null".toList] s ∧ s.crashed = false ∧
    s.readers[0]? = some (.got "null".toList) ∧ JsonText .null (normalise "null".toList) ∧ Crashing .null := by
  have r1 := Run.snoc (S := ocppj F o side) (side := side) (s := init _) .nil (Step.spawn rfl rfl)
  have r2 := Run.snoc r1 (Step.read (k := 0) (f := "null".toList) rfl rfl)
  have hn : normalise "null".toList = "null".toList := by decide +kernel
  exact ⟨_, r2, rfl, rfl, by rw [hn]; exact Value.null.jsonText, .null⟩

/-- C12, C19: a connection on which a DataTransfer has been sent and a CallResult for it read. -/
theorem dataTransfer_exec (F : FloatFmt) (o : Order) (side : Side) : ∃ q : Req, ∃ t f s,
    Exec (S := ocppj F o side) side
      [.spawn 0, .send 0 "x" q, .regSent 0, .regChan 0, .writeCall 0 (some f), .read 0 t] s ∧ s.crashed = false ∧
    HasTy q.type.ty q.val ∧ q.type.action = "DataTransfer".toList ∧
    s.readers[0]? = some (.got t) ∧ receive t = .ok (some (.result "x" [])) := by
  have hv : HasTy (MsgType.req .cpreqDataTransfer).ty (.struct [.str [], .str [], .str ['v']]) := by
    simp [MsgType.ty, ReqType.ty, cpreq.DataTransfer, HasTy, HasTys]
  have hm : ∃ text, marshal F (MsgType.req .cpreqDataTransfer).ty (.struct [.str [], .str [], .str ['v']]) = .ok text := by
    have hw : ∃ j, wire F (MsgType.req .cpreqDataTransfer).ty (.struct [.str [], .str [], .str ['v']]) = .ok j := ⟨_, rfl⟩
    obtain ⟨j, hj⟩ := hw
    rcases C01_wellformed F (.req .cpreqDataTransfer) _ hv with ⟨text, ms, h1, _⟩ | ⟨e, _, h⟩ | ⟨e, _, h⟩
    · exact ⟨text, h1⟩
    · rw [hj] at h; cases h
    · rw [hj] at h; cases h
  obtain ⟨text, hm⟩ := hm
  obtain ⟨q, hq1, hq2, hq3⟩ : ∃ q : Req, HasTy q.type.ty q.val ∧ q.type.action = "DataTransfer".toList ∧
      ∃ text, marshal F q.type.ty q.val = .ok text := ⟨⟨.cpreqDataTransfer, _⟩, hv, by decide, text, hm⟩
  clear hm hv text
  obtain ⟨text, hm⟩ := hq3
  obtain ⟨f, _, _, _, _, _, hf, _⟩ := C10_request F "x" q hq1 text hm
  obtain ⟨t, ht⟩ : ∃ t, receive t = .ok (some (.result "x" [])) := by
    have hh : Holds (.obj []) (.obj []) := (toAny_iff _ _).1 rfl
    obtain ⟨t, h1, h2⟩ := frameText_value (js := [.num (F.fmt 3), .str "x".toList, .obj []])
      (ts := [_, _, _]) (.cons (value_rawOfLit _) (.cons (value_quote _) (.cons (.objNil Json.isWs_nil) .nil)))
    exact ⟨t, read_shape h2.jsonText ⟨⟨3, isNum_fmt F isF64_3⟩, True.intro, True.intro, True.intro⟩
      (Shape.result (id := "x".toList) (rest := []) (isNum_fmt F isF64_3) hh)⟩
  have r1 := Run.snoc (S := ocppj F o side) (side := side) (s := init _) .nil (Step.spawn rfl rfl)
  have r2 := Run.snoc r1 (Step.send (id := "x") rfl (by simp [init]) hf)
  have r3 := Run.snoc r2 (Step.regSent (i := 0) rfl rfl rfl)
  have r4 := Run.snoc r3 (Step.regChan (i := 0) rfl rfl rfl)
  have r5 := Run.snoc r4 (Step.writeOk (i := 0) rfl rfl rfl rfl rfl)
  have r6 := Run.snoc r5 (Step.read (k := 0) (f := t) rfl rfl)
  exact ⟨q, t, f, _, r6, rfl, hq1, hq2, rfl, ht⟩

end Verif.Ocppj
