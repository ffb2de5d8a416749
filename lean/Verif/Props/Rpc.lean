import Verif.Model.Example
import Verif.Props.SendErr
import Verif.Props.Settle
/-!
# C98: Send returns what the program of the peer's handler says; the example programs
-/
set_option linter.unusedSimpArgs false
namespace Verif.Ocppj
open Json Codec Decode Encode Trip Conn

/-! ### Specification -/

section
variable {F : FloatFmt} {o : Order} {side : Side}

/-- The handler at this end does what its program `H` says: with every request it was called with, it did something that `H` allows. -/
structure Obeys (H : Handler) (tr : List (Ev (ocppj F o side))) : Prop where
  ret : ∀ id q resp err, (id, q) ∈ handled tr → (id, resp, err) ∈ returned tr → H q (.ret resp err)
  panic : ∀ id, Ev.handlerPanic (S := ocppj F o side) id ∈ tr → ∃ q, (id, q) ∈ handled tr ∧ H q .panic

/-- A program that answers a request with a response of the type belonging to it, with ordinary values, or with an error. -/
def Handler.Answers (H : Handler) : Prop :=
  ∀ q resp, H (some q) (.ret (some resp) none) → resp.type = q.type.response ∧ Ordinary resp.val

/-- `y` is what `Send` of `q` is to return when the program of the peer's handler is `H`: `H` may return, for the request as it arrives,
either an error, and `y` is an error with its text, or a response, and `y` is this response (times cut to seconds). -/
def Serves (V : ℚ → Text) (H : Handler) (o' : Order) (q : Req) (y : Answer (ocppj F o side)) : Prop :=
  ∃ q', Arrives F o' q q' ∧
    ((∃ resp e, H (some q') (.ret resp (some e)) ∧ answerError V y = some ("[InternalError] ".toList ++ e.toList ++ ": map[]".toList)) ∨
     (∃ resp, H (some q') (.ret (some resp) none) ∧ y = .resp (⟨resp.type, resp.val.cutTimes⟩ : Resp)))
end

/-- Nothing goes wrong at this end, except perhaps in the handler; and requests can be encoded. -/
structure Fair {F : FloatFmt} {o : Order} {side : Side} (tr : List (Ev (ocppj F o side))) : Prop where
  noFault : ∀ e ∈ tr, Fault e = true → ∃ id, e = Ev.handlerPanic (S := ocppj F o side) id
  requests : ∀ i id (q : Req), Ev.send (S := ocppj F o side) i id q ∈ tr → ∃ text, marshal F q.type.ty q.val = .ok text

/-- A program that never panics on a request, and never returns neither a response nor an error, nor a response that cannot be encoded. -/
structure Handler.Safe (F : FloatFmt) (H : Handler) : Prop where
  noPanic : ∀ q, ¬ H (some q) .panic
  encodes : ∀ q resp, H (some q) (.ret resp none) → ∃ r text, resp = some r ∧ marshal F r.type.ty r.val = .ok text

/-! ### Lemmas -/

variable {F : FloatFmt} {o₁ o₂ : Order} {a b : Side} {trA : List (Ev (ocppj F o₁ a))} {trB : List (Ev (ocppj F o₂ b))}

theorem Linked.serves (h : Linked trA trB) (V : ℚ → Text) {H : Handler} (hH : H.Answers) (ho : Obeys H trB) (i : Nat) (id : String) (q : Req)
    (hdt : q.type.action ≠ "DataTransfer".toList) (hq : Ordinary q.val) (y : Answer (ocppj F o₁ a))
    (h1 : Ev.send (S := ocppj F o₁ a) i id q ∈ trA) (h2 : Ev.finish (S := ocppj F o₁ a) i y ∈ trA) : Serves V H o₂ q y := by
  obtain ⟨sA, hA⟩ := h.left
  have key : ∀ {resp err}, HandledOnce o₂ trB id q resp err → ∃ q', Arrives F o₂ q q' ∧ H (some q') (.ret resp err) := by
    intro resp err hh
    have hh' := hh
    obtain ⟨⟨q', h3, h4⟩, h5⟩ := hh'
    have hm : (id, some q') ∈ handled trB := (List.mem_filter.1 (by rw [h3]; simp : (id, some q') ∈ (handled trB).filter (fun x => x.1 = id))).1
    exact ⟨q', h4, ho.ret id _ _ _ hm hh.mem⟩
  cases hy : answerError V y with
  | none =>
    cases y with
    | resp r =>
      obtain ⟨id', q', resp, h3, h4, h5⟩ := h.response i r h2
      obtain ⟨rfl, rfl⟩ := send_unique hA h2 h1 h3
      obtain ⟨q', h6, h7⟩ := key h4
      have h8 := hH q' resp h7
      rw [h6.1] at h8
      refine ⟨q', h6, .inr ⟨resp, h7, ?_⟩⟩
      obtain ⟨h9, -, h10⟩ := h5
      have h11 := h10 h8.1 h8.2.1 h8.2.2
      obtain ⟨rt, rv⟩ := r
      obtain ⟨st, sv⟩ := resp
      simp only at h8 h9 h11
      rw [h11, h8.1, h9]
    | code c => cases hy
    | callErr c d x => cases hy
  | some t =>
    obtain ⟨e, resp, h3, rfl⟩ := h.ordinary V i id q t hdt hq y h1 h2 hy (by
      intro resp hr
      have hh := h.handledOnce h2 h1 hr
      obtain ⟨q', h6, h7⟩ := key hh
      have h8 := hH q' resp h7
      rw [h6.1] at h8
      exact h8)
    obtain ⟨q', h6, h7⟩ := key h3
    exact ⟨q', h6, .inl ⟨resp, e, h7, hy⟩⟩

theorem Linked.noPanic (h : Linked trA trB) {H : Handler} (hH : H.Safe F) (ho : Obeys H trB) (id : String) :
    Ev.handlerPanic (S := ocppj F o₂ b) id ∉ trB := by
  intro hm
  obtain ⟨q, h1, h2⟩ := ho.panic id hm
  obtain ⟨i, q0, f, r, -, -, rfl, -⟩ := h.calls.2 id q h1
  exact hH.noPanic r h2

theorem Linked.smooth (h : Linked trA trB) {H : Handler} (hH : H.Safe F) (ho : Obeys H trB) (hf : Fair trB) : Smooth trB := by
  refine ⟨fun e he => ?_, hf.requests, fun id resp err hm => ?_⟩
  · cases hc : Fault e with
    | false => rfl
    | true =>
      obtain ⟨id, rfl⟩ := hf.noFault e he hc
      exact absurd he (h.noPanic hH ho id)
  · cases err with
    | some e => exact .inl (by simp)
    | none =>
      right
      have hm' : (id, resp, none) ∈ returned trB := mem_handlerRets.2 hm
      obtain ⟨-, i, q, f, r, -, -, h3, -⟩ := h.ret hm'
      have hmh : (id, some r) ∈ handled trB := (List.mem_filter.1 (by rw [h3]; simp : (id, some r) ∈ (handled trB).filter (fun x => x.1 = id))).1
      exact hH.encodes r resp (ho.ret id _ _ _ hmh hm')

variable {tr : List (Ev (ocppj F o₁ .cp) ⊕ Ev (ocppj F o₂ .cs))} {x : Sys F o₁ o₂}

/-! ### C98 -/

/-- **C98** Whatever the schedule: when the handler at the other end does what its program `H` says, `Send` of a request other than
DataTransfer with ordinary values returns, if it gets an answer, what `H` returns for this request. -/
theorem C98_send (h : Sys.Exec tr x) (hp : Proper (atCp tr)) (hs : Proper (atCs tr)) (V : ℚ → Text) {H : Handler} (hH : H.Answers)
    (i : Nat) (id : String) (q : Req) (hdt : q.type.action ≠ "DataTransfer".toList) (hq : Ordinary q.val) :
    (Obeys H (atCs tr) → ∀ y, Ev.send (S := ocppj F o₁ .cp) i id q ∈ atCp tr → Ev.finish (S := ocppj F o₁ .cp) i y ∈ atCp tr →
      Serves V H o₂ q y) ∧
    (Obeys H (atCp tr) → ∀ y, Ev.send (S := ocppj F o₂ .cs) i id q ∈ atCs tr → Ev.finish (S := ocppj F o₂ .cs) i y ∈ atCs tr →
      Serves V H o₁ q y) :=
  ⟨fun ho y => (h.linked hp hs).1.serves V hH ho i id q hdt hq y, fun ho y => (h.linked hp hs).2.serves V hH ho i id q hdt hq y⟩

/-- **C98** When the programs of both handlers always come to an answer and the network does its part, then in every schedule, once nothing is
left to do, every `Send` of such a request at either end has returned what the program of the other end's handler returns for it. -/
theorem C98_served (h : Sys.Exec tr x) (hp : Proper (atCp tr)) (hs : Proper (atCs tr)) (V : ℚ → Text) {Hp Hs : Handler}
    (ap : Hp.Answers) (as : Hs.Answers) (sp : Hp.Safe F) (ss : Hs.Safe F) (op : Obeys Hp (atCp tr)) (os : Obeys Hs (atCs tr))
    (fp : Fair (atCp tr)) (fs : Fair (atCs tr)) (hr : AtRest x)
    (i : Nat) (id : String) (q : Req) (hdt : q.type.action ≠ "DataTransfer".toList) (hq : Ordinary q.val) :
    (Ev.send (S := ocppj F o₁ .cp) i id q ∈ atCp tr → ∃ y, Ev.finish (S := ocppj F o₁ .cp) i y ∈ atCp tr ∧ Serves V Hs o₂ q y) ∧
    (Ev.send (S := ocppj F o₂ .cs) i id q ∈ atCs tr → ∃ y, Ev.finish (S := ocppj F o₂ .cs) i y ∈ atCs tr ∧ Serves V Hp o₁ q y) := by
  obtain ⟨l1, l2⟩ := h.linked hp hs
  have mp := l2.smooth sp op fp
  have ms := l1.smooth ss os fs
  obtain ⟨r1, r2⟩ := C83_returned h hp hs mp ms hr
  constructor
  · intro hsd
    obtain ⟨y, hy⟩ := r1 i id q hsd
    exact ⟨y, hy, l1.serves V as os i id q hdt hq y hsd hy⟩
  · intro hsd
    obtain ⟨y, hy⟩ := r2 i id q hsd
    exact ⟨y, hy, l2.serves V ap op i id q hdt hq y hsd hy⟩

/-- **C98** A handler whose program does not panic on requests never panics: the library never calls it with anything else. -/
theorem C98_noPanic (h : Sys.Exec tr x) (hp : Proper (atCp tr)) (hs : Proper (atCs tr)) {H : Handler} (hH : H.Safe F) (id : String) :
    (Obeys H (atCs tr) → Ev.handlerPanic (S := ocppj F o₂ .cs) id ∉ atCs tr) ∧
    (Obeys H (atCp tr) → Ev.handlerPanic (S := ocppj F o₁ .cp) id ∉ atCp tr) :=
  ⟨fun ho => (h.linked hp hs).1.noPanic hH ho id, fun ho => (h.linked hp hs).2.noPanic hH ho id⟩

/-! ### The example programs -/

theorem IsNow.plain {t : GoTime} (h : IsNow t) : t.Plain := h.2

/-- What the example central system's handler does with a request. -/
theorem exampleCs_cases {q : Req} {y : Outcome} (h : exampleCs (some q) y) :
    (∃ t, IsNow t ∧ q.type = .cpreqBootNotification ∧
      y = .ret (some ⟨.cprespBootNotification, .struct [.str "Accepted".toList, .time t, .float (.fin 60)]⟩) none) ∨
    (∃ t, IsNow t ∧ q.type = .cpreqHeartbeat ∧ y = .ret (some ⟨.cprespHeartbeat, .struct [.time t]⟩) none) ∨
    (q.type = .cpreqStatusNotification ∧ y = .ret (some ⟨.cprespStatusNotification, .struct []⟩) none) ∨
    (q.type ∉ [ReqType.cpreqBootNotification, .cpreqHeartbeat, .cpreqStatusNotification] ∧ y = .ret none (some "Response not supported")) := by
  obtain ⟨qt, qv⟩ := q
  cases qt
  case cpreqBootNotification =>
    obtain ⟨t, ht, h⟩ := h
    exact .inl ⟨t, ht, rfl, h⟩
  case cpreqHeartbeat =>
    obtain ⟨t, ht, h⟩ := h
    exact .inr (.inl ⟨t, ht, rfl, h⟩)
  case cpreqStatusNotification => exact .inr (.inr (.inl ⟨rfl, h⟩))
  all_goals exact .inr (.inr (.inr ⟨by simp, h⟩))

theorem exampleCs_answers : exampleCs.Answers := by
  intro q resp h
  rcases exampleCs_cases h with ⟨t, ht, hq, h⟩ | ⟨t, ht, hq, h⟩ | ⟨hq, h⟩ | ⟨hq, h⟩
  · cases h
    exact ⟨by rw [hq]; rfl, by simp [Ordinary, Val.IntsAll, Val.IntsAlls, Val.TimesAll, Val.TimesAlls, ht.plain]⟩
  · cases h
    exact ⟨by rw [hq]; rfl, by simp [Ordinary, Val.IntsAll, Val.IntsAlls, Val.TimesAll, Val.TimesAlls, ht.plain]⟩
  · cases h
    exact ⟨by rw [hq]; rfl, by simp [Ordinary, Val.IntsAll, Val.IntsAlls, Val.TimesAll, Val.TimesAlls]⟩
  · cases h

theorem marshal_ok (m : RespType) (v : Val) (hv : HasTy m.ty v) (hw : ∃ j, wire F m.ty v = .ok j) : ∃ t, marshal F m.ty v = .ok t := by
  obtain ⟨j, hj⟩ := hw
  rcases C01_wellformed F (.resp m) _ hv with ⟨text, ms, h1, _⟩ | ⟨e, _, h⟩ | ⟨e, _, h⟩
  · exact ⟨text, h1⟩
  · rw [show (MsgType.resp m).ty = m.ty from rfl, hj] at h; cases h
  · rw [show (MsgType.resp m).ty = m.ty from rfl, hj] at h; cases h

theorem f64_60 : IsF64 60 := by
  have := isF64_int (n := 60) (by norm_num)
  exact_mod_cast this

theorem exampleCs_safe (F : FloatFmt) : exampleCs.Safe F := by
  refine ⟨fun q h => ?_, fun q resp h => ?_⟩
  · rcases exampleCs_cases h with ⟨t, ht, hq, h⟩ | ⟨t, ht, hq, h⟩ | ⟨hq, h⟩ | ⟨hq, h⟩ <;> cases h
  · rcases exampleCs_cases h with ⟨t, ht, hq, h⟩ | ⟨t, ht, hq, h⟩ | ⟨hq, h⟩ | ⟨hq, h⟩
    · cases h
      obtain ⟨text, h⟩ := marshal_ok (F := F) .cprespBootNotification (.struct [.str "Accepted".toList, .time t, .float (.fin 60)])
        (by simp [RespType.ty, cpresp.BootNotification, HasTy, HasTys, f64_60]; exact ht.1) ⟨_, rfl⟩
      exact ⟨_, text, rfl, h⟩
    · cases h
      obtain ⟨text, h⟩ := marshal_ok (F := F) .cprespHeartbeat (.struct [.time t]) (by simp [RespType.ty, cpresp.Heartbeat, HasTy, HasTys]; exact ht.1) ⟨_, rfl⟩
      exact ⟨_, text, rfl, h⟩
    · cases h
      obtain ⟨text, h⟩ := marshal_ok (F := F) .cprespStatusNotification (.struct []) (by simp [RespType.ty, cpresp.StatusNotification, HasTy, HasTys]) ⟨_, rfl⟩
      exact ⟨_, text, rfl, h⟩
    · cases h

theorem exampleCp_answers : exampleCp.Answers := by
  intro q resp h
  cases h

theorem exampleCp_safe (F : FloatFmt) : exampleCp.Safe F :=
  ⟨fun q h => (by cases h), fun q resp h => (by cases h)⟩

theorem serves_exampleCs {o : Order} {V : ℚ → Text} {q : Req} {y : Answer (ocppj F o₁ a)} (h : Serves V exampleCs o q y) :
    (∃ t, IsNow t ∧ q.type = .cpreqBootNotification ∧
      y = .resp (⟨.cprespBootNotification, .struct [.str "Accepted".toList, .time t.cut, .float (.fin 60)]⟩ : Resp)) ∨
    (∃ t, IsNow t ∧ q.type = .cpreqHeartbeat ∧ y = .resp (⟨.cprespHeartbeat, .struct [.time t.cut]⟩ : Resp)) ∨
    (q.type = .cpreqStatusNotification ∧ y = .resp (⟨.cprespStatusNotification, .struct []⟩ : Resp)) ∨
    (q.type ∉ [ReqType.cpreqBootNotification, .cpreqHeartbeat, .cpreqStatusNotification] ∧
      answerError V y = some "[InternalError] Response not supported: map[]".toList) := by
  obtain ⟨q', ha, ⟨resp, e, h1, h2⟩ | ⟨resp, h1, h2⟩⟩ := h
  · rcases exampleCs_cases h1 with ⟨t, ht, hq, h⟩ | ⟨t, ht, hq, h⟩ | ⟨hq, h⟩ | ⟨hq, h⟩
    · cases h
    · cases h
    · cases h
    · cases h
      rw [ha.1] at hq
      refine .inr (.inr (.inr ⟨hq, h2.trans (congrArg some ?_)⟩))
      decide
  · rcases exampleCs_cases h1 with ⟨t, ht, hq, h⟩ | ⟨t, ht, hq, h⟩ | ⟨hq, h⟩ | ⟨hq, h⟩
    · cases h
      exact .inl ⟨t, ht, ha.1 ▸ hq, h2⟩
    · cases h
      exact .inr (.inl ⟨t, ht, ha.1 ▸ hq, h2⟩)
    · cases h
      exact .inr (.inr (.inl ⟨ha.1 ▸ hq, h2⟩))
    · cases h

/-- A DataTransfer gets the error that its action is not supported. -/
theorem Linked.dataTransfer (h : Linked trA trB) (V : ℚ → Text) (i : Nat) (id : String) (q : Req) (y : Answer (ocppj F o₁ a))
    (hdt : q.type.action = "DataTransfer".toList) (h1 : Ev.send (S := ocppj F o₁ a) i id q ∈ trA)
    (h2 : Ev.finish (S := ocppj F o₁ a) i y ∈ trA) : answerError V y = some "[NotSupported] on handling message: map[]".toList := by
  obtain ⟨sA, hA⟩ := h.left
  have key : ∀ {resp err}, ¬ HandledOnce o₂ trB id q resp err := by
    intro resp err hh
    obtain ⟨⟨q', h3, h4⟩, -⟩ := hh
    have hm : (id, some q') ∈ handled trB := (List.mem_filter.1 (by rw [h3]; simp : (id, some q') ∈ (handled trB).filter (fun x => x.1 = id))).1
    obtain ⟨j, q2, f, r, h5, h6, -, -, h7, h8, h9⟩ := h.calls.2 id _ hm
    obtain ⟨rfl, rfl⟩ := finish_send hA h2 h1 h5 h6
    obtain ⟨p, h10⟩ := call_read h7 h8
    obtain ⟨action, p', h11, h12⟩ := requestDue_call h9
    rw [h10] at h11
    cases h11
    unfold dueTo at h12
    rw [String.toList_ofList, hdt, C17_actions.2.2.1] at h12
    cases h12
  cases hy : answerError V y with
  | none =>
    cases y with
    | resp r =>
      obtain ⟨id', q', resp, h3, h4, -⟩ := h.response i r h2
      obtain ⟨rfl, rfl⟩ := send_unique hA h2 h1 h3
      exact absurd h4 key
    | code c => cases hy
    | callErr c d x => cases hy
  | some t =>
    obtain ⟨id', q', c, h3, h4, rfl⟩ := h.error V i y t h2 hy
    obtain ⟨rfl, rfl⟩ := send_unique hA h2 h1 h3
    cases c with
    | handler e => exact absurd h4.choose_spec key
    | unknownAction => rfl
    | badRequest => exact absurd hdt h4.2.1
    | badResponse => exact absurd h4.choose_spec.1 key

/-- **C98** A charge point whose central system is the example one (example/cs/main.go), whatever the schedule, what the charge point does
besides and what the clocks say.  `Send` of a Heartbeat returns, if it gets an answer, a Heartbeat response without an error, so that the type
assertion in example/cp/main.go:31 succeeds; a BootNotification is accepted with interval 60; a StatusNotification gets its response; any other
request gets the error of the example's handler, except that DataTransfer does not get there. -/
theorem C98_example_cs (h : Sys.Exec tr x) (hp : Proper (atCp tr)) (hs : Proper (atCs tr)) (V : ℚ → Text) (ho : Obeys exampleCs (atCs tr))
    (i : Nat) (id : String) (q : Req) (y : Answer (ocppj F o₁ .cp))
    (h1 : Ev.send (S := ocppj F o₁ .cp) i id q ∈ atCp tr) (h2 : Ev.finish (S := ocppj F o₁ .cp) i y ∈ atCp tr) (hq : Ordinary q.val) :
    (q.type = .cpreqHeartbeat → ∃ t, IsNow t ∧ y = .resp (⟨.cprespHeartbeat, .struct [.time t.cut]⟩ : Resp)) ∧
    (q.type = .cpreqBootNotification → ∃ t, IsNow t ∧
      y = .resp (⟨.cprespBootNotification, .struct [.str "Accepted".toList, .time t.cut, .float (.fin 60)]⟩ : Resp)) ∧
    (q.type = .cpreqStatusNotification → y = .resp (⟨.cprespStatusNotification, .struct []⟩ : Resp)) ∧
    (q.type ∉ [ReqType.cpreqHeartbeat, .cpreqBootNotification, .cpreqStatusNotification, .cpreqDataTransfer] →
      answerError V y = some "[InternalError] Response not supported: map[]".toList) ∧
    (q.type = .cpreqDataTransfer → answerError V y = some "[NotSupported] on handling message: map[]".toList) := by
  have hcp : q.type.isChargePoint = true := (hp.own i id q h1).2 rfl
  have key : q.type ≠ .cpreqDataTransfer → Serves V exampleCs o₂ q y := by
    intro hd
    refine (C98_send h hp hs V exampleCs_answers i id q ?_ hq).1 ho y h1 h2
    revert hd hcp
    cases q.type <;> decide
  refine ⟨fun ht => ?_, fun ht => ?_, fun ht => ?_, fun ht => ?_, fun ht => ?_⟩
  · rcases serves_exampleCs (key (by rw [ht]; decide)) with ⟨t, h3, h4, h5⟩ | ⟨t, h3, h4, h5⟩ | ⟨h4, h5⟩ | ⟨h4, h5⟩
    · rw [ht] at h4; cases h4
    · exact ⟨t, h3, h5⟩
    · rw [ht] at h4; cases h4
    · rw [ht] at h4; exact absurd (by decide) h4
  · rcases serves_exampleCs (key (by rw [ht]; decide)) with ⟨t, h3, h4, h5⟩ | ⟨t, h3, h4, h5⟩ | ⟨h4, h5⟩ | ⟨h4, h5⟩
    · exact ⟨t, h3, h5⟩
    · rw [ht] at h4; cases h4
    · rw [ht] at h4; cases h4
    · rw [ht] at h4; exact absurd (by decide) h4
  · rcases serves_exampleCs (key (by rw [ht]; decide)) with ⟨t, h3, h4, h5⟩ | ⟨t, h3, h4, h5⟩ | ⟨h4, h5⟩ | ⟨h4, h5⟩
    · rw [ht] at h4; cases h4
    · rw [ht] at h4; cases h4
    · exact h5
    · rw [ht] at h4; exact absurd (by decide) h4
  · have hd : q.type ≠ .cpreqDataTransfer := by rintro hd; rw [hd] at ht; exact ht (by decide)
    rcases serves_exampleCs (key hd) with ⟨t, h3, h4, h5⟩ | ⟨t, h3, h4, h5⟩ | ⟨h4, h5⟩ | ⟨h4, h5⟩
    · rw [h4] at ht; exact absurd (by decide) ht
    · rw [h4] at ht; exact absurd (by decide) ht
    · rw [h4] at ht; exact absurd (by decide) ht
    · exact h5
  · exact (h.linked hp hs).1.dataTransfer V i id q y (by rw [ht]; decide) h1 h2

/-- **C98** Against the example charge point (example/cp/main.go) every `Send` of the central system that gets an answer, such as the
RemoteStartTransaction of example/cs/remote_unlock.go, returns the same error (but for DataTransfer, which does not get to the handler). -/
theorem C98_example_cp (h : Sys.Exec tr x) (hp : Proper (atCp tr)) (hs : Proper (atCs tr)) (V : ℚ → Text) (ho : Obeys exampleCp (atCp tr))
    (i : Nat) (id : String) (q : Req) (y : Answer (ocppj F o₂ .cs))
    (h1 : Ev.send (S := ocppj F o₂ .cs) i id q ∈ atCs tr) (h2 : Ev.finish (S := ocppj F o₂ .cs) i y ∈ atCs tr) (hq : Ordinary q.val) :
    (q.type ≠ .csreqDataTransfer → answerError V y = some "[InternalError] not supported: map[]".toList) ∧
    (q.type = .csreqDataTransfer → answerError V y = some "[NotSupported] on handling message: map[]".toList) := by
  have hcs : q.type.isChargePoint ≠ true := fun hc => by cases (hs.own i id q h1).1 hc
  constructor
  · intro hd
    obtain ⟨q', ha, ⟨resp, e, h3, h4⟩ | ⟨resp, h3, h4⟩⟩ := (C98_send h hp hs V exampleCp_answers i id q (by
      revert hd hcs
      cases q.type <;> decide) hq).2 ho y h1 h2
    · cases h3
      refine h4.trans (congrArg some ?_)
      decide
    · cases h3
  · intro hd
    exact (h.linked hp hs).2.dataTransfer V i id q y (by rw [hd]; decide) h1 h2

/-- **C98** The two example programs together: when the network does its part and nothing is left to do, every `Send` at either end has
returned as in `C98_example_cs` and `C98_example_cp`, and no handler has panicked. -/
theorem C98_examples (h : Sys.Exec tr x) (hp : Proper (atCp tr)) (hs : Proper (atCs tr)) (op : Obeys exampleCp (atCp tr))
    (os : Obeys exampleCs (atCs tr)) (fp : Fair (atCp tr)) (fs : Fair (atCs tr)) (hr : AtRest x) :
    (∀ i id (q : Req), Ev.send (S := ocppj F o₁ .cp) i id q ∈ atCp tr → ∃ y, Ev.finish (S := ocppj F o₁ .cp) i y ∈ atCp tr) ∧
    (∀ i id (q : Req), Ev.send (S := ocppj F o₂ .cs) i id q ∈ atCs tr → ∃ y, Ev.finish (S := ocppj F o₂ .cs) i y ∈ atCs tr) ∧
    (∀ id, Ev.handlerPanic (S := ocppj F o₁ .cp) id ∉ atCp tr) ∧ (∀ id, Ev.handlerPanic (S := ocppj F o₂ .cs) id ∉ atCs tr) := by
  obtain ⟨l1, l2⟩ := h.linked hp hs
  have mp := l2.smooth (exampleCp_safe F) op fp
  have ms := l1.smooth (exampleCs_safe F) os fs
  obtain ⟨r1, r2⟩ := C83_returned h hp hs mp ms hr
  exact ⟨r1, r2, fun id => l2.noPanic (exampleCp_safe F) op id, fun id => l1.noPanic (exampleCs_safe F) os id⟩

/-- **C98** It happens: at whatever time, the Heartbeat of example/cp/main.go may be answered by the example central system, with nothing left to
do afterwards. -/
theorem C98_possible (F : FloatFmt) (o₁ o₂ : Order) (id : String) (t : GoTime) (ht : IsNow t) :
    ∃ tr : List (Ev (ocppj F o₁ .cp) ⊕ Ev (ocppj F o₂ .cs)), ∃ x, Sys.Exec tr x ∧ Proper (atCp tr) ∧ Proper (atCs tr) ∧
      Obeys exampleCp (atCp tr) ∧ Obeys exampleCs (atCs tr) ∧ Fair (atCp tr) ∧ Fair (atCs tr) ∧ AtRest x ∧
      Ev.send (S := ocppj F o₁ .cp) 0 id (⟨.cpreqHeartbeat, .struct []⟩ : Req) ∈ atCp tr ∧
      Ev.finish (S := ocppj F o₁ .cp) 0 (.resp (⟨.cprespHeartbeat, .struct [.time t.cut]⟩ : Resp)) ∈ atCp tr := by
  have hq : HasTy ReqType.cpreqHeartbeat.ty (.struct []) := by simp [ReqType.ty, cpreq.Heartbeat, HasTy, HasTys]
  have hr : HasTy RespType.cprespHeartbeat.ty (.struct [.time t]) := by
    simp [RespType.ty, cpresp.Heartbeat, HasTy, HasTys]; exact ht.1
  have hm : ∃ text, marshal F ReqType.cpreqHeartbeat.ty (.struct []) = .ok text := by
    rcases C01_wellformed F (.req .cpreqHeartbeat) _ hq with ⟨text, ms, h1, _⟩ | ⟨e, _, h⟩ | ⟨e, _, h⟩
    · exact ⟨text, h1⟩
    · cases h
    · cases h
  obtain ⟨tr, x, v, h1, h2, h3, h4, h5, h6, -, -, h9, h10, h11, h12, h13, h14, h15, h16⟩ := oneTrip F o₁ o₂ id ⟨.cpreqHeartbeat, .struct []⟩
    ⟨.cprespHeartbeat, .struct [.time t]⟩ rfl (by decide) rfl hq hr (by simp [Val.IntsAll, Val.IntsAlls]) (by simp [Val.IntsAll, Val.IntsAlls])
    (by simp [Val.TimesAll, Val.TimesAlls]) (by simp [Val.TimesAll, Val.TimesAlls, ht.plain]) hm (marshal_ok .cprespHeartbeat _ hr ⟨_, rfl⟩)
  refine ⟨tr, x, h1, h2, h3, ⟨?_, fun i hi => absurd hi (h15 i)⟩, ⟨?_, fun i hi => absurd hi (h16 i)⟩,
    ⟨fun e he hc => ?_, h4.requests⟩, ⟨fun e he hc => ?_, h5.requests⟩, h6, h9, h10⟩
  · intro id' q resp err hm'
    rw [h11] at hm'
    cases hm'
  · intro id' q resp err hm1 hm2
    rw [h13] at hm1
    rw [h14] at hm2
    simp only [List.mem_singleton, Prod.mk.injEq] at hm1 hm2
    obtain ⟨rfl, rfl⟩ := hm1
    obtain ⟨-, rfl, rfl⟩ := hm2
    exact ⟨t, ht, rfl⟩
  · rw [h4.noFault e he] at hc; cases hc
  · rw [h5.noFault e he] at hc; cases hc

/-- There are such times. -/
example : IsNow ⟨1605700000, 5, 3600⟩ := by unfold IsNow; decide

end Verif.Ocppj
