import Verif.Props.Rpc
import Verif.Props.Soap
/-!
# C99: OCPP-J and SOAP make no difference to a handler and to the caller
-/
set_option linter.unusedSimpArgs false
namespace Verif.Soap
open Xml Ocppj Codec Conn

/-! ### Specification -/

/-- A handler without state: a function from requests to responses and errors. -/
abbrev Fun := Req → Option Resp × Option String

/-- The function as the handler of an OCPP-J end (what it does with a nil request does not matter). -/
def overWs (f : Fun) : Handler
  | some q, x => x = .ret (f q).1 (f q).2
  | none, _ => True

/-- The function as the handler of a SOAP server. -/
def overHttp (f : Fun) : Req → Text → HandlerResult := fun q _ => ⟨(f q).1, (f q).2.map String.toList⟩

/-- A message that both transports carry as it is: of a type that both have and decode completely; integers within plus/minus 2^53, times in whole
seconds that can be written; characters that XML has, no empty lists, no nil entries or empty strings in lists, no phase of a sampled
value. -/
structure Portable (m : MsgType) (v : Val) : Prop where
  typed : HasTy m.ty v
  carried : bound m = true ∧ m ≠ .req .csreqDataTransfer ∧ m ≠ .req .csreqSendLocalList
  ordinary : Ordinary v
  whole : v.TimesAll fun t => t.nano = 0
  intact : Intact m.ty v

/-- What a `Send` returned over OCPP-J and what it returns over SOAP: the same response, or an error both times. -/
def Same {F : FloatFmt} {o : Codec.Order} {side : Side} (V : ℚ → Text) (y : Conn.Answer (ocppj F o side)) (z : Result) : Prop :=
  (∃ r, y = .resp r ∧ z = .ok r) ∨ (∃ t t', answerError V y = some t ∧ z = .err t')

/-! ### Lemmas -/

variable {F : FloatFmt} {o₁ o₂ : Codec.Order} {a b : Side} {trA : List (Ev (ocppj F o₁ a))} {trB : List (Ev (ocppj F o₂ b))}

theorem Portable.action {q : Req} (h : Portable (.req q.type) q.val) : q.type.action ≠ "DataTransfer".toList := by
  obtain ⟨h1, h2, -⟩ := h.carried
  revert h1 h2
  cases q.type <;> decide

theorem Portable.arrives {q q' : Req} {o : Codec.Order} (h : Portable (.req q.type) q.val) (ha : Arrives F o q q') : q' = q := by
  obtain ⟨h1, text, -, h2⟩ := ha
  have h3 := (h2 h.ordinary.1 h.ordinary.2).2 (fun he => h.carried.2.2 (by rw [he]))
  rw [cutTimes_whole _ h.whole] at h3
  obtain ⟨t, v⟩ := q
  obtain ⟨t', v'⟩ := q'
  simp only at h1 h3
  rw [h1, h3]

theorem Portable.trip {m : MsgType} {v : Val} (h : Portable m v) : soapTrip m.ty v = v := (C48_intact m v h.typed).2 h.intact

theorem Portable.trip' {q : Req} (h : Portable (.req q.type) q.val) : soapTrip q.type.ty q.val = q.val := h.trip

theorem linked_same (h : Linked trA trB) (V : ℚ → Text) (f : Fun) (ho : Obeys (overWs f) trB) (i : Nat) (id : String) (q : Req)
    (hq : Portable (.req q.type) q.val) (hr : ∀ resp, f q = (some resp, none) → resp.type = q.type.response ∧ Portable (.resp resp.type) resp.val)
    (y : Conn.Answer (ocppj F o₁ a)) (h1 : Ev.send (S := ocppj F o₁ a) i id q ∈ trA) (h2 : Ev.finish (S := ocppj F o₁ a) i y ∈ trA) :
    ((handled trB).filter (fun x => x.1 = id) = [(id, some q)]) ∧
    ((∃ e, (f q).2 = some e ∧ answerError V y = some ("[InternalError] ".toList ++ e.toList ++ ": map[]".toList)) ∨
     (∃ resp, f q = (some resp, none) ∧ y = .resp resp)) := by
  obtain ⟨sA, hA⟩ := h.left
  have hkey : ∀ {resp err}, HandledOnce o₂ trB id q resp err →
      (handled trB).filter (fun x => x.1 = id) = [(id, some q)] ∧ (f q).1 = resp ∧ (f q).2 = err := by
    intro resp err hh
    have hh' := hh
    obtain ⟨⟨q', h3, h4⟩, -⟩ := hh'
    obtain rfl := hq.arrives h4
    have hm : (id, some q') ∈ handled trB := (List.mem_filter.1 (by rw [h3]; simp : (id, some q') ∈ (handled trB).filter (fun x => x.1 = id))).1
    have := ho.ret id _ _ _ hm hh.mem
    simp only [overWs, Outcome.ret.injEq] at this
    exact ⟨h3, this.1.symm, this.2.symm⟩
  cases hy : answerError V y with
  | none =>
    cases y with
    | resp r =>
      obtain ⟨id', q', resp, h3, h4, h5⟩ := h.response i r h2
      obtain ⟨rfl, rfl⟩ := send_unique hA h2 h1 h3
      obtain ⟨h6, h7, h8⟩ := hkey h4
      have hf : f q = (some resp, none) := Prod.ext h7 h8
      obtain ⟨h9, h10⟩ := hr resp hf
      refine ⟨h6, .inr ⟨resp, hf, ?_⟩⟩
      obtain ⟨h11, -, h12⟩ := h5
      have h13 := h12 h9 h10.ordinary.1 h10.ordinary.2
      rw [cutTimes_whole _ h10.whole] at h13
      obtain ⟨rt, rv⟩ := r
      obtain ⟨st, sv⟩ := resp
      simp only at h11 h9 h13
      rw [h13, h9, h11]
    | code c => cases hy
    | callErr c d x => cases hy
  | some t =>
    obtain ⟨e, resp, h3, rfl⟩ := h.ordinary V i id q t hq.action hq.ordinary y h1 h2 hy (by
      intro resp hm
      obtain ⟨-, h7, h8⟩ := hkey (h.handledOnce h2 h1 hm)
      obtain ⟨h9, h10⟩ := hr resp (Prod.ext h7 h8)
      exact ⟨h9, h10.ordinary⟩)
    obtain ⟨h6, h7, h8⟩ := hkey h3
    exact ⟨h6, .inl ⟨e, h8, rfl⟩⟩

theorem http_same (G : FloatText) (url msgId sender identity : Text) (hu : url ≠ []) (atCs : Bool) (f : Fun) (q : Req)
    (hdir : q.type.isChargePoint = atCs) (hq : Portable (.req q.type) q.val) :
    (∀ resp, f q = (some resp, none) → resp.type = q.type.response → Portable (.resp resp.type) resp.val →
      exchange G url msgId sender identity atCs (overHttp f) q = ([(q, cleanText identity)], .ok resp)) ∧
    (∀ e resp, f q = (resp, some e) → (∀ x, resp = some x → HasTy x.type.ty x.val ∧ x.val.TimesAll GoTime.Plain) →
      (exchange G url msgId sender identity atCs (overHttp f) q).1 = [(q, cleanText identity)] ∧
      ∃ t, (exchange G url msgId sender identity atCs (overHttp f) q).2 = .err t) := by
  have ht : soapTrip q.type.ty q.val = q.val := hq.trip
  constructor
  · intro resp hf h1 h2
    have := C59_response G url msgId sender identity hu atCs (overHttp f) q hq.carried.1 hq.typed hq.ordinary.2 hdir resp (by
      rw [ht]; simp [overHttp, hf]) h1 h2.typed h2.ordinary.2
    rw [this, ht, show soapTrip resp.type.ty resp.val = resp.val from h2.trip]
  · intro e resp hf h1
    have hret : overHttp f ⟨q.type, soapTrip q.type.ty q.val⟩ (cleanText identity) = ⟨resp, some e.toList⟩ := by
      rw [ht]; simp [overHttp, hf]
    obtain ⟨t, h2, -⟩ := C52_error G url msgId sender identity hu atCs (overHttp f) q hq.carried.1 hq.typed hq.ordinary.2 hdir resp e.toList hret h1
    refine ⟨?_, t, h2⟩
    rw [C54_identity G url msgId sender identity hu atCs (overHttp f) q hq.carried.1 hq.typed hq.ordinary.2 hdir, ht]

theorem both_same (h : Linked trA trB) (V : ℚ → Text) (f : Fun) (ho : Obeys (overWs f) trB) (i : Nat) (id : String) (q : Req)
    (hq : Portable (.req q.type) q.val) (hr : ∀ resp, (f q).1 = some resp → resp.type = q.type.response ∧ Portable (.resp resp.type) resp.val)
    (y : Conn.Answer (ocppj F o₁ a)) (h1 : Ev.send (S := ocppj F o₁ a) i id q ∈ trA) (h2 : Ev.finish (S := ocppj F o₁ a) i y ∈ trA)
    (G : FloatText) (url msgId sender identity : Text) (hu : url ≠ []) (atCs : Bool) (hdir : q.type.isChargePoint = atCs) :
    (handled trB).filter (fun x => x.1 = id) = [(id, some q)] ∧
    (exchange G url msgId sender identity atCs (overHttp f) q).1 = [(q, cleanText identity)] ∧
    Same V y (exchange G url msgId sender identity atCs (overHttp f) q).2 := by
  obtain ⟨h3, h4⟩ := linked_same h V f ho i id q hq (fun resp he => hr resp (by rw [he])) y h1 h2
  obtain ⟨k1, k2⟩ := http_same G url msgId sender identity hu atCs f q hdir hq
  refine ⟨h3, ?_⟩
  rcases h4 with ⟨e, h5, h6⟩ | ⟨resp, h5, h6⟩
  · obtain ⟨h7, t, h8⟩ := k2 e (f q).1 (Prod.ext rfl h5) (fun x hx => ⟨(hr x hx).2.typed, (hr x hx).2.ordinary.2⟩)
    exact ⟨h7, .inr ⟨_, t, h6, h8⟩⟩
  · obtain ⟨h7, h8⟩ := hr resp (by rw [h5])
    rw [k1 resp h5 h7 h8]
    exact ⟨rfl, .inl ⟨resp, h6, rfl⟩⟩

variable {tr : List (Ev (ocppj F o₁ .cp) ⊕ Ev (ocppj F o₂ .cs))} {x : Sys F o₁ o₂}

/-! ### C99 -/

/-- **C99** From a charge point: a request that both transports carry as it is, to a central system whose handler is a function that
returns such responses (or errors).  Whatever the schedule of the OCPP-J connection, a `Send` there that gets an answer had the handler called
exactly once with exactly this request, just as a SOAP call of it does, and what it returns is what the SOAP call returns: the same response, or
an error both times. -/
theorem C99_fromChargePoint (h : Sys.Exec tr x) (hp : Proper (atCp tr)) (hs : Proper (atCs tr)) (V : ℚ → Text) (f : Fun)
    (ho : Obeys (overWs f) (atCs tr)) (i : Nat) (id : String) (q : Req) (hq : Portable (.req q.type) q.val)
    (hr : ∀ resp, (f q).1 = some resp → resp.type = q.type.response ∧ Portable (.resp resp.type) resp.val)
    (y : Conn.Answer (ocppj F o₁ .cp)) (h1 : Ev.send (S := ocppj F o₁ .cp) i id q ∈ atCp tr) (h2 : Ev.finish (S := ocppj F o₁ .cp) i y ∈ atCp tr)
    (G : FloatText) (url msgId sender identity : Text) (hu : url ≠ []) :
    (handled (atCs tr)).filter (fun x => x.1 = id) = [(id, some q)] ∧
    (exchange G url msgId sender identity true (overHttp f) q).1 = [(q, cleanText identity)] ∧
    Same V y (exchange G url msgId sender identity true (overHttp f) q).2 :=
  both_same (h.linked hp hs).1 V f ho i id q hq hr y h1 h2 G url msgId sender identity hu true ((hp.own i id q h1).2 rfl)

/-- **C99** The same from a central system. -/
theorem C99_fromCentralSystem (h : Sys.Exec tr x) (hp : Proper (atCp tr)) (hs : Proper (atCs tr)) (V : ℚ → Text) (f : Fun)
    (ho : Obeys (overWs f) (atCp tr)) (i : Nat) (id : String) (q : Req) (hq : Portable (.req q.type) q.val)
    (hr : ∀ resp, (f q).1 = some resp → resp.type = q.type.response ∧ Portable (.resp resp.type) resp.val)
    (y : Conn.Answer (ocppj F o₂ .cs)) (h1 : Ev.send (S := ocppj F o₂ .cs) i id q ∈ atCs tr) (h2 : Ev.finish (S := ocppj F o₂ .cs) i y ∈ atCs tr)
    (G : FloatText) (url msgId sender identity : Text) (hu : url ≠ []) :
    (handled (atCp tr)).filter (fun x => x.1 = id) = [(id, some q)] ∧
    (exchange G url msgId sender identity false (overHttp f) q).1 = [(q, cleanText identity)] ∧
    Same V y (exchange G url msgId sender identity false (overHttp f) q).2 :=
  both_same (h.linked hp hs).2 V f ho i id q hq hr y h1 h2 G url msgId sender identity hu false (by
    cases hc : q.type.isChargePoint with
    | false => rfl
    | true => cases (hs.own i id q h1).1 hc)

/-- **C99** The texts of errors do differ: with a handler that returns an error, over OCPP-J the text of the error of `Send` contains that of the handler, over SOAP
it is empty. -/
theorem C99_errorText (h : Sys.Exec tr x) (hp : Proper (atCp tr)) (hs : Proper (atCs tr)) (V : ℚ → Text) (f : Fun)
    (ho : Obeys (overWs f) (atCs tr)) (i : Nat) (id e : String) (q : Req) (hq : Portable (.req q.type) q.val) (hf : f q = (none, some e))
    (y : Conn.Answer (ocppj F o₁ .cp)) (h1 : Ev.send (S := ocppj F o₁ .cp) i id q ∈ atCp tr) (h2 : Ev.finish (S := ocppj F o₁ .cp) i y ∈ atCp tr)
    (G : FloatText) (url msgId sender identity : Text) (hu : url ≠ []) :
    answerError V y = some ("[InternalError] ".toList ++ e.toList ++ ": map[]".toList) ∧
    (exchange G url msgId sender identity true (overHttp f) q).2 = .err [] := by
  obtain ⟨-, h3⟩ := linked_same (h.linked hp hs).1 V f ho i id q hq (fun resp he => by rw [hf] at he; cases he) y h1 h2
  constructor
  · rcases h3 with ⟨e', h4, h5⟩ | ⟨resp, h4, -⟩
    · rw [hf] at h4; cases h4; exact h5
    · rw [hf] at h4; cases h4
  · obtain ⟨t, h4, h5⟩ := C52_error G url msgId sender identity hu true (overHttp f) q hq.carried.1 hq.typed hq.ordinary.2 ((hp.own i id q h1).2 rfl)
      none e.toList (by rw [hq.trip' ]; simp [overHttp, hf]) (by simp)
    rw [h4, h5 (by simp)]

mutual
theorem whole_of_cut (v : Val) (h : v.cutTimes = v) : v.TimesAll fun t => t.nano = 0 := by
  match v with
  | .time t =>
    simp only [Val.cutTimes, Val.time.injEq] at h
    simp only [Val.TimesAll]
    rw [← h]
    rfl
  | .ptr v => simp only [Val.cutTimes, Val.ptr.injEq] at h; simp only [Val.TimesAll]; exact whole_of_cut v h
  | .slice vs => simp only [Val.cutTimes, Val.slice.injEq] at h; simp only [Val.TimesAll]; exact whole_of_cuts vs h
  | .struct vs => simp only [Val.cutTimes, Val.struct.injEq] at h; simp only [Val.TimesAll]; exact whole_of_cuts vs h
  | .str _ | .int _ | .float _ | .bool _ | .nil => simp only [Val.TimesAll]
theorem whole_of_cuts (vs : List Val) (h : Val.cutAll vs = vs) : Val.TimesAlls (fun t => t.nano = 0) vs := by
  match vs with
  | [] => simp only [Val.TimesAlls]
  | v :: vs =>
    simp only [Val.cutAll, List.cons.injEq] at h
    simp only [Val.TimesAlls]
    exact ⟨whole_of_cut v h.1, whole_of_cuts vs h.2⟩
end

/-- **C99** These are all such requests: an encodable request with ordinary values, of a type that both transports have (SendLocalList
excepted, of which OCPP-J loses a part whatever its values, C07), arrives over both as it was sent exactly if its times are whole seconds and it
is `Intact`. -/
theorem C99_carried (F : FloatFmt) (o : Codec.Order) (G : FloatText) (id : String) (hd : Header) (q : Req) (hv : HasTy q.type.ty q.val)
    (hb : bound (.req q.type) = true) (hdt : q.type ≠ .csreqDataTransfer) (hl : q.type ≠ .csreqSendLocalList) (ho : Ordinary q.val)
    (hm : ∃ text, marshal F q.type.ty q.val = .ok text) :
    ∃ t p v body w, encCall F id q = .ok t ∧ Ocppj.receive t = .ok (some (.call id (String.ofList q.type.action) p)) ∧
      callToRequest F o (String.ofList q.type.action) p = .ok ⟨q.type, v⟩ ∧
      encodeCall G hd q = .ok body ∧ decode body = .ok ⟨some (headerVal hd), ⟨some (.req q.type, w), none⟩⟩ ∧
      (v = q.val ∧ w = q.val ↔ (q.val.TimesAll fun t => t.nano = 0) ∧ Intact q.type.ty q.val) := by
  obtain ⟨text, hm⟩ := hm
  have hs : q.type.action ≠ "DataTransfer".toList := by
    revert hb hdt
    cases q.type <;> decide
  obtain ⟨t, p, v, h1, h2, h3, -, h4⟩ := C14_request F o id q hs hv ho.1 ho.2 text hm
  obtain ⟨body, h5, h6⟩ := C48_request G hd q hb hv ho.2
  refine ⟨t, p, v, body, _, h1, h2, h3, h5, h6, ?_⟩
  rw [h4 hl, show soapTrip q.type.ty q.val = q.val ↔ _ from C48_intact (.req q.type) q.val hv]
  constructor
  · rintro ⟨h7, h8⟩
    exact ⟨whole_of_cut _ h7, h8⟩
  · rintro ⟨h7, h8⟩
    exact ⟨cutTimes_whole _ h7, h8⟩

/-- **C99** It happens: for every such charge point request that can be encoded, and every function that gives it a response that can be, there
is a schedule in which the `Send` over OCPP-J gets an answer. -/
theorem C99_possible (F : FloatFmt) (o₁ o₂ : Codec.Order) (id : String) (f : Fun) (q : Req) (resp : Resp) (hq : Portable (.req q.type) q.val)
    (hcp : q.type.isChargePoint = true) (hf : f q = (some resp, none)) (ht : resp.type = q.type.response) (hr : Portable (.resp resp.type) resp.val)
    (hm : ∃ t, marshal F q.type.ty q.val = .ok t) (hm' : ∃ t, marshal F resp.type.ty resp.val = .ok t) :
    ∃ tr : List (Ev (ocppj F o₁ .cp) ⊕ Ev (ocppj F o₂ .cs)), ∃ x, Sys.Exec tr x ∧ Proper (atCp tr) ∧ Proper (atCs tr) ∧ Obeys (overWs f) (atCs tr) ∧
      Ev.send (S := ocppj F o₁ .cp) 0 id q ∈ atCp tr ∧ Ev.finish (S := ocppj F o₁ .cp) 0 (.resp resp) ∈ atCp tr := by
  obtain ⟨tr, x, v, h1, h2, h3, h4, h5, h6, -, -, h9, h10, h11, h12, h13, h14, h15, h16⟩ := oneTrip F o₁ o₂ id q resp hcp hq.action ht hq.typed
    hr.typed hq.ordinary.1 hr.ordinary.1 hq.ordinary.2 hr.ordinary.2 hm hm'
  have hfin : Ev.finish (S := ocppj F o₁ .cp) 0 (.resp resp) ∈ atCp tr := by
    rw [cutTimes_whole _ hr.whole] at h10
    exact h10
  refine ⟨tr, x, h1, h2, h3, ⟨?_, fun i hi => absurd hi (h16 i)⟩, h9, hfin⟩
  intro id' q' resp' err hm1 hm2
  have hmem : (id, some resp, none) ∈ returned (atCs tr) := by rw [h14]; simp
  have hh := (h1.linked h2 h3).1.handledOnce hfin h9 hmem
  obtain ⟨⟨q'', h17, h18⟩, -⟩ := hh
  obtain rfl := hq.arrives h18
  rw [h13] at hm1 h17
  rw [h14] at hm2
  simp only [List.mem_singleton, Prod.mk.injEq] at hm1 hm2
  obtain ⟨rfl, rfl⟩ := hm1
  obtain ⟨-, rfl, rfl⟩ := hm2
  simp only [List.filter_cons, decide_true, if_true, List.filter_nil, List.cons.injEq, Prod.mk.injEq, true_and, and_true, Option.some.injEq] at h17
  rw [h17]
  show _ = _
  rw [hf]

/-- Such requests and responses exist. -/
example : Portable (.req .cpreqStatusNotification)
      (.struct [.int 1, .str "NoError".toList, .str "a".toList, .str "Available".toList, .ptr (.time ⟨1577836800, 0, 0⟩), .str [], .str []]) ∧
    Portable (.resp .cprespStatusNotification) (.struct []) := by
  refine ⟨⟨?_, by decide, ⟨?_, ?_⟩, ?_, ?_⟩, ⟨?_, by decide, ⟨?_, ?_⟩, ?_, ?_⟩⟩
  · simp [MsgType.ty, ReqType.ty, cpreq.StatusNotification, HasTy, HasTys]
  · simp [Val.IntsAll, Val.IntsAlls]
  · simp only [Val.TimesAll, Val.TimesAlls]; decide
  · simp [Val.TimesAll, Val.TimesAlls]
  · simp [MsgType.ty, ReqType.ty, cpreq.StatusNotification, cpreq.StatusNotification.info, Intact, Intacts]
    decide
  · simp [MsgType.ty, RespType.ty, cpresp.StatusNotification, HasTy, HasTys]
  · simp [Val.IntsAll, Val.IntsAlls]
  · simp [Val.TimesAll, Val.TimesAlls]
  · simp [Val.TimesAll, Val.TimesAlls]
  · simp [MsgType.ty, RespType.ty, cpresp.StatusNotification, cpresp.StatusNotification.info, Intact, Intacts]

end Verif.Soap
