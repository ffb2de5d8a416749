import Verif.Lemmas.SoapNet2
/-!
# SOAP calls in every schedule (C86), side by side (C87), and through the central system's HTTP entry (C88)
-/
namespace Verif.Soap
open Xml Ocppj

/-- All requests and responses in the trace are Go values of their types, with time stamps that can be written in four-digit years. -/
structure TypedNet (tr : List NetEv) : Prop where
  req : ∀ i svc r, NetEv.send i svc r ∈ tr → HasTy r.type.ty r.val ∧ r.val.TimesAll GoTime.Plain
  resp : ∀ i x err, NetEv.handlerRet i (some x) err ∈ tr → HasTy x.type.ty x.val ∧ x.val.TimesAll GoTime.Plain

/-- The handler is called for `Send` number `i`. -/
def CalledFor (i : Nat) (e : NetEv) : Prop := ∃ r id, e = .called i r id

/-- `Send` number `i` returns. -/
def ReturnOf (i : Nat) (e : NetEv) : Prop := ∃ x, e = .returned i x

variable {G : FloatText} {atCs : Bool}

theorem callInv_called {i : Nat} {c : Call} {evs : List NetEv} (h : CallInv G atCs i c evs) {r : Req} {id : Text} (hc : NetEv.called i r id ∈ evs) :
    AtServer.Reached G atCs c r id ∧ (evs.filter fun e => e.server).head? = some (.called i r id) := by
  obtain ⟨rest, rfl, h2, h3⟩ := h
  have hm : NetEv.called i r id ∈ rest.filter (·.server) := by
    rw [List.mem_filter]
    exact ⟨by simpa using hc, rfl⟩
  have hf : (NetEv.send i c.svc c.req :: rest).filter (fun e => e.server) = rest.filter (·.server) := by simp [List.filter_cons, NetEv.server]
  rw [hf]
  generalize rest.filter (·.server) = S at hm h2
  unfold AtServer at h2
  split at h2
  · rw [h2.1] at hm; cases hm
  · obtain ⟨r', id', rfl, hr⟩ := h2
    simp only [List.mem_singleton, NetEv.called.injEq, true_and] at hm
    obtain ⟨rfl, rfl⟩ := hm
    exact ⟨hr, rfl⟩
  · rcases h2 with ⟨rfl | rfl, -⟩ | ⟨r', id', rfl, hr, -⟩ | ⟨r', id', resp, err, rfl, hr, -⟩
    · cases hm
    · simp at hm
    · simp only [List.mem_cons, NetEv.called.injEq, true_and, reduceCtorEq, List.not_mem_nil, or_false] at hm
      obtain ⟨rfl, rfl⟩ := hm
      exact ⟨hr, rfl⟩
    · simp only [List.mem_cons, NetEv.called.injEq, true_and, reduceCtorEq, List.not_mem_nil, or_false] at hm
      obtain ⟨rfl, rfl⟩ := hm
      exact ⟨hr, rfl⟩

/-- A handler is called. -/
def NetEv.isCalled : NetEv → Bool
  | .called .. => true
  | _ => false

theorem not_own {i : Nat} {e : NetEv} {l : List NetEv} (h : e ∉ l) (hc : e.call = i) : e ∉ own i l := fun hm => h (mem_own.1 hm).1

theorem own_append (i : Nat) (a b : List NetEv) : own i (a ++ b) = own i a ++ own i b := by simp [own]

theorem server_once {i : Nat} {c : Call} {evs : List NetEv} (h : CallInv G atCs i c evs) {a b : List NetEv} {e : NetEv} {r : Req} {id : Text}
    (he : evs = a ++ .called i r id :: b) (hc : e ∈ a ++ b) : ¬ CalledFor i e := by
  obtain ⟨rest, h1, h2, h3⟩ := h
  rintro ⟨r', id', rfl⟩
  have hl : (evs.filter NetEv.isCalled).length ≤ 1 := by
    have : evs.filter NetEv.isCalled = (rest.filter (·.server)).filter NetEv.isCalled := by
      rw [h1, List.filter_filter, List.filter_cons]
      simp only [NetEv.isCalled, Bool.false_eq_true, if_false]
      refine List.filter_congr fun e _ => ?_
      cases e <;> rfl
    rw [this]
    generalize rest.filter (·.server) = S at h2
    unfold AtServer at h2
    split at h2
    · rw [h2.1]; simp
    · obtain ⟨r', id', rfl, hr⟩ := h2; simp [List.filter_cons, NetEv.isCalled]
    · rcases h2 with ⟨rfl | rfl, -⟩ | ⟨r', id', rfl, hr, -⟩ | ⟨r', id', resp, err, rfl, hr, -⟩ <;> simp [List.filter_cons, NetEv.isCalled]
  rw [he, List.filter_append, List.filter_cons, if_pos (show (NetEv.called i r id).isCalled = true from rfl), List.length_append, List.length_cons] at hl
  have : 0 < ((a ++ b).filter NetEv.isCalled).length := List.length_pos_of_mem (List.mem_filter.2 ⟨hc, rfl⟩)
  rw [List.filter_append, List.length_append] at this
  omega

/-- **C86** For no `Send` is the handler called twice, whatever happens: if it is called for it at one point of a schedule, it is not
called for it at any other. -/
theorem C86_once {tr : List NetEv} {s : NetSt} (h : NetExec G atCs tr s) {i : Nat} {pre post : List NetEv} {r : Req} {id : Text}
    (he : tr = pre ++ .called i r id :: post) : ∀ e ∈ pre ++ post, ¬ CalledFor i e := by
  rintro e hm hc
  obtain ⟨c, -, hi⟩ := NetExec.call_of h (e := .called i r id) (by rw [he]; simp)
  have hown : own i tr = own i pre ++ .called i r id :: own i post := by
    rw [he, own_append]; congr 1; simp [own, NetEv.call]
  refine server_once hi hown ?_ hc
  rw [← own_append]
  obtain ⟨r', id', rfl⟩ := hc
  exact mem_own.2 ⟨hm, rfl⟩

/-- **C86** No `Send` returns twice. -/
theorem C86_returns_once {tr : List NetEv} {s : NetSt} (h : NetExec G atCs tr s) {i : Nat} {pre post : List NetEv} {x : Result}
    (he : tr = pre ++ .returned i x :: post) : ∀ e ∈ pre ++ post, ¬ ReturnOf i e := by
  rintro e hm ⟨x', rfl⟩
  obtain ⟨c, -, rest, h1, -, h3⟩ := NetExec.call_of h (e := .returned i x) (by rw [he]; simp)
  change own i tr = _ at h1
  have hown : own i tr = own i pre ++ .returned i x :: own i post := by
    rw [he, own_append]; congr 1; simp [own, NetEv.call]
  have hl : ((own i tr).filter fun e => match e with | .returned .. => true | _ => false).length ≤ 1 := by
    rw [h1]
    have e : (NetEv.send i c.svc c.req :: rest).filter (fun e => match e with | .returned .. => true | _ => false) =
        (rest.filter (fun e => !e.server)).filter (fun e => match e with | .returned .. => true | _ => false) := by
      rw [List.filter_filter, List.filter_cons]
      simp only [Bool.false_eq_true, if_false]
      refine List.filter_congr fun e _ => ?_
      cases e <;> rfl
    change ((NetEv.send i c.svc c.req :: rest).filter _).length ≤ 1
    rw [e, h3]
    cases c.result <;> simp [List.filter_cons]
  have hm' : NetEv.returned i x' ∈ own i pre ++ own i post := by rw [← own_append]; exact mem_own.2 ⟨hm, rfl⟩
  rw [hown] at hl
  simp only [List.filter_append, List.filter_cons, if_true, List.length_append, List.length_cons] at hl
  have : 0 < ((own i pre ++ own i post).filter fun e => match e with | .returned .. => true | _ => false).length :=
    List.length_pos_of_mem (List.mem_filter.2 ⟨hm', rfl⟩)
  simp only [List.filter_append, List.length_append] at this
  omega

theorem sublist_of_own {i : Nat} {tr l : List NetEv} (h : l.Sublist (own i tr)) : l.Sublist tr := h.trans List.filter_sublist

theorem sublist_server {i : Nat} {c : Call} {evs : List NetEv} {rest : List NetEv} (h1 : evs = .send i c.svc c.req :: rest) :
    (NetEv.send i c.svc c.req :: rest.filter (·.server)).Sublist evs := by
  rw [h1]
  exact .cons_cons _ List.filter_sublist

/-- **C86** The handler is called only for a `Send` made before, with the request sent (up to `soapTrip`, the losses of C48) and the
identity of the service (without characters XML does not have), and only if that is a request of its direction. -/
theorem C86_request {tr : List NetEv} {s : NetSt} (h : NetExec G atCs tr s) (ht : TypedNet tr) {i : Nat} {r' : Req} {id : Text}
    (hc : NetEv.called i r' id ∈ tr) :
    ∃ svc r, [NetEv.send i svc r, .called i r' id].Sublist tr ∧ r' = ⟨r.type, soapTrip r.type.ty r.val⟩ ∧ id = cleanText svc.identity ∧
      r.type.isChargePoint = atCs := by
  obtain ⟨c, -, hi⟩ := NetExec.call_of h hc
  change CallInv G atCs i c (own i tr) at hi
  obtain ⟨hr, hh⟩ := callInv_called hi (mem_own.2 ⟨hc, rfl⟩)
  obtain ⟨hfr, msgId, body, p, hp, hpre, hb⟩ := hr
  obtain ⟨rest, h1, -, -⟩ := hi
  have hsub := sublist_server h1
  have hsend : NetEv.send i c.svc c.req ∈ tr := (mem_own.1 (by rw [h1]; simp : _ ∈ own i tr)).1
  obtain ⟨g1, g2⟩ := ht.req _ _ _ hsend
  obtain ⟨k1, k2, k3, -⟩ := begin_posted g1 g2 hp hpre hb
  refine ⟨c.svc, c.req, ?_, k1, k2, k3⟩
  refine sublist_of_own (i := i) (List.Sublist.trans ?_ hsub)
  rw [h1] at hh
  have hf : (NetEv.send i c.svc c.req :: rest).filter (fun e => e.server) = rest.filter (·.server) := by simp [List.filter_cons, NetEv.server]
  rw [hf] at hh
  obtain ⟨tl, htl⟩ := List.head?_eq_some_iff.1 hh
  rw [htl]
  simp

/-- How a `Send` got a result other than an error. -/
theorem result_origin {tr : List NetEv} {s : NetSt} (h : NetExec G atCs tr s) (ht : TypedNet tr) {i : Nat} {x : Result}
    (hr : NetEv.returned i x ∈ tr) (hx : ∀ t, x ≠ .err t) :
    ∃ svc r resp, [NetEv.send i svc r, .called i ⟨r.type, soapTrip r.type.ty r.val⟩ (cleanText svc.identity), .handlerRet i resp none,
        .returned i x].Sublist tr ∧
      (∀ y, x = .ok y → ∃ z, resp = some z ∧ z.type = r.type.response ∧ y = ⟨z.type, soapTrip z.type.ty z.val⟩) ∧
      (∀ m, x = .panic m → ∀ z, resp = some z → z.type ≠ r.type.response) := by
  obtain ⟨pre, s1, s2, post, rfl, h1, hs⟩ := NetRun.at_event h hr
  have htp : TypedNet pre := ⟨fun i svc r hm => ht.req i svc r (by simp [hm]), fun i x e hm => ht.resp i x e (by simp [hm])⟩
  generalize hev : NetEv.returned i x = ev at hs
  cases hs with
  | receive g1 g2 g3 g4 g5 =>
    rename_i j c a a'
    cases hev
    obtain ⟨rest, e1, e2, e3⟩ := (NetExec.inv h1 i).1 c g1
    unfold AtServer at e2
    rw [g4] at e2
    have huse : ¬ Useless a := by
      intro hu
      obtain ⟨t, ht⟩ := hu c.req a' g5
      exact hx t ht
    rcases e2 with ⟨-, hu⟩ | ⟨r', id', -, -, hu⟩ | ⟨r', id', resp, err, hev, hre, rfl⟩
    · exact absurd hu huse
    · exact absurd hu huse
    obtain ⟨hfr, msgId, body, p, hp, hpre, hb⟩ := hre
    have hsend : NetEv.send i c.svc c.req ∈ pre := (mem_own.1 (by rw [e1]; simp : _ ∈ own i pre)).1
    obtain ⟨k1, k2⟩ := htp.req _ _ _ hsend
    obtain ⟨rfl, rfl, k3, -⟩ := begin_posted k1 k2 hp hpre hb
    have hsub := sublist_server e1
    rw [hev] at hsub
    have hret : NetEv.handlerRet i resp err ∈ pre := (sublist_of_own hsub).subset (by simp)
    have hv : ∀ z, resp = some z → HasTy z.type.ty z.val ∧ z.val.TimesAll GoTime.Plain := by
      rintro z rfl
      exact htp.resp _ _ _ hret
    obtain ⟨q1, q2⟩ := receive_reply hv (r := c.req) g5
    have hen : err = none := by
      cases hx' : receive c.req a' with
      | ok y => exact (q1 y hx').1
      | panic m => exact (q2 m hx').1
      | err t => exact absurd hx' (hx t)
    subst hen
    refine ⟨c.svc, c.req, resp, ?_, fun y hy => ?_, fun m hm => (q2 m hm).2⟩
    · have : [NetEv.send i c.svc c.req, .called i ⟨c.req.type, soapTrip c.req.type.ty c.req.val⟩ (cleanText c.svc.identity), .handlerRet i resp none,
          .returned i (receive c.req a')] = [NetEv.send i c.svc c.req, .called i ⟨c.req.type, soapTrip c.req.type.ty c.req.val⟩ (cleanText c.svc.identity), .handlerRet i resp none] ++
          [.returned i (receive c.req a')] := rfl
      rw [this]
      exact (sublist_of_own hsub).append (List.Sublist.cons_cons _ (List.nil_sublist _))
    · obtain ⟨-, z, hz1, hz2, hz3⟩ := q1 y hy
      exact ⟨z, hz1, hz2, hz3⟩
  | fail m g1 g2 g3 => cases hev; exact absurd rfl (hx m)
  | _ => cases hev

/-- **C86** When a `Send` returns a response, then, in this order: the `Send` was made, the handler was called with its request, and it
returned, without an error, that response (up to `soapTrip`), which is of the type belonging to the request. -/
theorem C86_response {tr : List NetEv} {s : NetSt} (h : NetExec G atCs tr s) (ht : TypedNet tr) {i : Nat} {y : Resp}
    (hr : NetEv.returned i (.ok y) ∈ tr) :
    ∃ svc r z, [NetEv.send i svc r, .called i ⟨r.type, soapTrip r.type.ty r.val⟩ (cleanText svc.identity), .handlerRet i (some z) none,
        .returned i (.ok y)].Sublist tr ∧ z.type = r.type.response ∧ y = ⟨z.type, soapTrip z.type.ty z.val⟩ := by
  obtain ⟨svc, r, resp, h1, h2, -⟩ := result_origin h ht hr (by simp)
  obtain ⟨z, rfl, h3, h4⟩ := h2 y rfl
  exact ⟨svc, r, z, h1, h3, h4⟩

/-- **C86** When a `Send` panics, the handler was called with its request and returned neither a response of the type belonging to the
request nor an error. -/
theorem C86_panic {tr : List NetEv} {s : NetSt} (h : NetExec G atCs tr s) (ht : TypedNet tr) {i : Nat} {m : String}
    (hr : NetEv.returned i (.panic m) ∈ tr) :
    ∃ svc r resp, [NetEv.send i svc r, .called i ⟨r.type, soapTrip r.type.ty r.val⟩ (cleanText svc.identity), .handlerRet i resp none,
        .returned i (.panic m)].Sublist tr ∧ ∀ z, resp = some z → z.type ≠ r.type.response := by
  obtain ⟨svc, r, resp, h1, -, h2⟩ := result_origin h ht hr (by simp)
  exact ⟨svc, r, resp, h1, h2 m rfl⟩

/-! ### Progress -/

theorem url_ne_nil {url : Text} (h : front atCs url = some true) : url ≠ [] := by
  rintro rfl
  have : front atCs [] = none := by unfold front urlPath httpRest; simp
  rw [this] at h; cases h

theorem bound_response : ∀ q : ReqType, bound (.req q) = true → bound (.resp q.response) = true := by
  intro q; cases q <;> decide

/-- `Send` and the call of the handler for it. -/
theorem start_run (s : NetSt) {svc : Service} (hal : svc.proc ∉ s.dead) (hf : front atCs svc.url = some true) {r : Req}
    (hb : bound (.req r.type) = true) (hv : HasTy r.type.ty r.val) (hp : r.val.TimesAll GoTime.Plain) (hd : r.type.isChargePoint = atCs) :
    NetRun G atCs s [.send s.calls.length svc r, .called s.calls.length ⟨r.type, soapTrip r.type.ty r.val⟩ (cleanText svc.identity)]
      ⟨s.calls ++ [⟨svc, r, .handling, none⟩], s.dead⟩ := by
  have hu := url_ne_nil hf
  obtain ⟨body, h1, -⟩ := C48_request G ⟨svc.url, '/' :: r.type.action, [], svc.sender, svc.identity⟩ r hb hv hp
  have hpost : posted G svc.url [] svc.sender svc.identity r = .ok body := by rw [posted, if_neg hu]; exact h1
  have s1 := NetStep.send (G := G) (atCs := atCs) (s := s) hal hpost
  have s2 := NetStep.arrive (G := G) (atCs := atCs) (s := ⟨s.calls ++ [⟨svc, r, .waiting body, none⟩], s.dead⟩) (i := s.calls.length)
    (c := ⟨svc, r, .waiting body, none⟩) (by simp) rfl hf (List.prefix_refl _) (begin_whole hv hp hb hd hpost)
  have e : (⟨s.calls ++ [⟨svc, r, .waiting body, none⟩], s.dead⟩ : NetSt).set s.calls.length ⟨svc, r, .handling, none⟩ =
      ⟨s.calls ++ [⟨svc, r, .handling, none⟩], s.dead⟩ := by
    simp [NetSt.set]
  rw [e] at s2
  exact .snoc (.snoc .nil s1) s2

/-- **C87** At any moment, whatever other `Send`s and handler calls are under way, a `Send` of a process that has not crashed can run
through without any of them taking a step: to the handler and back with whatever response that gives.  It leaves the others as they are. -/
theorem C87_progress {tr : List NetEv} {s : NetSt} (_ : NetExec G atCs tr s) {svc : Service} (hal : svc.proc ∉ s.dead)
    (hf : front atCs svc.url = some true) {r : Req} (hb : bound (.req r.type) = true) (hv : HasTy r.type.ty r.val)
    (hp : r.val.TimesAll GoTime.Plain) (hd : r.type.isChargePoint = atCs) {x : Resp} (hx : x.type = r.type.response)
    (hv' : HasTy x.type.ty x.val) (hp' : x.val.TimesAll GoTime.Plain) :
    ∃ s', NetRun G atCs s [.send s.calls.length svc r, .called s.calls.length ⟨r.type, soapTrip r.type.ty r.val⟩ (cleanText svc.identity),
        .handlerRet s.calls.length (some x) none, .returned s.calls.length (.ok ⟨x.type, soapTrip x.type.ty x.val⟩)] s' ∧
      s'.dead = s.dead ∧ ∀ j < s.calls.length, s'.calls[j]? = s.calls[j]? := by
  have h0 := start_run (G := G) s hal hf hb hv hp hd
  have s3 := NetStep.handlerRet (G := G) (atCs := atCs) (s := ⟨s.calls ++ [⟨svc, r, .handling, none⟩], s.dead⟩) (i := s.calls.length)
    (c := ⟨svc, r, .handling, none⟩) (some x) none (by simp) rfl
  obtain ⟨reply, h1, h2⟩ := C48_response G x (by rw [hx]; exact bound_response _ hb) hv' hp'
  rw [h1] at s3
  have e : (⟨s.calls ++ [⟨svc, r, .handling, none⟩], s.dead⟩ : NetSt).set s.calls.length ⟨svc, r, .over (answerOf (.ok reply)), none⟩ =
      ⟨s.calls ++ [⟨svc, r, .over (.got 200 reply), none⟩], s.dead⟩ := by
    simp [NetSt.set, answerOf]
  rw [e] at s3
  have hrec : receive r (.got 200 reply) = .ok ⟨x.type, soapTrip x.type.ty x.val⟩ :=
    (C51_ok _ _ _).2 ⟨200, reply, _, rfl, h2, rfl, by rw [hx], hx⟩
  have s4 := NetStep.receive (G := G) (atCs := atCs) (s := ⟨s.calls ++ [⟨svc, r, .over (.got 200 reply), none⟩], s.dead⟩) (i := s.calls.length)
    (c := ⟨svc, r, .over (.got 200 reply), none⟩) (by simp) hal rfl rfl .whole
  simp only [hrec, Result.crash] at s4
  refine ⟨_, .snoc (.snoc h0 s3) s4, rfl, fun j hj => ?_⟩
  simp only [NetSt.set]
  rw [List.getElem?_set_ne (by omega), List.getElem?_append_left hj]

/-- **C87** There is no bound on the handler calls that run at the same time, even for one charge point: for every `n` there is a
schedule after which `n` handler calls for the same identity are under way (called, and none has ended), and the `Send`s with them. -/
theorem C87_concurrent (G : FloatText) (atCs : Bool) {svc : Service} (hf : front atCs svc.url = some true) {r : Req} (hb : bound (.req r.type) = true)
    (hv : HasTy r.type.ty r.val) (hp : r.val.TimesAll GoTime.Plain) (hd : r.type.isChargePoint = atCs) (n : Nat) :
    ∃ tr s, NetExec G atCs tr s ∧ TypedNet tr ∧
      (∀ i < n, NetEv.called i ⟨r.type, soapTrip r.type.ty r.val⟩ (cleanText svc.identity) ∈ tr) ∧
      ∀ i, NetEv.handlerPanic i ∉ tr ∧ (∀ resp err, NetEv.handlerRet i resp err ∉ tr) ∧ ∀ x, NetEv.returned i x ∉ tr := by
  suffices ∃ tr s, NetExec G atCs tr s ∧ TypedNet tr ∧ s.calls.length = n ∧ s.dead = [] ∧
      (∀ i < n, NetEv.called i ⟨r.type, soapTrip r.type.ty r.val⟩ (cleanText svc.identity) ∈ tr) ∧
      ∀ i, NetEv.handlerPanic i ∉ tr ∧ (∀ resp err, NetEv.handlerRet i resp err ∉ tr) ∧ ∀ x, NetEv.returned i x ∉ tr by
    obtain ⟨tr, s, h1, h2, -, -, h3, h4⟩ := this
    exact ⟨tr, s, h1, h2, h3, h4⟩
  induction n with
  | zero => exact ⟨[], .init, .nil, ⟨by simp, by simp⟩, rfl, rfl, by simp, by simp⟩
  | succ n ih =>
    obtain ⟨tr, s, h1, h2, h3, h4, h5, h6⟩ := ih
    have hs := start_run (G := G) s (svc := svc) (by simp [h4]) hf hb hv hp hd
    rw [h3] at hs
    refine ⟨_, _, NetRun.append h1 hs, ⟨?_, ?_⟩, by simp [h3], h4, ?_, ?_⟩
    · intro i svc' r' hm
      rcases List.mem_append.1 hm with hm | hm
      · exact h2.req _ _ _ hm
      · simp only [List.mem_cons, NetEv.send.injEq, reduceCtorEq, List.not_mem_nil, or_false] at hm
        obtain ⟨-, -, rfl⟩ := hm
        exact ⟨hv, hp⟩
    · intro i x e hm
      rcases List.mem_append.1 hm with hm | hm
      · exact h2.resp _ _ _ hm
      · simp at hm
    · intro i hi
      rcases Nat.lt_succ_iff_lt_or_eq.1 hi with hi | rfl
      · exact List.mem_append_left _ (h5 i hi)
      · simp
    · intro i
      refine ⟨fun hm => ?_, fun resp err hm => ?_, fun x hm => ?_⟩
      · rcases List.mem_append.1 hm with hm | hm
        · exact (h6 i).1 hm
        · simp at hm
      · rcases List.mem_append.1 hm with hm | hm
        · exact (h6 i).2.1 _ _ hm
        · simp at hm
      · rcases List.mem_append.1 hm with hm | hm
        · exact (h6 i).2.2 _ hm
        · simp at hm

/-- The process of `Send` number `i`. -/
def procOf (s : NetSt) (i : Nat) : Option Nat := (s.calls[i]?).map (·.svc.proc)

theorem set_comm {s : NetSt} {i j : Nat} {c d : Call} (h : i ≠ j) : (s.set i c).set j d = (s.set j d).set i c := by
  unfold NetSt.set
  simp only [NetSt.mk.injEq, and_true]
  exact List.set_comm _ _ h

theorem set_get {s : NetSt} {i j : Nat} {c : Call} (h : i ≠ j) : (s.set i c).calls[j]? = s.calls[j]? := by
  unfold NetSt.set
  simp [List.getElem?_set_ne h]

/-- What a step that is no `Send` does: it replaces the call it belongs to, in the same way in every state in which that call is the same
and its process has not crashed. -/
theorem step_local {s s' : NetSt} {e : NetEv} (h : NetStep G atCs s e s') (hs : ∀ i svc r, e ≠ .send i svc r) (hp : ∀ i m, e ≠ .returned i (.panic m)) :
    ∃ c c', s.calls[e.call]? = some c ∧ s' = s.set e.call c' ∧
      ∀ t : NetSt, t.calls[e.call]? = some c → (e.server = true ∨ ∀ p ∈ t.dead, p ∈ s.dead) → NetStep G atCs t e (t.set e.call c') := by
  cases h with
  | send h1 h2 => exact absurd rfl (hs _ _ _)
  | sendErr h1 h2 => exact absurd rfl (hs _ _ _)
  | sendPanic h1 h2 => exact absurd rfl (hs _ _ _)
  | arrive h1 h2 h3 h4 h5 => exact ⟨_, _, h1, rfl, fun t ht _ => .arrive ht h2 h3 h4 h5⟩
  | refuse h1 h2 h3 h4 h5 => exact ⟨_, _, h1, rfl, fun t ht _ => .refuse ht h2 h3 h4 h5⟩
  | page n h1 h2 h3 => exact ⟨_, _, h1, rfl, fun t ht _ => .page n ht h2 h3⟩
  | nowhere m h1 h2 h3 => exact ⟨_, _, h1, rfl, fun t ht _ => .nowhere m ht h2 h3⟩
  | handlerRet resp err h1 h2 => exact ⟨_, _, h1, rfl, fun t ht _ => .handlerRet resp err ht h2⟩
  | handlerPanic h1 h2 => exact ⟨_, _, h1, rfl, fun t ht _ => .handlerPanic ht h2⟩
  | receive h1 h2 h3 h4 h5 =>
    rename_i i c a a'
    have hc : (receive c.req a').crash = false := by
      cases hx : receive c.req a' with
      | panic m => exact absurd (by rw [hx]) (hp i m)
      | ok y => rfl
      | err t => rfl
    refine ⟨c, { c with result := some (receive c.req a') }, h1, ?_, fun t ht hd => ?_⟩
    · rw [hc]; rfl
    · have hal : c.svc.proc ∉ t.dead := fun hm => by
        rcases hd with hd | hd
        · cases hd
        · exact h2 (hd _ hm)
      have := NetStep.receive (G := G) (atCs := atCs) ht hal h3 h4 h5
      rw [hc] at this
      exact this
  | fail m h1 h2 h3 =>
    rename_i i c
    refine ⟨c, { c with result := some (.err m) }, h1, rfl, fun t ht hd => .fail m ht (fun hm => ?_) h3⟩
    rcases hd with hd | hd
    · cases hd
    · exact h2 (hd _ hm)

/-- **C87** `Send`s do not interfere: two things that can happen next to two different `Send`s (other than a panic) can happen in either
order, with the same effect. -/
theorem C87_independent {s s₁ s₂ : NetSt} {e₁ e₂ : NetEv} (h₁ : NetStep G atCs s e₁ s₁) (h₂ : NetStep G atCs s e₂ s₂) (hne : e₁.call ≠ e₂.call)
    (hs : ∀ i svc r, e₁ ≠ .send i svc r ∧ e₂ ≠ .send i svc r) (hp : ∀ i m, e₁ ≠ .returned i (.panic m) ∧ e₂ ≠ .returned i (.panic m)) :
    ∃ s', NetStep G atCs s₁ e₂ s' ∧ NetStep G atCs s₂ e₁ s' := by
  obtain ⟨c₁, c₁', g₁, rfl, k₁⟩ := step_local h₁ (fun i svc r => (hs i svc r).1) (fun i m => (hp i m).1)
  obtain ⟨c₂, c₂', g₂, rfl, k₂⟩ := step_local h₂ (fun i svc r => (hs i svc r).2) (fun i m => (hp i m).2)
  refine ⟨(s.set e₁.call c₁').set e₂.call c₂', k₂ _ ?_ (.inr fun p hp => hp), ?_⟩
  · rw [set_get hne]; exact g₂
  · rw [set_comm hne]
    exact k₁ _ (by rw [set_get (Ne.symm hne)]; exact g₁) (.inr fun p hp => hp)

/-- **C87** Handlers and the server go on whatever becomes of the clients: what can happen at the server can happen in every state with
the same `Send`, whichever processes have crashed. -/
theorem C87_server {s s' t : NetSt} {e : NetEv} (h : NetStep G atCs s e s') (hs : e.server = true) (ht : t.calls[e.call]? = s.calls[e.call]?) :
    ∃ t', NetStep G atCs t e t' ∧ t'.calls[e.call]? = s'.calls[e.call]? ∧ t'.dead = t.dead := by
  obtain ⟨c, c', g, rfl, k⟩ := step_local h (by rintro i svc r rfl; cases hs) (by rintro i m rfl; cases hs)
  have g' := ht.trans g
  refine ⟨_, k t g' (.inl hs), ?_, rfl⟩
  unfold NetSt.set
  simp only
  rw [List.getElem?_set_self (List.getElem?_eq_some_iff.1 g).1, List.getElem?_set_self (List.getElem?_eq_some_iff.1 g').1]

/-- **C87** A process crashes exactly when a `Send` of its panics: no other process does, and there is no other cause. -/
theorem C87_crash {tr : List NetEv} {s : NetSt} (h : NetExec G atCs tr s) (ht : TypedNet tr) (p : Nat) :
    p ∈ s.dead ↔ ∃ i svc r m, svc.proc = p ∧ NetEv.send i svc r ∈ tr ∧ NetEv.returned i (.panic m) ∈ tr := by
  induction h with
  | nil => simp [NetSt.init]
  | snoc h1 hs ih =>
    rename_i tr0 e s1 s2
    have ht0 : TypedNet tr0 := ⟨fun i svc r hm => ht.req i svc r (by simp [hm]), fun i x e hm => ht.resp i x e (by simp [hm])⟩
    have ih := ih ht0
    -- the number of a call tells its service
    have hsvc : ∀ i svc r, NetEv.send i svc r ∈ tr0 → ∃ c, s1.calls[i]? = some c ∧ c.svc = svc := by
      intro i svc r hm
      obtain ⟨c, hc, rest, e1, h2, h3⟩ := NetExec.call_of h1 hm
      refine ⟨c, hc, ?_⟩
      have hmo := mem_own.2 ⟨hm, rfl⟩
      change NetEv.send i svc r ∈ own i tr0 at hmo
      change own i tr0 = _ at e1
      rw [e1] at hmo
      rcases List.mem_cons.1 hmo with hmo | hmo
      · cases hmo; rfl
      · have : NetEv.send i svc r ∈ rest.filter fun e => !e.server := List.mem_filter.2 ⟨hmo, rfl⟩
        rw [h3] at this
        simp at this
    have hmade : ∀ i c, s1.calls[i]? = some c → NetEv.send i c.svc c.req ∈ tr0 := by
      intro i c hc
      obtain ⟨rest, e1, -⟩ := (NetExec.inv h1 i).1 c hc
      exact (mem_own.1 (by rw [e1]; simp : _ ∈ own i tr0)).1
    -- a step that is neither a `Send` nor a panic changes neither side
    have hboring : (∀ i svc r, e ≠ .send i svc r) → (∀ i m, e ≠ .returned i (.panic m)) →
        (p ∈ s2.dead ↔ ∃ i svc r m, svc.proc = p ∧ NetEv.send i svc r ∈ tr0 ++ [e] ∧ NetEv.returned i (.panic m) ∈ tr0 ++ [e]) := by
      intro h2 h3
      obtain ⟨c, c', -, rfl, -⟩ := step_local hs h2 h3
      change p ∈ s1.dead ↔ _
      rw [ih]
      constructor
      · rintro ⟨i, svc, r, m, k1, k2, k3⟩
        exact ⟨i, svc, r, m, k1, List.mem_append_left _ k2, List.mem_append_left _ k3⟩
      · rintro ⟨i, svc, r, m, k1, k2, k3⟩
        refine ⟨i, svc, r, m, k1, ?_, ?_⟩
        · rcases List.mem_append.1 k2 with k2 | k2
          · exact k2
          · exact absurd (List.mem_singleton.1 k2).symm (h2 _ _ _)
        · rcases List.mem_append.1 k3 with k3 | k3
          · exact k3
          · exact absurd (List.mem_singleton.1 k3).symm (h3 _ _)
    -- a new `Send`
    have hnew : ∀ svc r, e = .send s1.calls.length svc r → s2.dead = s1.dead →
        (p ∈ s2.dead ↔ ∃ i svc r m, svc.proc = p ∧ NetEv.send i svc r ∈ tr0 ++ [e] ∧ NetEv.returned i (.panic m) ∈ tr0 ++ [e]) := by
      rintro svc r rfl hd
      rw [hd, ih]
      constructor
      · rintro ⟨i, svc, r, m, k1, k2, k3⟩
        exact ⟨i, svc, r, m, k1, List.mem_append_left _ k2, List.mem_append_left _ k3⟩
      · rintro ⟨i, svc', r', m, k1, k2, k3⟩
        have k3' : NetEv.returned i (.panic m) ∈ tr0 := by simpa using k3
        rcases List.mem_append.1 k2 with k2 | k2
        · exact ⟨i, svc', r', m, k1, k2, k3'⟩
        · simp only [List.mem_singleton, NetEv.send.injEq] at k2
          obtain ⟨c, hc, -⟩ := NetExec.call_of h1 k3'
          rw [show (NetEv.returned i (.panic m)).call = s1.calls.length from k2.1] at hc
          simp at hc
    have hq : ∀ svc r n, NetEv.send n svc r ∈ tr0 ++ [e] → ∀ msgId m, posted G svc.url msgId svc.sender svc.identity r ≠ .panic m := by
      intro svc r n hm msgId m hpost
      unfold posted at hpost
      split at hpost
      · cases hpost
      · have := C60_encode G ⟨svc.url, '/' :: r.type.action, msgId, svc.sender, svc.identity⟩ r (ht.req _ _ _ hm).1
        rw [hpost] at this
        cases this
    cases hs with
    | send k1 k2 => exact hnew _ _ rfl rfl
    | sendErr k1 k2 => exact hnew _ _ rfl rfl
    | sendPanic k1 k2 =>
      rename_i svc r msgId m
      exact absurd k2 (hq svc r s1.calls.length (by simp) _ _)
    | receive k1 k2 k3 k4 k5 =>
      rename_i i c a a'
      cases hx : receive c.req a' with
      | ok y => rw [hx] at hboring; exact hboring (by simp) (by simp)
      | err t => rw [hx] at hboring; exact hboring (by simp) (by simp)
      | panic m =>
        simp only [Result.crash, if_true, List.mem_cons]
        constructor
        · rintro (rfl | hp)
          · exact ⟨i, c.svc, c.req, m, rfl, List.mem_append_left _ (hmade i c k1), by simp⟩
          · obtain ⟨i', svc, r, m', q1, q2, q3⟩ := ih.1 hp
            exact ⟨i', svc, r, m', q1, List.mem_append_left _ q2, List.mem_append_left _ q3⟩
        · rintro ⟨i', svc, r, m', q1, q2, q3⟩
          have q2' : NetEv.send i' svc r ∈ tr0 := by simpa using q2
          rcases List.mem_append.1 q3 with q3 | q3
          · exact .inr (ih.2 ⟨i', svc, r, m', q1, q2', q3⟩)
          · simp only [List.mem_singleton, NetEv.returned.injEq] at q3
            obtain ⟨rfl, -⟩ := q3
            obtain ⟨c', hc', rfl⟩ := hsvc _ _ _ q2'
            rw [k1] at hc'
            cases hc'
            exact .inl q1.symm
    | _ => exact hboring (by simp) (by simp)

end Verif.Soap
