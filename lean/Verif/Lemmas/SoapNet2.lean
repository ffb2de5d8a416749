import Verif.Lemmas.SoapNet
/-!
# SOAP calls in a network: what a trace says about a call
-/
namespace Verif.Soap
open Xml Ocppj

/-- The number of the `Send` an event belongs to. -/
def NetEv.call : NetEv → Nat
  | .send i _ _ | .called i _ _ | .rejected i | .handlerRet i _ _ | .handlerPanic i | .returned i _ => i

/-- Events at the server. -/
def NetEv.server : NetEv → Bool
  | .called .. | .rejected _ | .handlerRet .. | .handlerPanic _ => true
  | .send .. | .returned .. => false

/-- The events of a call. -/
def own (i : Nat) (tr : List NetEv) : List NetEv := tr.filter fun e => e.call == i

theorem own_snoc_self {i : Nat} {tr : List NetEv} {e : NetEv} (h : e.call = i) : own i (tr ++ [e]) = own i tr ++ [e] := by
  simp [own, h]

theorem own_snoc_other {i : Nat} {tr : List NetEv} {e : NetEv} (h : e.call ≠ i) : own i (tr ++ [e]) = own i tr := by
  simp [own, h]

theorem mem_own {i : Nat} {tr : List NetEv} {e : NetEv} : e ∈ own i tr ↔ e ∈ tr ∧ e.call = i := by simp [own]

/-- What has happened at the server with a call, given its events there. -/
def AtServer (G : FloatText) (atCs : Bool) (i : Nat) (c : Call) (evs : List NetEv) : Prop :=
  match c.remote with
  | .waiting body => evs = [] ∧ ∃ msgId, posted G c.svc.url msgId c.svc.sender c.svc.identity c.req = .ok body
  | .handling => ∃ r id, evs = [.called i r id] ∧ Reached c r id
  | .over a =>
    (evs = [] ∨ evs = [.rejected i]) ∧ Useless a ∨
    (∃ r id, evs = [.called i r id, .handlerPanic i] ∧ Reached c r id ∧ Useless a) ∨
    ∃ r id resp err, evs = [.called i r id, .handlerRet i resp err] ∧ Reached c r id ∧ a = answerOf (encodeReply G resp err)
where
  /-- the handler has been called for the call -/
  Reached (c : Call) (r : Req) (id : Text) : Prop :=
    front atCs c.svc.url = some true ∧ ∃ msgId body p, posted G c.svc.url msgId c.svc.sender c.svc.identity c.req = .ok body ∧ p <+: body ∧
      begin G atCs p = .inl (r, id)

/-- What is known of a call, given its events. -/
def CallInv (G : FloatText) (atCs : Bool) (i : Nat) (c : Call) (evs : List NetEv) : Prop :=
  ∃ rest, evs = .send i c.svc c.req :: rest ∧ AtServer G atCs i c (rest.filter (·.server)) ∧
    rest.filter (fun e => !e.server) = c.result.toList.map (NetEv.returned i)

/-- What is known of all calls. -/
def NetInv (G : FloatText) (atCs : Bool) (tr : List NetEv) (s : NetSt) : Prop :=
  ∀ i, (∀ c, s.calls[i]? = some c → CallInv G atCs i c (own i tr)) ∧ (s.calls[i]? = none → own i tr = [])

variable {G : FloatText} {atCs : Bool}

theorem inv_new {tr : List NetEv} {s : NetSt} (h : NetInv G atCs tr s) {e : NetEv} {c : Call} {d : List Nat} (he : e.call = s.calls.length)
    (hc : CallInv G atCs s.calls.length c [e]) : NetInv G atCs (tr ++ [e]) ⟨s.calls ++ [c], d⟩ := by
  intro j
  have hn : own s.calls.length tr = [] := (h s.calls.length).2 (by simp)
  rcases lt_trichotomy j s.calls.length with hj | rfl | hj
  · rw [own_snoc_other (by omega)]
    simp only [List.getElem?_append_left hj]
    exact h j
  · rw [own_snoc_self he, hn]
    refine ⟨fun c' hc' => ?_, fun hc' => by simp at hc'⟩
    simp at hc'
    subst hc'
    exact hc
  · rw [own_snoc_other (by omega)]
    refine ⟨fun c' hc' => ?_, fun _ => (h j).2 (by simp; omega)⟩
    have := (List.getElem?_eq_some_iff.1 hc').1
    simp at this
    omega

theorem inv_set {tr : List NetEv} {s : NetSt} (h : NetInv G atCs tr s) {e : NetEv} {i : Nat} {c c' : Call} {d : List Nat} (he : e.call = i)
    (hg : s.calls[i]? = some c) (hc : CallInv G atCs i c (own i tr) → CallInv G atCs i c' (own i tr ++ [e])) :
    NetInv G atCs (tr ++ [e]) ⟨s.calls.set i c', d⟩ := by
  intro j
  have hl : i < s.calls.length := (List.getElem?_eq_some_iff.1 hg).1
  by_cases hj : i = j
  · subst hj
    rw [own_snoc_self he]
    simp only [List.getElem?_set_self hl]
    refine ⟨fun c'' hc'' => ?_, fun hc'' => by cases hc''⟩
    cases hc''
    exact hc ((h i).1 c hg)
  · rw [own_snoc_other (by omega)]
    simp only [List.getElem?_set_ne hj]
    exact h j

theorem inv_server {tr : List NetEv} {s : NetSt} (h : NetInv G atCs tr s) {e : NetEv} {i : Nat} {c : Call} {rem : Remote} {d : List Nat} (he : e.call = i)
    (hs : e.server = true) (hg : s.calls[i]? = some c)
    (hc : ∀ evs, AtServer G atCs i c evs → AtServer G atCs i { c with remote := rem } (evs ++ [e])) :
    NetInv G atCs (tr ++ [e]) ⟨s.calls.set i { c with remote := rem }, d⟩ := by
  refine inv_set h he hg ?_
  rintro ⟨rest, h1, h2, h3⟩
  refine ⟨rest ++ [e], by rw [h1]; rfl, ?_, ?_⟩
  · rw [List.filter_append]
    simp only [List.filter_cons, hs, List.filter_nil, if_true]
    exact hc _ h2
  · rw [List.filter_append]
    simp only [List.filter_cons, hs, List.filter_nil, Bool.not_true, Bool.false_eq_true, if_false, List.append_nil]
    exact h3

theorem inv_return {tr : List NetEv} {s : NetSt} (h : NetInv G atCs tr s) {i : Nat} {c : Call} {x : Result} {d : List Nat}
    (hg : s.calls[i]? = some c) (hr : c.result = none) :
    NetInv G atCs (tr ++ [.returned i x]) ⟨s.calls.set i { c with result := some x }, d⟩ := by
  refine inv_set h rfl hg ?_
  rintro ⟨rest, h1, h2, h3⟩
  refine ⟨rest ++ [.returned i x], by rw [h1]; rfl, ?_, ?_⟩
  · rw [List.filter_append]
    simp only [List.filter_cons, NetEv.server, List.filter_nil, Bool.false_eq_true, if_false, List.append_nil]
    exact h2
  · rw [List.filter_append, h3, hr]
    rfl

theorem inv_step {tr : List NetEv} {s s' : NetSt} {e : NetEv} (h : NetInv G atCs tr s) (hs : NetStep G atCs s e s') : NetInv G atCs (tr ++ [e]) s' := by
  cases hs with
  | send h1 h2 => exact inv_new h rfl ⟨[], rfl, ⟨rfl, _, h2⟩, rfl⟩
  | sendErr h1 h2 => exact inv_new h rfl ⟨[], rfl, .inl ⟨.inl rfl, useless_failed _⟩, rfl⟩
  | sendPanic h1 h2 => exact inv_new h rfl ⟨[], rfl, .inl ⟨.inl rfl, useless_failed _⟩, rfl⟩
  | arrive h1 h2 h3 h4 h5 =>
    refine inv_server h rfl rfl h1 fun evs ha => ?_
    unfold AtServer at ha
    rw [h2] at ha
    obtain ⟨rfl, m, hm⟩ := ha
    exact ⟨_, _, rfl, h3, _, _, _, hm, h4, h5⟩
  | refuse h1 h2 h3 h4 h5 =>
    refine inv_server h rfl rfl h1 fun evs ha => ?_
    unfold AtServer at ha
    rw [h2] at ha
    obtain ⟨rfl, m, hm⟩ := ha
    exact .inl ⟨.inr rfl, useless_begin h5⟩
  | page n h1 h2 h3 =>
    refine inv_server h rfl rfl h1 fun evs ha => ?_
    unfold AtServer at ha
    rw [h2] at ha
    obtain ⟨rfl, m, hm⟩ := ha
    exact .inl ⟨.inr rfl, useless_landing n⟩
  | nowhere m h1 h2 h3 =>
    refine inv_server h rfl rfl h1 fun evs ha => ?_
    unfold AtServer at ha
    rw [h2] at ha
    obtain ⟨rfl, m, hm⟩ := ha
    exact .inl ⟨.inr rfl, useless_failed _⟩
  | handlerRet resp err h1 h2 =>
    refine inv_server h rfl rfl h1 fun evs ha => ?_
    unfold AtServer at ha
    rw [h2] at ha
    obtain ⟨r, id, rfl, hr⟩ := ha
    exact .inr (.inr ⟨r, id, resp, err, rfl, hr, rfl⟩)
  | handlerPanic h1 h2 =>
    refine inv_server h rfl rfl h1 fun evs ha => ?_
    unfold AtServer at ha
    rw [h2] at ha
    obtain ⟨r, id, rfl, hr⟩ := ha
    exact .inr (.inl ⟨r, id, rfl, hr, useless_failed _⟩)
  | receive h1 h2 h3 h4 h5 => exact inv_return h h1 h3
  | fail m h1 h2 h3 => exact inv_return h h1 h3

theorem NetExec.inv {tr : List NetEv} {s : NetSt} (h : NetExec G atCs tr s) : NetInv G atCs tr s := by
  induction h with
  | nil => exact fun i => ⟨fun c hc => by simp [NetSt.init] at hc, fun _ => rfl⟩
  | snoc _ hs ih => exact inv_step ih hs

/-- Every event of an execution has a moment at which it happens. -/
theorem NetRun.at_event {s0 : NetSt} {tr : List NetEv} {s : NetSt} (h : NetRun G atCs s0 tr s) {e : NetEv} (he : e ∈ tr) :
    ∃ pre s1 s2 post, tr = pre ++ e :: post ∧ NetRun G atCs s0 pre s1 ∧ NetStep G atCs s1 e s2 := by
  induction h with
  | nil => cases he
  | snoc h1 h2 ih =>
    rename_i tr0 e0 s1 s2
    rcases List.mem_append.1 he with he | he
    · obtain ⟨pre, s1', s2', post, rfl, h3, h4⟩ := ih he
      exact ⟨pre, s1', s2', post ++ [e0], by simp, h3, h4⟩
    · simp only [List.mem_singleton] at he
      subst he
      exact ⟨tr0, s1, s2, [], rfl, h1, h2⟩

theorem NetRun.append {s0 s1 s2 : NetSt} {tr tr' : List NetEv} (h : NetRun G atCs s0 tr s1) (h' : NetRun G atCs s1 tr' s2) :
    NetRun G atCs s0 (tr ++ tr') s2 := by
  induction h' with
  | nil => rwa [List.append_nil]
  | snoc _ hs ih => rw [← List.append_assoc]; exact .snoc ih hs

/-- An event of a call belongs to a call that was made. -/
theorem NetExec.call_of {tr : List NetEv} {s : NetSt} (h : NetExec G atCs tr s) {e : NetEv} (he : e ∈ tr) :
    ∃ c, s.calls[e.call]? = some c ∧ CallInv G atCs e.call c (own e.call tr) := by
  have hi := NetExec.inv h
  cases hc : s.calls[e.call]? with
  | some c => exact ⟨c, rfl, (hi e.call).1 c hc⟩
  | none =>
    have := (hi e.call).2 hc
    have hm := mem_own.2 ⟨he, rfl⟩
    rw [this] at hm
    cases hm

end Verif.Soap
