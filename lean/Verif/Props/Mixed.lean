import Verif.Model.Mixed
import Verif.Props.World
import Verif.Props.SoapUrl
/-!
# OCPP 1.5 and OCPP 1.6 charge points at one central system

Property C106.
-/
namespace Verif.Mixed
open Json Conn Codec Ocppj

variable {F : FloatFmt} {o₁ o₂ : Order} {csURL : Text} {G : Xml.FloatText} {tr tr' : List (Ev F o₁ o₂)} {s s' s'' : St F o₁ o₂}

theorem jsonOf_append (a b : List (Ev F o₁ o₂)) : jsonOf (a ++ b) = jsonOf a ++ jsonOf b := List.filterMap_append
theorem innOf_append (a b : List (Ev F o₁ o₂)) : innOf (a ++ b) = innOf a ++ innOf b := List.filterMap_append
theorem outOf_append (p : Nat) (a b : List (Ev F o₁ o₂)) : outOf p (a ++ b) = outOf p a ++ outOf p b := List.filterMap_append

theorem mem_jsonOf {e : World.Ev F o₁ o₂} : e ∈ jsonOf tr ↔ Ev.json e ∈ tr := by
  simp only [jsonOf, List.mem_filterMap]
  constructor
  · rintro ⟨x, h1, h2⟩
    cases x <;> simp at h2
    exact h2 ▸ h1
  · exact fun h => ⟨_, h, rfl⟩

theorem mem_innOf {e : Soap.NetEv} : e ∈ innOf tr ↔ Ev.inn e ∈ tr := by
  simp only [innOf, List.mem_filterMap]
  constructor
  · rintro ⟨x, h1, h2⟩
    cases x <;> simp at h2
    exact h2 ▸ h1
  · exact fun h => ⟨_, h, rfl⟩

theorem mem_outOf {p : Nat} {e : Soap.NetEv} : e ∈ outOf p tr ↔ Ev.out p e ∈ tr := by
  simp only [outOf, List.mem_filterMap]
  constructor
  · rintro ⟨x, h1, h2⟩
    cases x <;> simp at h2
    obtain ⟨rfl, rfl⟩ := h2
    exact h1
  · exact fun h => ⟨_, h, by simp⟩

/-- The events of one kind, in their order among the others. -/
theorem innOf_sublist (tr : List (Ev F o₁ o₂)) : ((innOf tr).map Ev.inn).Sublist tr := by
  induction tr with
  | nil => exact .slnil
  | cons e t ih =>
    cases e with
    | inn e => exact ih.cons₂ _
    | json e => exact ih.cons _
    | out p e => exact ih.cons _

theorem outOf_sublist (p : Nat) (tr : List (Ev F o₁ o₂)) : ((outOf p tr).map (Ev.out p)).Sublist tr := by
  induction tr with
  | nil => exact .slnil
  | cons e t ih =>
    cases e with
    | inn e => exact ih.cons _
    | json e => exact ih.cons _
    | out q e =>
      by_cases h : q = p
      · subst h
        rw [show outOf q (Ev.out q e :: t) = e :: outOf q t by simp [outOf]]
        exact ih.cons₂ _
      · rw [show outOf p (Ev.out q e :: t) = outOf p t by simp [outOf, h]]
        exact ih.cons _

/-- **C106** Each part of the traffic behaves as if it were alone: the websocket connections are a `World`, the SOAP requests made to the
central system a SOAP network, and so are those that it makes to each charge point.  So all that is proved about them holds in the
mixture. -/
theorem C106_parts (h : Exec csURL G tr s) :
    World.Exec csURL (jsonOf tr) s.world ∧ Soap.NetExec G true (innOf tr) s.inn ∧ ∀ p, Soap.NetExec G false (outOf p tr) (s.outs p) := by
  induction h with
  | nil => exact ⟨.nil, .nil, fun _ => .nil⟩
  | snoc _ hs ih =>
    obtain ⟨h1, h2, h3⟩ := ih
    rw [jsonOf_append, innOf_append]
    simp only [outOf_append]
    cases hs with
    | json _ hw => exact ⟨h1.snoc hw, by simpa [innOf, St.setOut] using h2, fun p => by simpa only [outOf, List.filterMap_cons, List.filterMap_nil, List.append_nil] using h3 p⟩
    | inn _ _ hn => exact ⟨by simpa [jsonOf, St.setOut] using h1, h2.snoc hn, fun p => by simpa only [outOf, List.filterMap_cons, List.filterMap_nil, List.append_nil] using h3 p⟩
    | @out p e n' _ _ _ hn =>
      refine ⟨by simpa [jsonOf, St.setOut] using h1, by simpa [innOf, St.setOut] using h2, fun q => ?_⟩
      by_cases hq : p = q
      · subst hq
        rw [show outOf p [(Ev.out p e : Ev F o₁ o₂)] = [e] by simp [outOf]]
        simpa [St.setOut] using (h3 p).snoc hn
      · rw [show outOf q [(Ev.out p e : Ev F o₁ o₂)] = [] by simp [outOf, hq]]
        simpa [St.setOut, Ne.symm hq] using h3 q

theorem Exec.inn_proc (h : Exec csURL G tr s) {i : Nat} {svc : Soap.Service} {r : Req} (hm : Ev.inn (.send i svc r) ∈ tr) : svc.proc ≠ 0 := by
  induction h with
  | nil => cases hm
  | snoc _ hs ih =>
    rcases List.mem_append.1 hm with hm | hm
    · exact ih hm
    · rw [List.mem_singleton] at hm
      subst hm
      cases hs with
      | inn _ h2 _ => exact h2 _ _ _ rfl

theorem Exec.out_proc (h : Exec csURL G tr s) {p i : Nat} {svc : Soap.Service} {r : Req} (hm : Ev.out p (.send i svc r) ∈ tr) :
    svc.proc = 0 ∧ svc.sender = [] ∧ ∃ id url : String, svc.identity = id.toList ∧ svc.url = url.toList := by
  induction h with
  | nil => cases hm
  | snoc _ hs ih =>
    rcases List.mem_append.1 hm with hm | hm
    · exact ih hm
    · rw [List.mem_singleton] at hm
      subst hm
      cases hs with
      | out _ _ h2 _ =>
        obtain ⟨h3, h4, id, url, -, h5, h6⟩ := h2 _ _ _ rfl
        exact ⟨h3, h4, id, url, h5, h6⟩

/-! ### What the user of the mixture sees -/

/-- All values are Go values of their types, and time stamps over SOAP can be written. -/
structure Typed (tr : List (Ev F o₁ o₂)) : Prop where
  json : ∀ n, Ocppj.Typed (World.csEvents n (jsonOf tr))
  inn : Soap.TypedNet (innOf tr)
  out : ∀ p, Soap.TypedNet (outOf p tr)

/-- **C106** One handler for both: whenever the central system's handler is called, this is for one `Send` of an OCPP-J charge point, on
the connection registered under the id it is called with, or for one `Send` over SOAP of a client that gave this identity; it gets what
was sent; and it is not called for it another time. -/
theorem C106_handler (h : Exec csURL G tr s) (ht : Typed tr) :
    (∀ n k id mid r q', Ev.json (.cs n id (.take (S := ocppj F o₂ .cs) k mid r (some q'))) ∈ tr →
      Proper (World.cpEvents n (jsonOf tr)) → Proper (World.csEvents n (jsonOf tr)) →
      ∃ identity i q r', Ev.json (.dial n identity) ∈ tr ∧ Http.registeredAs csURL identity = some id.toList ∧
        Ev.json (.cp n (.send (S := ocppj F o₁ .cp) i mid q)) ∈ tr ∧ q' = some r' ∧ Arrives F o₂ q r' ∧
        (handled (World.csEvents n (jsonOf tr))).filter (fun x => x.1 = mid) = [(mid, some r')]) ∧
    (∀ i r' id, Ev.inn (.called i r' id) ∈ tr →
      ∃ svc r, [Ev.inn (.send i svc r), Ev.inn (.called i r' id)].Sublist tr ∧ svc.proc ≠ 0 ∧ r.type.isChargePoint = true ∧
        r' = ⟨r.type, soapTrip r.type.ty r.val⟩ ∧ id = Xml.cleanText svc.identity ∧
        ∀ pre post, innOf tr = pre ++ .called i r' id :: post → ∀ e ∈ pre ++ post, ¬ Soap.CalledFor i e) := by
  obtain ⟨h1, h2, -⟩ := C106_parts h
  constructor
  · intro n k id mid r q' hm hp hs
    obtain ⟨identity, i, q, r', g1, g2, g3, g4, g5, g6⟩ := World.C67_caller h1 n k id mid r q' (mem_jsonOf.2 hm) hp hs
    exact ⟨identity, i, q, r', mem_jsonOf.1 g1, g2, mem_jsonOf.1 g3, g4, g5, g6⟩
  · intro i r' id hm
    obtain ⟨svc, r, g1, g2, g3, g4⟩ := Soap.C86_request h2 ht.inn (mem_innOf.2 hm)
    have hsub := (g1.map (Ev.inn (F := F) (o₁ := o₁) (o₂ := o₂))).trans (innOf_sublist tr)
    refine ⟨svc, r, hsub, h.inn_proc (hsub.subset (List.mem_cons_self ..)), g4, g2, g3, fun pre post he => Soap.C86_once h2 he⟩

/-- **C106** A request that the central system sends to a charge point over SOAP, while websocket connections come and go: what `Send`
returns was returned by the handler of the charge point it went to, which was called once for it, with the request and the id given to
`GetServiceOf`. -/
theorem C106_soapSend (h : Exec csURL G tr s) (ht : Typed tr) {p i : Nat} {y : Resp} (hr : Ev.out p (.returned i (.ok y)) ∈ tr) :
    ∃ svc r z, [Ev.out p (.send i svc r), Ev.out p (.called i ⟨r.type, soapTrip r.type.ty r.val⟩ (Xml.cleanText svc.identity)),
        Ev.out p (.handlerRet i (some z) none), Ev.out p (.returned i (.ok y))].Sublist tr ∧
      z.type = r.type.response ∧ y = ⟨z.type, soapTrip z.type.ty z.val⟩ := by
  obtain ⟨-, -, h3⟩ := C106_parts h
  obtain ⟨svc, r, z, g1, g2, g3⟩ := Soap.C86_response (h3 p) (ht.out p) (mem_outOf.2 hr)
  exact ⟨svc, r, z, (g1.map (Ev.out (F := F) (o₁ := o₁) (o₂ := o₂) p)).trans (outOf_sublist p tr), g2, g3⟩

/-! ### The process of the central system -/

/-- **C106** What ends the central system's process, and with it both kinds of traffic: one of the three causes of C68 on a websocket
connection, or a charge point whose handler answered a request over SOAP with neither an error nor a response of the type belonging to
the request. -/
theorem C106_crash_cause (h : Exec csURL G tr s) (ht : Typed tr) (hc : ¬ s.up) :
    (∃ n tr₀ e, World.csEvents n (jsonOf tr) = tr₀ ++ [e] ∧
      ((∃ (k : Nat) (t : Text) (j : JVal), e = .dispatch k ∧ Conn.Ev.read (S := ocppj F o₂ .cs) k t ∈ tr₀ ∧ Json.JsonText j (normalise t) ∧
          InRange j ∧ Crashing j) ∨
       (∃ (k : Nat) (t : Text) (id : String) (p : Payload) (i : Nat) (q : Req), e = .dispatch k ∧
          Conn.Ev.read (S := ocppj F o₂ .cs) k t ∈ tr₀ ∧ receive t = .ok (some (.result id p)) ∧
          Conn.Ev.send (S := ocppj F o₂ .cs) i id q ∈ tr₀ ∧ q.type.action = "DataTransfer".toList ∧
          .regSent i ∈ tr₀ ∧ ∀ a, .finish i a ∉ tr₀) ∨
       (∃ (i : Nat) (id : String) (r : Req), e = Conn.Ev.send (S := ocppj F o₂ .cs) i id r ∧ r.type = .csreqSendLocalList ∧
          ∃ v entries u, r.val = .struct [v, .slice entries, u] ∧ ∃ x ∈ entries, ExpiryMissing x))) ∨
    ∃ p i svc r resp m, [Ev.out p (.send i svc r), Ev.out p (.called i ⟨r.type, soapTrip r.type.ty r.val⟩ (Xml.cleanText svc.identity)),
        Ev.out p (.handlerRet i resp none), Ev.out p (.returned i (.panic m))].Sublist tr ∧ ∀ z, resp = some z → z.type ≠ r.type.response := by
  obtain ⟨h1, -, h3⟩ := C106_parts h
  by_cases ha : s.world.alive
  · right
    have : ¬ ∀ p, 0 ∉ (s.outs p).dead := fun hd => hc ⟨ha, hd⟩
    simp only [not_forall, not_not] at this
    obtain ⟨p, hp⟩ := this
    obtain ⟨i, -, -, m, -, -, hm⟩ := (Soap.C87_crash (h3 p) (ht.out p) 0).1 hp
    obtain ⟨svc, r, resp, g1, g2⟩ := Soap.C86_panic (h3 p) (ht.out p) hm
    exact ⟨p, i, svc, r, resp, m, (g1.map (Ev.out (F := F) (o₁ := o₁) (o₂ := o₂) p)).trans (outOf_sublist p tr), g2⟩
  · exact .inl (World.C68_crash_cause h1 ht.json ha)

/-- **C106** Whatever is posted to the central system over SOAP, and whatever its handler does with it, even if it panics: the process
goes on, and so does every websocket connection as it was. -/
theorem C106_soap_harmless {e : Soap.NetEv} (h : Step csURL G s (.inn e) s') : (s'.up ↔ s.up) ∧ s'.world = s.world ∧ s'.outs = s.outs := by
  cases h
  exact ⟨Iff.rfl, rfl, rfl⟩

theorem not_up_step {e : Ev F o₁ o₂} (hu : ¬ s.up) (h : Step csURL G s e s') : e.ofCs = false ∧ ¬ s'.up := by
  cases h with
  | @json e w' h1 h2 =>
    have he : e.ofCs = false := by
      cases hc : e.ofCs with
      | false => rfl
      | true => exact absurd (h1 hc) hu
    refine ⟨he, ?_⟩
    cases e with
    | cp n e =>
      rintro ⟨g1, g2⟩
      exact hu ⟨(World.C68_chargePoint_crash h2).1.1 g1, g2⟩
    | _ => cases he
  | @inn e n' h1 _ _ =>
    refine ⟨?_, hu⟩
    cases hc : e.server with
    | false => exact hc
    | true => exact absurd (h1 hc) hu
  | @out p e n' _ h2 _ h4 =>
    cases hc : e.server with
    | false => exact absurd (h2 hc) hu
    | true =>
      refine ⟨by simp [Ev.ofCs, hc], ?_⟩
      have hd : n'.dead = (s.outs p).dead := by
        obtain ⟨c, c', -, rfl, -⟩ := Soap.step_local h4 (by rintro _ _ _ rfl; cases hc) (by rintro _ _ rfl; cases hc)
        rfl
      rintro ⟨g1, g2⟩
      refine hu ⟨g1, fun q => ?_⟩
      have := g2 q
      simp only [St.setOut] at this
      split at this
      · next hq => subst hq; rw [← hd]; exact this
      · exact this

/-- **C106** And then nothing happens at the central system any more, over neither transport: no connection is accepted or read, no
handler is called, no `Send` returns. -/
theorem C106_crash_is_final (hu : ¬ s.up) (hr : Run csURL G s tr' s') : (∀ e ∈ tr', e.ofCs = false) ∧ ¬ s'.up := by
  induction hr with
  | nil => exact ⟨by simp, hu⟩
  | snoc _ hs ih =>
    obtain ⟨h1, h2⟩ := ih
    obtain ⟨h3, h4⟩ := not_up_step h2 hs
    refine ⟨fun e he => ?_, h4⟩
    rcases List.mem_append.1 he with he | he
    · exact h1 e he
    · rw [List.mem_singleton.1 he]; exact h3

/-! ### Independence -/

/-- The kind of traffic an event belongs to. -/
def Ev.kind : Ev F o₁ o₂ → Option (Option Nat)
  | .json _ => none
  | .inn _ => some none
  | .out p _ => some (some p)

/-- **C106** Events of different kinds of traffic do not hold each other up: if both can happen, they can happen in either order, with the
same outcome, unless one of them ends a process that the other needs. -/
theorem C106_independent {a b : Ev F o₁ o₂} {s₁ s₂ : St F o₁ o₂} (ha : Step csURL G s a s₁) (hb : Step csURL G s b s₂) (hk : a.kind ≠ b.kind)
    (hu : s₁.up ∧ s₂.up) (hd : s₁.inn.dead = s.inn.dead ∧ s₂.inn.dead = s.inn.dead)
    (hreg : ∀ p i svc r, a ≠ .out p (.send i svc r) ∧ b ≠ .out p (.send i svc r)) :
    ∃ s₃, Step csURL G s₁ b s₃ ∧ Step csURL G s₂ a s₃ := by
  obtain ⟨hu1, hu2⟩ := hu
  obtain ⟨hd1, hd2⟩ := hd
  cases ha with
  | json _ h2 =>
    cases hb with
    | json => exact absurd rfl hk
    | inn _ g2 g3 => exact ⟨_, .inn (fun _ => hu1) g2 g3, .json (fun _ => hu2) h2⟩
    | out g1 _ g3 g4 => exact ⟨_, .out g1 (fun _ => hu1) (fun i svc r he => absurd (by rw [he]) (hreg _ i svc r).2) g4, .json (fun _ => hu2) h2⟩
  | inn _ h2 h3 =>
    cases hb with
    | inn => exact absurd rfl hk
    | json _ g2 => exact ⟨_, .json (fun _ => hu1) g2, .inn (fun _ => hu2) h2 h3⟩
    | out g1 _ g3 g4 =>
      refine ⟨_, .out (fun he => ?_) (fun _ => hu1) (fun i svc r he => absurd (by rw [he]) (hreg _ i svc r).2) g4, .inn (fun _ => hu2) h2 h3⟩
      rw [hd1]; exact g1 he
  | @out p e n' h1 _ h3 h4 =>
    cases hb with
    | json _ g2 => exact ⟨_, .json (fun _ => hu1) g2, .out h1 (fun _ => hu2) (fun i svc r he => absurd (by rw [he]) (hreg _ i svc r).1) h4⟩
    | inn _ g2 g3 =>
      refine ⟨_, .inn (fun _ => hu1) g2 g3, .out (fun he => ?_) (fun _ => hu2) (fun i svc r he => absurd (by rw [he]) (hreg _ i svc r).1) h4⟩
      rw [hd2]; exact h1 he
    | @out q e' n'' g1 _ g3 g4 =>
      have hpq : p ≠ q := fun hpq => hk (by rw [hpq]; rfl)
      have e1 : (s.setOut p n').outs q = s.outs q := by simp [St.setOut, Ne.symm hpq]
      have e2 : (s.setOut q n'').outs p = s.outs p := by simp [St.setOut, hpq]
      have e3 : (s.setOut q n'').setOut p n' = (s.setOut p n').setOut q n'' := by
        simp only [St.setOut, St.mk.injEq, true_and]
        funext k
        by_cases hkp : k = p
        · subst hkp; simp [hpq]
        · simp [hkp]
      have st1 := Step.out (csURL := csURL) (G := G) (s := s.setOut p n') (p := q) (e := e') (n' := n'') g1 (fun _ => hu1)
        (fun i svc r he => absurd (by rw [he]) (hreg _ i svc r).2) (by rw [e1]; exact g4)
      have st2 := Step.out (csURL := csURL) (G := G) (s := s.setOut q n'') (p := p) (e := e) (n' := n') h1 (fun _ => hu2)
        (fun i svc r he => absurd (by rw [he]) (hreg _ i svc r).1) (by rw [e2]; exact h4)
      rw [e3] at st2
      exact ⟨_, st1, st2⟩

/-! ### Progress -/

theorem Run.append (h : Run csURL G s tr s') (h' : Run csURL G s' tr' s'') : Run csURL G s (tr ++ tr') s'' := by
  induction h' with
  | nil => simpa using h
  | snoc _ hs ih => rw [← List.append_assoc]; exact ih.snoc hs

theorem alive_of_cs {w w' : World.St F o₁ o₂} {e : World.Ev F o₁ o₂} (h : World.Step csURL w e w') (he : e.ofCs = true) : w.alive := by
  cases h <;> first | assumption | cases he

/-- **C106** Whatever can happen on the websocket connections alone can happen in the mixture, at any moment. -/
theorem C106_json_goes_on {t : List (World.Ev F o₁ o₂)} {w' : World.St F o₁ o₂} (hd : ∀ p, 0 ∉ (s.outs p).dead) (h : World.Run csURL s.world t w') :
    Run csURL G s (t.map Ev.json) { s with world := w' } := by
  induction h with
  | nil => exact .nil
  | snoc _ hs ih =>
    rw [List.map_append]
    exact ih.snoc (.json (fun he => ⟨alive_of_cs hs he, hd⟩) hs)

theorem dead_mono {b : Bool} {n n' : Soap.NetSt} {e : Soap.NetEv} (h : Soap.NetStep G b n e n') {p : Nat} (hp : p ∈ n.dead) : p ∈ n'.dead := by
  cases h <;> simp only [Soap.NetSt.set, List.mem_cons] <;> first | exact hp | exact .inr hp | skip
  split
  · exact List.mem_cons_of_mem _ hp
  · exact hp

theorem dead_mono_run {b : Bool} {n n' : Soap.NetSt} {t : List Soap.NetEv} (h : Soap.NetRun G b n t n') {p : Nat} (hp : p ∈ n.dead) : p ∈ n'.dead := by
  induction h with
  | nil => exact hp
  | snoc _ hs ih => exact dead_mono hs ih

theorem Run.ofInn {t : List Soap.NetEv} {n' : Soap.NetSt} (hu : s.up) (hp : ∀ i svc r, Soap.NetEv.send i svc r ∈ t → svc.proc ≠ 0)
    (h : Soap.NetRun G true s.inn t n') : Run csURL G s (t.map Ev.inn) { s with inn := n' } := by
  induction h with
  | nil => exact .nil
  | snoc _ hs ih =>
    rw [List.map_append]
    refine (ih fun i svc r hm => hp i svc r (List.mem_append_left _ hm)).snoc (.inn (fun _ => hu) ?_ hs)
    rintro i svc r rfl
    exact hp i svc r (by simp)

theorem St.setOut_self (s : St F o₁ o₂) (p : Nat) : s.setOut p (s.outs p) = s := by
  obtain ⟨w, i, o⟩ := s
  simp only [St.setOut, St.mk.injEq, true_and]
  funext q
  by_cases h : q = p
  · subst h; simp
  · simp [h]

theorem St.setOut_up {s : St F o₁ o₂} {p : Nat} {n : Soap.NetSt} (hu : s.up) (hn : 0 ∉ n.dead) : (s.setOut p n).up := by
  refine ⟨hu.1, fun q => ?_⟩
  simp only [St.setOut]
  split
  · exact hn
  · exact hu.2 q

theorem Run.ofOut {p : Nat} {t : List Soap.NetEv} {n' : Soap.NetSt} (hu : s.up) (hcp : p + 1 ∉ s.inn.dead)
    (hp : ∀ i svc r, Soap.NetEv.send i svc r ∈ t → svc.proc = 0 ∧ svc.sender = [] ∧ ∃ id url : String, svc.identity = id.toList ∧ svc.url = url.toList)
    (h : Soap.NetRun G false (s.outs p) t n') (hn : 0 ∉ n'.dead) : Run csURL G s (t.map (Ev.out p)) (s.setOut p n') := by
  induction h with
  | nil => rw [St.setOut_self]; exact .nil
  | @snoc t e n1 n2 _ hs ih =>
    rw [List.map_append]
    have hn1 : 0 ∉ n1.dead := fun hd => hn (dead_mono hs hd)
    have e1 : (s.setOut p n1).outs p = n1 := by simp [St.setOut]
    have st := Step.out (csURL := csURL) (G := G) (s := s.setOut p n1) (p := p) (e := e) (n' := n2) (fun _ => hcp) (fun _ => St.setOut_up hu hn1)
      (by
        rintro i svc r rfl
        obtain ⟨g1, g2, id, url, g3, g4⟩ := hp i svc r (by simp)
        exact ⟨g1, g2, id, url, rfl, g3, g4⟩) (by rw [e1]; exact hs)
    have e2 : (s.setOut p n1).setOut p n2 = s.setOut p n2 := by
      simp only [St.setOut, St.mk.injEq, true_and]
      funext q
      split <;> rfl
    rw [e2] at st
    exact (ih (fun i svc r hm => hp i svc r (List.mem_append_left _ hm)) hn1).snoc st

/-- **C106** At any moment, whatever goes on on the websocket connections and with other SOAP requests, a charge point's `Send` over SOAP can
run through to the handler and back, and leaves the rest as it is. -/
theorem C106_soap_in (h : Exec csURL G tr s) (hu : s.up) {svc : Soap.Service} (h0 : svc.proc ≠ 0) (hal : svc.proc ∉ s.inn.dead)
    (hl : Soap.Leads true svc.url) {r : Req} (hb : Soap.bound (.req r.type) = true) (hv : HasTy r.type.ty r.val)
    (hp : r.val.TimesAll GoTime.Plain) (hd : r.type.isChargePoint = true) {x : Resp} (hx : x.type = r.type.response)
    (hv' : HasTy x.type.ty x.val) (hp' : x.val.TimesAll GoTime.Plain) :
    ∃ i s', Run csURL G s [.inn (.send i svc r), .inn (.called i ⟨r.type, soapTrip r.type.ty r.val⟩ (Xml.cleanText svc.identity)),
        .inn (.handlerRet i (some x) none), .inn (.returned i (.ok ⟨x.type, soapTrip x.type.ty x.val⟩))] s' ∧
      s'.up ∧ s'.world = s.world ∧ s'.outs = s.outs ∧ s'.inn.dead = s.inn.dead := by
  obtain ⟨n', h1, h2, -⟩ := Soap.C87_progress (C106_parts h).2.1 hal ((Soap.front_leads _ _).2 hl) hb hv hp hd hx hv' hp'
  refine ⟨_, _, Run.ofInn hu ?_ h1, hu, rfl, rfl, h2⟩
  intro i svc' r' hm
  simp at hm
  obtain ⟨-, rfl, -⟩ := hm
  exact h0

/-- **C106** The same for a `Send` of the central system to a charge point over SOAP; `GetServiceOf` needs no connection for it. -/
theorem C106_soap_out (h : Exec csURL G tr s) (hu : s.up) (p : Nat) (hcp : p + 1 ∉ s.inn.dead) (id url : String)
    (hl : Soap.Leads false url.toList) {r : Req} (hb : Soap.bound (.req r.type) = true) (hv : HasTy r.type.ty r.val)
    (hp : r.val.TimesAll GoTime.Plain) (hd : r.type.isChargePoint = false) {x : Resp} (hx : x.type = r.type.response)
    (hv' : HasTy x.type.ty x.val) (hp' : x.val.TimesAll GoTime.Plain) :
    s.world.reg.getServiceOf id "V15" url = .ok (.soap url id) ∧
    ∃ i s', Run csURL G s [.out p (.send i ⟨0, url.toList, [], id.toList⟩ r),
        .out p (.called i ⟨r.type, soapTrip r.type.ty r.val⟩ (Xml.cleanText id.toList)),
        .out p (.handlerRet i (some x) none), .out p (.returned i (.ok ⟨x.type, soapTrip x.type.ty x.val⟩))] s' ∧
      s'.up ∧ s'.world = s.world ∧ s'.inn = s.inn := by
  refine ⟨rfl, ?_⟩
  obtain ⟨n', h1, h2, -⟩ := Soap.C87_progress ((C106_parts h).2.2 p) (svc := ⟨0, url.toList, [], id.toList⟩) (hu.2 p) ((Soap.front_leads _ _).2 hl) hb hv hp hd hx hv' hp'
  have hn : 0 ∉ n'.dead := by rw [h2]; exact hu.2 p
  refine ⟨_, _, Run.ofOut hu hcp ?_ h1 hn, St.setOut_up hu hn, rfl, rfl⟩
  intro i svc' r' hm
  simp at hm
  obtain ⟨-, rfl, -⟩ := hm
  exact ⟨rfl, rfl, id, url, rfl, rfl⟩

/-- **C106** One charge point over SOAP is enough to end it all: if its handler answers a request of the central system with the wrong
type of response, the central system's process ends, at any moment, with all websocket connections and all that goes on on them. -/
theorem C106_one_ends_all (h : Exec csURL G tr s) (hu : s.up) (p : Nat) (hcp : p + 1 ∉ s.inn.dead) (id url : String)
    (hl : Soap.Leads false url.toList) {r : Req} (hb : Soap.bound (.req r.type) = true) (hv : HasTy r.type.ty r.val)
    (hp : r.val.TimesAll GoTime.Plain) (hd : r.type.isChargePoint = false) {x : Resp} (hx : x.type ≠ r.type.response)
    (hbx : Soap.bound (.resp x.type) = true) (hv' : HasTy x.type.ty x.val) (hp' : x.val.TimesAll GoTime.Plain) :
    ∃ i m s', Run csURL G s [.out p (.send i ⟨0, url.toList, [], id.toList⟩ r),
        .out p (.called i ⟨r.type, soapTrip r.type.ty r.val⟩ (Xml.cleanText id.toList)),
        .out p (.handlerRet i (some x) none), .out p (.returned i (.panic m))] s' ∧ ¬ s'.up := by
  have h0 := Soap.start_run (G := G) (atCs := false) (s.outs p) (svc := ⟨0, url.toList, [], id.toList⟩) (hu.2 p) ((Soap.front_leads _ _).2 hl) hb hv hp hd
  generalize hi : (s.outs p).calls.length = i at h0
  have s3 := Soap.NetStep.handlerRet (G := G) (atCs := false) (s := ⟨(s.outs p).calls ++ [⟨⟨0, url.toList, [], id.toList⟩, r, .handling, none⟩], (s.outs p).dead⟩) (i := i)
    (c := ⟨⟨0, url.toList, [], id.toList⟩, r, .handling, none⟩) (some x) none (by simp [← hi]) rfl
  obtain ⟨reply, h1, h2⟩ := Soap.C48_response G x hbx hv' hp'
  rw [h1] at s3
  obtain ⟨m, hm⟩ := (Soap.C51_panic r (.got 200 reply)).2 ⟨200, reply, _, rfl, h2, rfl, by
    intro v hc
    simp only [Option.some.injEq, Prod.mk.injEq] at hc
    simp at hc
    exact hx hc.1⟩
  have h3 := h0.snoc s3
  have hrun := Run.ofOut (csURL := csURL) hu hcp (by
    intro i svc' r' hm
    simp at hm
    obtain ⟨-, rfl, -⟩ := hm
    exact ⟨rfl, rfl, id, url, rfl, rfl⟩) h3 (by simp only [Soap.NetSt.set]; exact hu.2 p)
  generalize hn : (⟨(s.outs p).calls ++ [⟨⟨0, url.toList, [], id.toList⟩, r, .handling, none⟩], (s.outs p).dead⟩ : Soap.NetSt).set i
    ⟨⟨0, url.toList, [], id.toList⟩, r, .over (Soap.answerOf (.ok reply)), none⟩ = n at hrun
  have hc : n.calls[i]? = some ⟨⟨0, url.toList, [], id.toList⟩, r, .over (.got 200 reply), none⟩ := by
    subst hn hi
    simp [Soap.NetSt.set, Soap.answerOf]
  have hnd : n.dead = (s.outs p).dead := by subst hn; rfl
  have st := Soap.NetStep.receive (G := G) (atCs := false) hc (by rw [hnd]; exact hu.2 p) rfl rfl .whole
  rw [hm] at st
  have e1 : (s.setOut p n).outs p = n := by simp [St.setOut]
  have st' := Step.out (csURL := csURL) (G := G) (s := s.setOut p n) (p := p)
    (e := .returned i (.panic m)) (fun _ => hcp) (fun _ => St.setOut_up hu (by rw [hnd]; exact hu.2 p))
    (by rintro i svc r he; cases he) (by rw [e1]; exact st)
  refine ⟨i, m, _, hrun.snoc st', ?_⟩
  rintro ⟨-, hdead⟩
  have := hdead p
  simp [St.setOut, Soap.Result.crash] at this

/-! ### The hypotheses can be met -/

theorem Exec.ofJson {t : List (World.Ev F o₁ o₂)} {w : World.St F o₁ o₂} (h : World.Exec csURL t w) :
    Exec csURL G (t.map Ev.json) { init F o₁ o₂ with world := w } := by
  induction h with
  | nil => exact .nil
  | snoc _ hs ih =>
    rw [List.map_append]
    exact ih.snoc (.json (fun he => ⟨alive_of_cs hs he, by simp [init, Soap.NetSt.init]⟩) hs)

theorem Exec.append (h : Exec csURL G tr s) (h' : Run csURL G s tr' s') : Exec csURL G (tr ++ tr') s' := by
  induction h' with
  | nil => simpa using h
  | snoc _ hs ih => rw [← List.append_assoc]; exact ih.snoc hs

theorem jsonOf_map (t : List (World.Ev F o₁ o₂)) : jsonOf (t.map Ev.json) = t := by
  induction t with
  | nil => rfl
  | cons e t ih => simpa [jsonOf] using ih

/-- A request of the central system and a response that does not belong to it. -/
def clear : Req := ⟨.csreqClearCache, .struct []⟩
def cleared : Resp := ⟨.csrespClearCache, .struct [.str "Accepted".toList]⟩
def reset : Resp := ⟨.csrespReset, .struct [.str "Accepted".toList]⟩

/-- Two charge points over websockets, on one of which anything that can happen on a connection has happened; one over SOAP that sends a
request, and gets one; and another one over SOAP that ends it all. -/
theorem C106_possible (G : Xml.FloatText) (host : Text) (hh : Http.PlainHost host) (a b : Text) (ha : Http.PlainSegment a) (hb : Http.PlainSegment b)
    (hne : a ≠ b) (t : List (Conn.Ev (ocppj F o₁ .cp) ⊕ Conn.Ev (ocppj F o₂ .cs))) (x : Sys F o₁ o₂) (ht : Sys.Exec t x) (hx : x.cs.crashed = false) :
    ∃ (tr : List (Ev F o₁ o₂)) (s : St F o₁ o₂) (y z : Resp) (i j : Nat), Exec host G tr s ∧ s.up ∧ World.onLink 1 (jsonOf tr) = t ∧
      Ev.inn (.returned i (.ok y)) ∈ tr ∧ Ev.out 0 (.returned j (.ok z)) ∈ tr ∧
      ∃ k m s', Run host G s [.out 1 (.send k ⟨0, "http://cp.example//CP1".toList, [], "CP2".toList⟩ clear),
        .out 1 (.called k ⟨clear.type, soapTrip clear.type.ty clear.val⟩ (Xml.cleanText "CP2".toList)),
        .out 1 (.handlerRet k (some reset) none), .out 1 (.returned k (.panic m))] s' ∧ ¬ s'.up := by
  obtain ⟨t1, t2, w, w', h1, -, -, -, -, -, -, -, h2, h3, h4⟩ := World.C67_possible (F := F) (o₁ := o₁) (o₂ := o₂) host hh a b ha hb hne t x ht hx
  have r1 := Exec.ofJson (G := G) h1
  have r2 := r1.append (C106_json_goes_on (G := G) (s := { init F o₁ o₂ with world := w }) (by simp [init, Soap.NetSt.init]) h2)
  have hu : ({ init F o₁ o₂ with world := w' } : St F o₁ o₂).up := ⟨h3, by simp [init, Soap.NetSt.init]⟩
  obtain ⟨i, s1, g1, g2, g3, g4, g5⟩ := C106_soap_in r2 hu (svc := ⟨5, "http://cs.example:8080/ocpp/CP1".toList, [], "CP1".toList⟩) (by simp)
    (by simp [init, Soap.NetSt.init]) Soap.leads_sample Soap.tagReq_ok.1 Soap.tagReq_ok.2.1 Soap.tagReq_ok.2.2 rfl
    (x := Soap.tagResp) rfl Soap.tagResp_ok.1 Soap.tagResp_ok.2
  have hd1 : s1.inn.dead = [] := g5
  have r3 := r2.append g1
  have hq : HasTy clear.type.ty clear.val ∧ clear.val.TimesAll GoTime.Plain := ⟨trivial, by simp [clear, Val.TimesAll, Val.TimesAlls]⟩
  obtain ⟨-, j, s2, k1, k2, k3, k4⟩ := C106_soap_out r3 g2 0 (by simp [hd1]) "CP1" "http://cs.example//CP1" Soap.leads_cp_sample
    (r := clear) rfl hq.1 hq.2 rfl (x := cleared) rfl ⟨trivial, trivial⟩ (by simp [cleared, Val.TimesAll, Val.TimesAlls])
  have r4 := r3.append k1
  have hl : Soap.Leads false "http://cp.example//CP1".toList := by rw [← Soap.front_leads]; decide
  obtain ⟨k, m, s3, l1, l2⟩ := C106_one_ends_all r4 k2 1 (by simp [k4, hd1]) "CP2" "http://cp.example//CP1" hl
    (r := clear) rfl hq.1 hq.2 rfl (x := reset) (by decide) rfl ⟨trivial, trivial⟩ (by simp [reset, Val.TimesAll, Val.TimesAlls])
  refine ⟨_, s2, ⟨Soap.tagResp.type, soapTrip Soap.tagResp.type.ty Soap.tagResp.val⟩, ⟨cleared.type, soapTrip cleared.type.ty cleared.val⟩, i, j, r4, k2, ?_, ?_, ?_, k, m, s3, l1, l2⟩
  · rw [jsonOf_append, jsonOf_append, jsonOf_append, jsonOf_map, jsonOf_map]
    simpa [jsonOf] using h4
  · exact List.mem_append_left _ (List.mem_append_right _ (by simp))
  · exact List.mem_append_right _ (by simp)

end Verif.Mixed
