import Verif.Lemmas.Settle3
/-!
# Schedules in which nothing goes wrong: when nothing is left to do, no Send waits
-/
set_option linter.unusedSimpArgs false
namespace Verif.Ocppj
open Json Codec Decode Encode Trip Conn

variable {F : FloatFmt} {o₁ o₂ : Order} {a b : Side} {trA : List (Ev (ocppj F o₁ a))} {trB : List (Ev (ocppj F o₂ b))}

theorem Quiet.inactive {s : St (ocppj F o₁ a)} (h : Quiet s) (hi : Inv s) {p : Conn.Reader (ocppj F o₁ a)} (hp : p ∈ s.readers) :
    p = .reading ∨ p.active = false := by
  obtain ⟨k, h1, h2⟩ := h.listening
  obtain ⟨j, hj⟩ := List.mem_iff_getElem?.1 hp
  cases ha : p.active with
  | false => exact .inr rfl
  | true =>
    obtain ⟨h3, h4⟩ := hi.act j p hj ha
    have h5 := hi.cur k h1
    obtain rfl : j = k := by omega
    exact .inl (Option.some.inj (hj.symm.trans h2))

theorem Linked.noWait (h : Linked trA trB) (hmB : Smooth trB) {sA : St (ocppj F o₁ a)} (hA : Conn.Exec a trA sA)
    {sB : St (ocppj F o₂ b)} (hB : Conn.Exec b trB sB) (hh : Half trA sA) (hqA : Quiet sA) (hqB : Quiet sB)
    (e1 : textsOut trA = textsIn trB) (e2 : textsOut trB = textsIn trA) {i : Nat} {x : Sender (ocppj F o₁ a)}
    (hx : sA.senders[i]? = some x) (hw : x.phase = .waiting) : False := by
  have hiA := Exec.inv hA
  have hiB := Exec.inv hB
  obtain ⟨f, hf, hwr⟩ := Exec.waiting hA hx hw
  have hsend : Ev.send i x.id x.req ∈ trA := by simpa using (Exec.sends hA i x hx).1
  have henc : encCall F x.id x.req = .ok f := Exec.frames hA i x f hx hf
  obtain ⟨p, hcall⟩ := call_read (h.properA.typed.1 i x.id x.req hsend) henc
  have hin : (f : Text) ∈ textsIn trB := by
    rw [← e1]
    exact List.mem_filterMap.2 ⟨_, hwr, rfl⟩
  -- an answer that has been written has been delivered
  have fin : ∀ g : Text, g ∈ textsOut trB → replyOf g = some x.id → False := by
    intro g hg hr
    rw [e2] at hg
    obtain ⟨e, he, hge⟩ := List.mem_filterMap.1 hg
    cases e <;> simp only [reduceCtorEq, Option.some.injEq] at hge
    rename_i k g'
    obtain rfl : g' = g := Option.some.inj hge
    obtain ⟨j, y, q, g1, g2, g3, g4⟩ := hh k g' x.id he hr
    obtain rfl := (Exec.minv hA).ids j i y x g1 hx g2
    obtain rfl : y = x := Option.some.inj (g1.symm.trans hx)
    rw [hw] at g4
    rcases hqA.inactive hiA (List.mem_of_getElem? g3) with rfl | hq
    · exact g4
    · cases q <;> simp [Conn.Reader.active] at hq <;> simp [Stage] at g4
  cases hd : dueTo F (String.ofList (x.req : Req).type.action) p with
  | error c =>
    have hdue : refusalDue F f = some (x.id, c) := by simp [refusalDue, due, hcall, hd]
    have hall := Exec.refused hB
    rw [show (refusedIn (S := ocppj F o₂ b)) = refusalDue F from funext (refusedIn_eq F o₂ b)] at hall
    have hnil : sB.readers.flatMap Conn.Reader.refusing? = [] := by
      rw [List.flatMap_eq_nil_iff]
      intro q hq
      rcases hqB.inactive hiB hq with rfl | hq'
      · rfl
      · exact Conn.Reader.refusing_of_inactive hq'
    rw [hnil, List.append_nil] at hall
    have hmem : (x.id, c) ∈ refusals trB := by
      rw [← hall]
      exact List.mem_filterMap.2 ⟨f, hin, hdue⟩
    obtain ⟨e, he, hge⟩ := List.mem_filterMap.1 hmem
    cases e <;> simp only [reduceCtorEq, Option.some.injEq] at hge
    rename_i k id' c' ok
    cases hge
    have hok : ok = true := by
      have := hmB.noFault _ he
      cases ok with
      | true => rfl
      | false => simp [Fault] at this
    subst hok
    refine fin (encRefusal F x.id c) ?_ (by simp [replyOf, C10_refusal])
    exact List.mem_filterMap.2 ⟨_, he, rfl⟩
  | ok r =>
    have hdue : requestDue F f = some (x.id, r) := by simp [requestDue, due, hcall, hd]
    have hall := Exec.requests hB
    rw [show (requestIn (S := ocppj F o₂ b)) = requestDue F from funext (requestIn_eq F o₂ b)] at hall
    have hnil : sB.readers.flatMap Conn.Reader.inHand = [] := by
      rw [List.flatMap_eq_nil_iff]
      intro q hq
      rcases hqB.inactive hiB hq with rfl | hq'
      · rfl
      · exact Conn.Reader.inHand_of_inactive hq'
    rw [hnil, List.append_nil] at hall
    have hmem : (x.id, r) ∈ takenReqs trB := by
      have : (x.id, r) ∈ (textsIn trB).filterMap (requestDue F) := List.mem_filterMap.2 ⟨f, hin, hdue⟩
      have hall' : (textsIn trB).filterMap (requestDue F) = takenReqs trB := hall
      rwa [hall'] at this
    have hty : r.type = (x.req : Req).type := (requestDue_type (h.properA.typed.1 i x.id x.req hsend) henc hdue).2
    have hmine : (ocppj F o₂ b).mine r = true := by
      refine mine_of_own h.ne ?_ o₂
      rw [hty]
      exact h.properA.own i x.id x.req hsend
    have hcalls : (x.id, some r) ∈ handlerCalls trB := by
      rw [Exec.handlerCalls_eq hB]
      refine List.mem_filterMap.2 ⟨(x.id, r), hmem, ?_⟩
      exact if_pos hmine
    obtain ⟨k, hk, -⟩ := hqB.listening
    obtain ⟨⟨c, pn, h1, h2, h3, -⟩, h4⟩ := Exec.handler hB
    rw [hk] at h1 h4
    simp only [running_sel, List.append_nil] at h1
    have hpn : pn = [] := by
      cases pn with
      | nil => rfl
      | cons z pn =>
        have : z.1 ∈ handlerPanics trB := by rw [← h3]; simp
        obtain ⟨e, he, hge⟩ := List.mem_filterMap.1 this
        have hfe := hmB.noFault _ he
        cases e <;> simp [Fault] at hge hfe
    subst hpn
    simp only [List.append_nil] at h1
    have hid : x.id ∈ (handlerRets trB).map (·.1) := by
      rw [← h2, ← h1]
      exact List.mem_map.2 ⟨_, hcalls, rfl⟩
    obtain ⟨⟨id', resp, err⟩, hret, hid'⟩ := List.mem_map.1 hid
    simp only at hid'
    subst hid'
    have hans : (x.id, resp, err) ∈ answers trB := by
      have : (Loop.sel k : Loop (ocppj F o₂ b)).replying = [] := rfl
      rw [this, List.append_nil] at h4
      rwa [← h4]
    obtain ⟨e, he, hge⟩ := List.mem_filterMap.1 hans
    cases e <;> simp only [reduceCtorEq, Option.some.injEq] at hge
    rename_i id' resp' err' w
    cases hge
    cases w with
    | none => exact absurd (hmB.noFault _ he) (by simp [Fault])
    | some g =>
      have henc' := (C24_one_reply_per_request hB).2.2.2 x.id resp err g he
      have hret' := mem_handlerRets.1 hret
      obtain ⟨g', hg', hr⟩ := encReply_ok (F := F) (id := x.id) (fun r hr' => h.properB.typed.2 x.id r err (by subst hr'; exact hret'))
        (hmB.answers x.id resp err hret')
      rw [show (ocppj F o₂ b).encReply x.id resp err = _ from hg'] at henc'
      obtain rfl := GoRes.ok.inj henc'
      refine fin g' ?_ hr
      exact List.mem_filterMap.2 ⟨_, he, rfl⟩

variable {tr : List (Ev (ocppj F o₁ .cp) ⊕ Ev (ocppj F o₂ .cs))} {x : Sys F o₁ o₂}

/-- When nothing is left to do, every Send has returned. -/
theorem Sys.Exec.returned (h : Sys.Exec tr x) (hp : Proper (atCp tr)) (hs : Proper (atCs tr)) (hmp : Smooth (atCp tr)) (hms : Smooth (atCs tr))
    (hr : AtRest x) : (∀ i id (q : Req), Ev.send (S := ocppj F o₁ .cp) i id q ∈ atCp tr → ∃ y, Ev.finish i y ∈ atCp tr) ∧
      (∀ i id (q : Req), Ev.send (S := ocppj F o₂ .cs) i id q ∈ atCs tr → ∃ y, Ev.finish i y ∈ atCs tr) := by
  obtain ⟨l1, l2⟩ := h.linked hp hs
  obtain ⟨e1, e2, e3, e4⟩ := h.ends
  obtain ⟨h1, h2⟩ := h.half hp hs hmp hms
  obtain ⟨q1, n1⟩ := l1.quiet hmp e1 h1 hr.cp
  obtain ⟨q2, n2⟩ := l2.quiet hms e2 h2 hr.cs
  rw [n2, List.append_nil] at e3
  rw [n1, List.append_nil] at e4
  constructor
  · intro i id q hm
    rcases Exec.sender_of_send e1 i id q hm with ⟨y, hy, -⟩ | ⟨hc, -⟩
    · rcases q1.phases i y hy with hw | ⟨z, hz⟩
      · exact (l1.noWait hms e1 e2 h1 q1 q2 e3 e4 hy hw).elim
      · exact (Exec.finish_iff e1 i).2 (by simp [St.ph, hy, hz, Phase.cleaned])
    · rw [l1.noCrash hmp e1] at hc; cases hc
  · intro i id q hm
    rcases Exec.sender_of_send e2 i id q hm with ⟨y, hy, -⟩ | ⟨hc, -⟩
    · rcases q2.phases i y hy with hw | ⟨z, hz⟩
      · exact (l2.noWait hmp e2 e1 h2 q2 q1 e4 e3 hy hw).elim
      · exact (Exec.finish_iff e2 i).2 (by simp [St.ph, hy, hz, Phase.cleaned])
    · rw [l2.noCrash hms e2] at hc; cases hc

end Verif.Ocppj
