import Verif.Lemmas.Settle
/-!
# Schedules in which nothing goes wrong: the two ends
-/
set_option linter.unusedSimpArgs false
namespace Verif.Ocppj
open Json Codec Decode Encode Trip Conn

variable {F : FloatFmt} {o₁ o₂ : Order} {a b : Side} {trA : List (Ev (ocppj F o₁ a))} {trB : List (Ev (ocppj F o₂ b))}

theorem requestDue_notData {q : Req} {f : Text} {id : String} {r : Req} (hv : HasTy q.type.ty q.val) (he : encCall F id q = .ok f)
    (hd : requestDue F f = some (id, r)) : q.type.action ≠ "DataTransfer".toList := by
  intro hs
  obtain ⟨p, h1⟩ := call_read hv he
  obtain ⟨action, p', h2, h3⟩ := requestDue_call hd
  rw [h1] at h2
  cases h2
  unfold dueTo at h3
  rw [String.toList_ofList, hs, C17_actions.2.2.1] at h3
  cases h3

/-- An answer that was written belongs to a call that was written at the other end. -/
theorem Linked.reply_origin (h : Linked trA trB) {sA : St (ocppj F o₁ a)} (hA : Conn.Exec a trA sA) {f : Text} {id : String} (hf : f ∈ textsOut trB)
    (hr : replyOf f = some id) : ∃ i x fc, sA.senders[i]? = some x ∧ x.id = id ∧ (i, fc) ∈ callTexts trA ∧
      (∀ p, receive f = .ok (some (.result id p)) → (x.req : Req).type.action ≠ "DataTransfer".toList) := by
  obtain ⟨sB, hB⟩ := h.right
  rcases Exec.written hB hf with ⟨k, id', c, hk, he⟩ | ⟨id', resp, err, hw, he, hm⟩ | ⟨j, x, -, -, he, hsx⟩
  · have h1 : receive f = .ok (some (.error id' c "on handling message" [])) := by rw [he]; exact C10_refusal F id' c
    obtain rfl : id' = id := by simpa [replyOf, h1] using hr
    obtain ⟨⟨p, hp, -⟩, -⟩ := C20_calls hB
    have hmem : (id', c) ∈ refusals trB := by
      simp only [refusals, List.mem_filterMap]
      exact ⟨_, hk, rfl⟩
    have hg : ∃ g : Text, g ∈ textsIn trB ∧ refusalDue F g = some (id', c) := by
      have : (id', c) ∈ (textsIn trB).filterMap (refusalDue F) := by
        rw [show (textsIn trB).filterMap (refusalDue F) = _ from hp, List.mem_append]
        exact .inl hmem
      exact List.mem_filterMap.1 this
    obtain ⟨g, hg1, hg2⟩ := hg
    obtain ⟨⟨action, pl, hg3⟩, hg4⟩ := refusalDue_call hg2
    have hgw : g ∈ written (S := ocppj F o₁ a) trA := h.there.subset hg1
    rcases Exec.written hA hgw with ⟨k', id2, c2, -, he⟩ | ⟨id2, resp, err, hw, he, hm⟩ | ⟨j, x, hj, hx, he, hsx⟩
    · have : receive g = .ok (some (.error id2 c2 "on handling message" [])) := by
        rw [he]; exact C10_refusal F id2 c2
      rw [hg3] at this; cases this
    · rcases reply_read (handlerRet_typed h.properA.typed hm) he with ⟨e, -, h1⟩ | ⟨-, -, e, h1⟩ | ⟨-, r, p', -, h1⟩ <;>
        (rw [hg3] at h1; cases h1)
    · obtain ⟨p', hc⟩ := call_read (h.properA.typed.1 j x.id x.req hsx) he
      rw [hg3] at hc
      simp only [GoRes.ok.injEq, Option.some.injEq, Msg.call.injEq] at hc
      refine ⟨j, x, g, hx, hc.1.symm, hj, ?_⟩
      intro p hp
      rw [h1] at hp; cases hp
  · have hty := handlerRet_typed h.properB.typed hm
    have hid : id' = id := by
      rcases reply_read hty he with ⟨e, -, h1⟩ | ⟨-, -, e, h1⟩ | ⟨-, r, p', -, h1⟩
      all_goals simpa [replyOf, h1] using hr
    subst hid
    obtain ⟨-, i, q, fc, r, h1, h2, h3, h4, h5, h6, h7⟩ := h.ret hm
    rcases Exec.sender_of_send hA i id' q h1 with ⟨y, hy, h8, h9⟩ | ⟨-, h8⟩
    · refine ⟨i, y, fc, hy, h8, h2, ?_⟩
      intro p _
      rw [h9]
      exact requestDue_notData h5 h6 h7
    · obtain ⟨y, hy, -⟩ := (Exec.callsOut hA).2 i fc h2
      subst h8
      simp at hy
  · obtain ⟨p', h1⟩ := call_read (h.properB.typed.1 j x.id x.req hsx) he
    simp [replyOf, h1] at hr

/-- How far an answer has got: the Send with its id is `i`, and `p` is the goroutine that read it. -/
def Stage {S : Sem} (i : Nat) (ph : Phase S) : Conn.Reader S → Prop
  | .got _ => ph = .waiting
  | .toSender ch _ => ch = some i ∧ ph = .waiting
  | .offer _ => (∃ x, ph = .received x) ∨ ∃ x, ph = .done (.answered x)
  | .gone => (∃ x, ph = .received x) ∨ ∃ x, ph = .done (.answered x)
  | _ => False

/-- Every answer that was read is on its way to its Send, or there. -/
def Half (tr : List (Ev (ocppj F o₁ a))) (s : St (ocppj F o₁ a)) : Prop :=
  ∀ (k : Nat) (f : Text) (id : String), Ev.read (S := ocppj F o₁ a) k f ∈ tr → replyOf f = some id →
    ∃ i x p, s.senders[i]? = some x ∧ x.id = id ∧ s.readers[k]? = some p ∧ Stage i x.phase p

theorem Smooth.prefix {tr tr' : List (Ev (ocppj F o₁ a))} (h : Smooth (tr ++ tr')) : Smooth tr :=
  ⟨fun e he => h.noFault e (List.mem_append_left _ he), fun i id q hm => h.requests i id q (List.mem_append_left _ hm),
    fun id resp err hm => h.answers id resp err (List.mem_append_left _ hm)⟩

theorem replyOf_answerTo {s : String} {act : String} {f : Text} {x : Answer (ocppj F o₁ a)} (h : AnswerTo (S := ocppj F o₁ a) s act f x) :
    replyOf f = some s := by
  unfold replyOf
  cases h with
  | resp h1 _ => rw [show receive f = _ from h1]
  | code h1 _ => rw [show receive f = _ from h1]
  | callErr h1 => rw [show receive f = _ from h1]

/-- The ids of the answers read are different. -/
theorem Linked.readIds (h : Linked trA trB) : (trA.filterMap fun e => (match e with | .read _ f => replyOf f | _ => none : Option String)).Nodup := by
  have h1 : ((textsIn trA).filterMap replyOf).Nodup := (h.back.sublist.filterMap _).nodup h.replyIds
  have h2 : (textsIn trA).filterMap replyOf = trA.filterMap fun e => (match e with | .read _ f => replyOf f | _ => none : Option String) := by
    unfold textsIn framesRead
    clear h1 h
    induction trA with
    | nil => rfl
    | cons e l ih =>
      rw [List.filterMap_cons, List.filterMap_cons, ← ih]
      cases e <;> rfl
  rwa [h2] at h1

theorem Linked.same_read (h : Linked trA trB) {k k' : Nat} {f f' : Text} {id : String} (h1 : Ev.read (S := ocppj F o₁ a) k f ∈ trA)
    (h2 : Ev.read (S := ocppj F o₁ a) k' f' ∈ trA) (h3 : replyOf f = some id) (h4 : replyOf f' = some id) : k = k' := by
  have := filterMap_inj h.readIds h1 h2 h3 h4
  cases this
  rfl

theorem half_step {s s' : St (ocppj F o₁ a)} {e : Ev (ocppj F o₁ a)} (hx : Conn.Exec a trA s) (hs : Conn.Step a s e s')
    (hl : Linked (trA ++ [e]) trB) (hm : Smooth (trA ++ [e])) (h : Half trA s) : Half (trA ++ [e]) s' := by
  have hmin := Exec.minv hx
  have hpin := Exec.pinv hx
  have hcalm := Exec.calm hx hm.prefix.noFault
  have hro := Exec.reads_once hx
  have hfe : Fault e = false := hm.noFault e (by simp)
  have hlt : ∀ (k : Nat) (x : Sender (ocppj F o₁ a)), s.senders[k]? = some x → k < s.senders.length :=
    fun k p h => (List.getElem?_eq_some_iff.1 h).1
  have hltr : ∀ (k : Nat) (p : Conn.Reader (ocppj F o₁ a)), s.readers[k]? = some p → k < s.readers.length :=
    fun k p h => (List.getElem?_eq_some_iff.1 h).1
  intro k f id hrd hid
  by_cases hnew : e = Ev.read (S := ocppj F o₁ a) k f
  · -- a new answer
    subst hnew
    have hx' : Conn.Exec a (trA ++ [Ev.read (S := ocppj F o₁ a) k f]) s' := .snoc hx hs
    have hout : f ∈ textsOut trB := by
      refine hl.back.subset ?_
      show (f : Text) ∈ textsIn _
      unfold textsIn framesRead
      exact List.mem_filterMap.2 ⟨_, hrd, rfl⟩
    obtain ⟨i, x, fc, h1, h2, h3, -⟩ := hl.reply_origin hx' hout hid
    obtain ⟨x', h4, h5, h6⟩ := (Exec.callsOut hx').2 i fc h3
    obtain rfl : x = x' := Option.some.inj (h1.symm.trans h4)
    have hs0 : s'.senders = s.senders := by cases hs; rfl
    rw [hs0] at h1
    obtain ⟨g1, g2, g3, g4⟩ := hcalm.phases i x h1
    have hno : ∀ k' f', Ev.read (S := ocppj F o₁ a) k' f' ∈ trA → replyOf f' = some id → False := by
      intro k' f' hm' hr'
      have hkk := hl.same_read hrd (List.mem_append_left _ hm') hid hr'
      subst hkk
      cases hs with
      | read hc hk =>
        have h0 := (hro k).2 (.inr hk)
        rw [List.countP_eq_zero] at h0
        exact h0 _ hm' (by simp [Ev.isRead])
    have hph : x.phase = .waiting := by
      cases hp : x.phase with
      | fresh => rw [hp] at h6; cases h6
      | half => rw [hp] at h6; cases h6
      | registered => rw [hp] at h6; cases h6
      | waiting => rfl
      | received y =>
        obtain ⟨k', f', ha, hsub, -⟩ := hpin.received i x y h1 hp
        rw [h2] at ha
        exact (hno k' f' (hsub.subset (by simp)) (replyOf_answerTo ha)).elim
      | done o =>
        cases o with
        | encodeErr => rw [g3 hp] at h5; cases h5
        | writeErr => exact absurd hp g2
        | timeout => exact absurd hp g1
        | answered y =>
          obtain ⟨y', hy'⟩ := (Exec.finish_iff hx i).2 (by simp [St.ph, h1, hp, Phase.cleaned])
          obtain ⟨k', f', id', r', ha, hsub, hsub2⟩ := hpin.finish i y' hy'
          have hsend := hsub2.subset (List.mem_cons_self (a := Ev.send i id' r'))
          have hid' : id' = id := by
            rcases Exec.sender_of_send hx i id' r' hsend with ⟨z, hz, h7, -⟩ | ⟨-, h7⟩
            · rw [h1] at hz; cases hz; exact h7.symm.trans h2
            · subst h7; exact absurd (hlt _ _ h1) (by simp)
          subst hid'
          exact (hno k' f' (hsub.subset (by simp)) (replyOf_answerTo ha)).elim
    cases hs with
    | read hc hk =>
      refine ⟨i, x, .got f, h1, h2, ?_, hph⟩
      simp [St.setReader, hltr _ _ hk]
  · have hrd' : Ev.read (S := ocppj F o₁ a) k f ∈ trA := by
      rw [List.mem_append, List.mem_singleton] at hrd
      rcases hrd with h | h
      · exact h
      · exact absurd h.symm hnew
    obtain ⟨i, x, p, h1, h2, h3, h4⟩ := h k f id hrd' hid
    cases hs
    case dispatch k' f' p' hc hk hp =>
      by_cases hkk : k' = k
      · subst hkk
        obtain rfl : p = .got f' := Option.some.inj (h3.symm.trans hk)
        have hw : x.phase = .waiting := h4
        have hff : f' = f := by
          have h5 : Ev.read k' f' ∈ trA := Exec.got_read hx hk
          by_contra hne
          have h6 := (hro k').1
          have : 2 ≤ trA.countP (Ev.isRead k') := by
            have h7 : Ev.read (S := ocppj F o₁ a) k' f' ≠ Ev.read (S := ocppj F o₁ a) k' f := fun h => hne (Ev.read.inj h).2
            have h8 : [Ev.read (S := ocppj F o₁ a) k' f', Ev.read (S := ocppj F o₁ a) k' f] ⊆ trA.filter (Ev.isRead k') := by
              intro z hz
              simp only [List.mem_cons, List.not_mem_nil, or_false] at hz
              rw [List.mem_filter]
              rcases hz with rfl | rfl
              · exact ⟨h5, by simp [Ev.isRead]⟩
              · exact ⟨hrd', by simp [Ev.isRead]⟩
            have h9 := (List.subperm_of_subset (by simp [h7]) h8).length_le
            rw [List.countP_eq_length_filter]
            exact h9
          omega
        subst hff
        have hsent := (hmin.sent x.id ((ocppj F o₁ a).action x.req)).2 ⟨i, x, h1, rfl, rfl, by simp [hw, Phase.inSent]⟩
        have hchan := (hmin.chan x.id i).2 ⟨x, h1, rfl, by simp [hw, Phase.inChan]⟩
        rw [h2] at hsent hchan
        refine ⟨i, x, p', h1, h2, by simp [St.setReader, hltr _ _ hk], ?_⟩
        unfold replyOf at hid
        unfold afterRead at hp
        rw [show (ocppj F o₁ a).read f' = receive f' from rfl] at hp
        rcases hr : receive f' with (_ | (_ | _ | _)) | _ | _
        all_goals rw [hr] at hid hp
        all_goals try (cases hid; done)
        · simp only [Option.some.injEq] at hid
          subst hid
          simp only [hsent, hchan] at hp
          split at hp
          · cases hp
          · cases hp; exact ⟨rfl, hw⟩
          · cases hp; exact ⟨rfl, hw⟩
        · simp only [Option.some.injEq] at hid
          subst hid
          simp only [hsent, hchan] at hp
          cases hp
          exact ⟨rfl, hw⟩
      · exact ⟨i, x, p, h1, h2, by simp [St.setReader, List.getElem?_set, hkk, h3], h4⟩
    case deliver k' i' y x' hc hk hx' hp' =>
      by_cases hkk : k' = k
      · subst hkk
        obtain rfl : p = .toSender (some i') y := Option.some.inj (h3.symm.trans hk)
        obtain ⟨h5, h6⟩ := h4
        obtain rfl : i' = i := Option.some.inj h5
        obtain rfl : x' = x := Option.some.inj (hx'.symm.trans h1)
        refine ⟨i', { x' with phase := .received y }, .offer .nil, ?_, h2, ?_, .inl ⟨y, rfl⟩⟩
        · simp [St.setReader, St.setPhase, hlt _ _ h1]
        · simp [St.setReader, St.setPhase, hltr _ _ hk]
      · by_cases hii : i' = i
        · subst hii
          obtain rfl : x' = x := Option.some.inj (hx'.symm.trans h1)
          obtain ⟨f', z, hz, ha, hsub, -⟩ := hpin.toSender k' i' y hk
          obtain rfl : x' = z := Option.some.inj (hx'.symm.trans hz)
          rw [h2] at ha
          have hmem : Ev.read (S := ocppj F o₁ a) k' f' ∈ trA := hsub.subset (by simp)
          exact absurd (hl.same_read (List.mem_append_left _ hmem) (List.mem_append_left _ hrd') (replyOf_answerTo ha) hid) hkk
        · refine ⟨i, x, p, ?_, h2, ?_, h4⟩
          · simp [St.setReader, St.setPhase, List.getElem?_set, hii, h1]
          · simp [St.setReader, St.setPhase, List.getElem?_set, hkk, h3]
    case finish i' y x' hc hx' hp' =>
      by_cases hii : i' = i
      · subst hii
        obtain rfl : x' = x := Option.some.inj (hx'.symm.trans h1)
        refine ⟨i', { x' with phase := .done (.answered y) }, p, ?_, h2, h3, ?_⟩
        · simp [St.setPhase, hlt _ _ h1]
        · rw [hp'] at h4
          cases p
          case offer => exact .inr ⟨y, rfl⟩
          case gone => exact .inr ⟨y, rfl⟩
          case got => cases h4
          case toSender => cases h4.2
          all_goals exact h4.elim
      · exact ⟨i, x, p, by simp [St.setPhase, List.getElem?_set, hii, h1], h2, h3, h4⟩
    case result k' e' hc hlo hk =>
      by_cases hkk : k' = k
      · subst hkk
        obtain rfl : p = .offer e' := Option.some.inj (h3.symm.trans hk)
        exact ⟨i, x, .gone, h1, h2, by simp [St.setReader, hltr _ _ hk], h4⟩
      · exact ⟨i, x, p, h1, h2, by simp [St.setReader, List.getElem?_set, hkk, h3], h4⟩
    case take k' id' r hc hlo hk =>
      have hkk : k' ≠ k := by
        rintro rfl
        obtain rfl : p = .toLoop id' r := Option.some.inj (h3.symm.trans hk)
        exact h4
      exact ⟨i, x, p, h1, h2, by simp [St.setReader, List.getElem?_set, hkk, h3], h4⟩
    case refuse k' id' c ok hc hk hok =>
      have hkk : k' ≠ k := by
        rintro rfl
        obtain rfl : p = .refusing id' c := Option.some.inj (h3.symm.trans hk)
        exact h4
      exact ⟨i, x, p, h1, h2, by simp [St.setReader, List.getElem?_set, hkk, h3], h4⟩
    case read k' f' hc hk =>
      have hkk : k' ≠ k := by
        rintro rfl
        obtain rfl : p = .reading := Option.some.inj (h3.symm.trans hk)
        exact h4
      exact ⟨i, x, p, h1, h2, by simp [St.setReader, List.getElem?_set, hkk, h3], h4⟩
    case spawn =>
      exact ⟨i, x, p, h1, h2, (List.getElem?_append_left (hltr _ _ h3)).trans h3, h4⟩
    case send =>
      exact ⟨i, x, p, (List.getElem?_append_left (hlt _ _ h1)).trans h1, h2, h3, h4⟩
    case sendErr =>
      exact ⟨i, x, p, (List.getElem?_append_left (hlt _ _ h1)).trans h1, h2, h3, h4⟩
    case regSent i' x' hc hx' hp' =>
      have hii : i' ≠ i := by
        rintro rfl
        obtain rfl : x' = x := Option.some.inj (hx'.symm.trans h1)
        rw [hp'] at h4
        cases p <;> simp [Stage] at h4
      exact ⟨i, x, p, by simp [St.setPhase, List.getElem?_set, hii, h1], h2, h3, h4⟩
    case regChan i' x' hc hx' hp' =>
      have hii : i' ≠ i := by
        rintro rfl
        obtain rfl : x' = x := Option.some.inj (hx'.symm.trans h1)
        rw [hp'] at h4
        cases p <;> simp [Stage] at h4
      exact ⟨i, x, p, by simp [St.setPhase, List.getElem?_set, hii, h1], h2, h3, h4⟩
    case writeOk i' x' f' hc hx' hp' hf' hcl =>
      have hii : i' ≠ i := by
        rintro rfl
        obtain rfl : x' = x := Option.some.inj (hx'.symm.trans h1)
        rw [hp'] at h4
        cases p <;> simp [Stage] at h4
      exact ⟨i, x, p, by simp [St.setPhase, List.getElem?_set, hii, h1], h2, h3, h4⟩
    all_goals first
      | (simp [Fault] at hfe; done)
      | exact ⟨i, x, p, h1, h2, h3, h4⟩

end Verif.Ocppj
