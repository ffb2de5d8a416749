import Verif.Props.World
import Verif.Props.Timed
/-!
# The order of requests

Property C105.
-/
set_option linter.unusedSimpArgs false
namespace Verif.Ocppj
open Json Codec Decode Encode Trip Conn

variable {F : FloatFmt} {o₁ o₂ : Order} {a b : Side} {trA : List (Ev (ocppj F o₁ a))} {trB : List (Ev (ocppj F o₂ b))}

/-- In a prefix of a list of images of different things, what comes before something in the prefix is in it too. -/
theorem prefix_before {α β : Type} {L : List α} {D : α → Option β} {P : List β} (hP : P <+: L.filterMap D) (hn : L.Nodup) {x y : α} {dx dy : β}
    (hinj : ∀ z ∈ L, D z = some dy → z = y) (hs : [x, y].Sublist L) (hx : D x = some dx) (hy : dy ∈ P) : dx ∈ P := by
  obtain ⟨l1, l2, rfl, hy2⟩ : ∃ l1 l2, L = l1 ++ x :: l2 ∧ y ∈ l2 := by
    obtain ⟨r1, r2, hL, h1, h2⟩ := List.cons_sublist_iff.1 hs
    obtain ⟨s, t, hr1⟩ := List.append_of_mem h1
    refine ⟨s, t ++ r2, by rw [hL, hr1]; simp, List.mem_append_right _ (List.singleton_sublist.1 h2)⟩
  rw [List.filterMap_append, List.filterMap_cons_some hx] at hP
  by_cases hlen : P.length ≤ (l1.filterMap D).length
  · have hp : P <+: l1.filterMap D := List.prefix_of_prefix_length_le hP (List.prefix_append _ _) hlen
    obtain ⟨z, hz, hdz⟩ := List.mem_filterMap.1 (hp.subset hy)
    obtain rfl := hinj z (List.mem_append_left _ hz) hdz
    rw [List.nodup_append] at hn
    exact absurd rfl (hn.2.2 z hz z (List.mem_cons_of_mem _ hy2))
  · have hp : l1.filterMap D ++ [dx] <+: P := by
      refine List.prefix_of_prefix_length_le (l₃ := l1.filterMap D ++ dx :: l2.filterMap D) ⟨l2.filterMap D, by simp⟩ hP ?_
      simp only [List.length_append, List.length_singleton]; omega
    exact hp.subset (by simp)

theorem take_inv {S : Sem} {side : Side} {s s' : St S} {k : Nat} {id : String} {r : S.Req} {arg : Option (Option S.Req)}
    (h : Conn.Step side s (.take k id r arg) s') : (∃ k', s.loop = .sel k') ∧ s.readers[k]? = some (.toLoop id r) := by
  cases h with
  | take _ h1 h2 => exact ⟨h1, h2⟩

theorem due_call {id : String} {q : Req} {f : Text} (hv : HasTy q.type.ty q.val) (h : encCall F id q = .ok f) :
    ∃ e, due F f = some (id, e) := by
  obtain ⟨p, h1⟩ := call_read hv h
  unfold due
  rw [h1]
  exact ⟨_, rfl⟩

theorem due_refusal (id c : String) : due F (encRefusal F id c) = none := by
  unfold due; rw [C10_refusal]

theorem due_reply {id : String} {resp : Option Resp} {err : Option String} {f : Text}
    (hv : ∀ r, resp = some r → HasTy r.type.ty r.val) (h : encReply F id resp err = .ok f) : due F f = none := by
  unfold due
  rcases reply_read hv h with ⟨e, -, h⟩ | ⟨-, -, e, h⟩ | ⟨-, r, p, -, h⟩ <;> rw [h]

/-- The calls among the frames written are the calls written. -/
theorem Linked.dues (h : Linked trA trB) : (textsOut trA).filterMap (due F) = (callTexts trA).filterMap fun x => due F x.2 := by
  obtain ⟨sA, hA⟩ := h.left
  refine written_filterMap (S := ocppj F o₁ a) (due F) trA due_refusal ?_
  intro id resp err f hm
  obtain ⟨-, -, h3, h4⟩ := C24_one_reply_per_request hA
  obtain ⟨rp, -, h3⟩ := h3
  refine due_reply (handlerRet_typed (b := a) (trB := trA) h.properA.typed (id := id) (err := err) ?_) (h4 id resp err f hm)
  change (id, resp, err) ∈ handlerRets trA
  rw [h3, List.mem_append]
  left
  simp only [answers, List.mem_filterMap]
  exact ⟨_, hm, rfl⟩

/-- The sender of a call. -/
theorem Linked.caller (h : Linked trA trB) {i : Nat} {f : Text} (hm : (i, f) ∈ callTexts trA) :
    ∃ id q, Ev.send (S := ocppj F o₁ a) i id q ∈ trA ∧ HasTy (q : Req).type.ty q.val ∧ encCall F id q = .ok f ∧
      (∀ id' q', Ev.send (S := ocppj F o₁ a) i id' q' ∈ trA → id' = id) ∧
      ∀ j g e, (j, g) ∈ callTexts trA → due F g = some (id, e) → j = i ∧ g = f := by
  obtain ⟨sA, hA⟩ := h.left
  obtain ⟨h1, h2⟩ := Exec.callsOut hA
  obtain ⟨x, hx, hf, -⟩ := h2 i f hm
  have hsx : Ev.send (S := ocppj F o₁ a) i x.id x.req ∈ trA := by simpa using (Exec.sends hA i x hx).1
  refine ⟨x.id, x.req, hsx, h.properA.typed.1 i x.id x.req hsx, Exec.frames hA i x f hx hf, ?_, ?_⟩
  · intro id' q' hs'
    rcases Exec.sender_of_send hA i id' q' hs' with ⟨y, hy, h3, -⟩ | ⟨_, h3⟩
    · rw [hx] at hy; cases hy; exact h3.symm
    · subst h3; simp at hx
  · intro j g e hj hd
    obtain ⟨y, hy, hg, -⟩ := h2 j g hj
    have hty := h.properA.typed.1 j y.id y.req (by simpa using (Exec.sends hA j y hy).1)
    obtain ⟨e', he'⟩ := due_call hty (Exec.frames hA j y g hy hg)
    rw [hd] at he'
    simp only [Option.some.injEq, Prod.mk.injEq] at he'
    have := (Exec.minv hA).ids j i y x hy hx he'.1.symm
    subst this
    exact ⟨rfl, fst_inj_of_nodup (l := callTexts trA) h1 hj hm⟩

/-- **C105 at one end.** Two Sends at one end of a connection whose calls were written one after the other: when the handler at the other
end is called for the second, its call for the first has returned already, or the first had been refused. -/
theorem Linked.order (h : Linked trA trB) {i j : Nat} {midA midB : String} {qA qB : Req} {f g : Text}
    (hA : Ev.send (S := ocppj F o₁ a) i midA qA ∈ trA) (hB : Ev.send (S := ocppj F o₁ a) j midB qB ∈ trA)
    (hw : [Ev.writeCall (S := ocppj F o₁ a) i (some f), Ev.writeCall (S := ocppj F o₁ a) j (some g)].Sublist trA)
    {u v : List (Ev (ocppj F o₂ b))} {k : Nat} {r : Req} {arg : Option Req} (ht : trB = u ++ Ev.take (S := ocppj F o₂ b) k midB r (some arg) :: v) :
    (∃ k' r' arg' resp err, Ev.take (S := ocppj F o₂ b) k' midA r' (some arg') ∈ u ∧ Ev.handlerRet (S := ocppj F o₂ b) midA resp err ∈ u) ∨
    ∃ k' c ok, Ev.refuse (S := ocppj F o₂ b) k' midA c ok ∈ u := by
  obtain ⟨sB, hxB⟩ := h.right
  subst ht
  -- the state in which the second is taken
  obtain ⟨s₁, hu, hrest⟩ := Conn.Run.split hxB
  obtain ⟨s₂, hst, -⟩ := Conn.Run.cons_inv hrest
  obtain ⟨⟨k₀, hloop⟩, hk⟩ := take_inv hst
  have hi := Conn.Exec.inv hu
  -- nothing else is in hand
  have hinh : s₁.readers.flatMap Reader.inHand = [(midB, r)] := by
    have hl := inHand_length hi
    have hm : (midB, r) ∈ s₁.readers.flatMap Reader.inHand :=
      List.mem_flatMap.2 ⟨_, List.mem_of_getElem? hk, List.mem_singleton.2 rfl⟩
    match hq : s₁.readers.flatMap Reader.inHand, hl, hm with
    | [y], _, hm => exact congrArg (fun z => [z]) (List.mem_singleton.1 hm).symm
    | [], _, hm => cases hm
    | _ :: _ :: _, hl, _ => simp at hl
  have href : s₁.readers.flatMap Reader.refusing? = [] := by
    rw [(flatMap_set_refusing hi (q := .toLoop midB r) hk rfl).2]; rfl
  have htak := Conn.Exec.requests hu
  rw [hinh] at htak
  have hrf := Conn.Exec.refused hu
  rw [href, List.append_nil] at hrf
  have htak' : (textsIn u).filterMap (requestDue F) = takenReqs u ++ [(midB, r)] := by
    rw [← show (requestIn (S := ocppj F o₂ b)) = requestDue F from funext (requestIn_eq F o₂ b)]; exact htak
  have hrf' : (textsIn u).filterMap (refusalDue F) = refusals u := by
    rw [← show (refusedIn (S := ocppj F o₂ b)) = refusalDue F from funext (refusedIn_eq F o₂ b)]; exact hrf
  -- the calls
  have hwc : [(i, f), (j, g)].Sublist (callTexts trA) := hw.filterMap Ev.callOut
  have hmi : (i, f) ∈ callTexts trA := hwc.subset (by simp)
  have hmj : (j, g) ∈ callTexts trA := hwc.subset (by simp)
  obtain ⟨idA, q1, a1, a2, a3, a4, -⟩ := h.caller hmi
  obtain ⟨idB, q2, b1, b2, b3, b4, b5⟩ := h.caller hmj
  obtain rfl := a4 _ _ hA
  obtain rfl := b4 _ _ hB
  obtain ⟨eA, hdA⟩ := due_call a2 a3
  obtain ⟨eB, hdB⟩ := due_call b2 b3
  have hpre : (textsIn u).filterMap (due F) <+: (callTexts trA).filterMap fun x => due F x.2 := by
    rw [← h.dues]
    refine List.IsPrefix.filterMap _ (List.IsPrefix.trans ?_ h.there)
    exact ⟨framesRead (Ev.take (S := ocppj F o₂ b) k midB r (some arg) :: v), (List.filterMap_append ..).symm⟩
  -- the second has been read
  have hmB : (midB, r) ∈ (textsIn u).filterMap (requestDue F) := by
    rw [htak']; exact List.mem_append_right _ (List.mem_singleton.2 rfl)
  obtain ⟨t, ht1, ht2⟩ := List.mem_filterMap.1 hmB
  have hdt : due F t = some (midB, .ok r) := by
    unfold requestDue at ht2
    split at ht2
    · rename_i id' r' hd; cases ht2; exact hd
    · cases ht2
  have hmB' : (midB, Except.ok r) ∈ (textsIn u).filterMap (due F) := List.mem_filterMap.2 ⟨t, ht1, hdt⟩
  obtain ⟨sA, hxA⟩ := h.left
  have hnd : (callTexts trA).Nodup := List.Nodup.of_map Prod.fst (Exec.callsOut hxA).1
  have hmA : (midA, eA) ∈ (textsIn u).filterMap (due F) := by
    refine prefix_before hpre hnd (x := (i, f)) (y := (j, g)) ?_ hwc hdA hmB'
    rintro ⟨j', g'⟩ hm' hd'
    obtain ⟨rfl, rfl⟩ := b5 j' g' _ hm' hd'
    rfl
  obtain ⟨t', ht1', ht2'⟩ := List.mem_filterMap.1 hmA
  cases eA with
  | error c =>
    right
    have : (midA, c) ∈ refusals u := by
      rw [← hrf']; exact List.mem_filterMap.2 ⟨t', ht1', by unfold refusalDue; rw [ht2']⟩
    simp only [refusals, List.mem_filterMap] at this
    obtain ⟨e, he, hx⟩ := this
    cases e <;> simp at hx
    obtain ⟨rfl, rfl⟩ := hx
    exact ⟨_, _, _, he⟩
  | ok rA =>
    left
    have hm : (midA, rA) ∈ takenReqs u ++ [(midB, r)] := by
      rw [← htak']; exact List.mem_filterMap.2 ⟨t', ht1', by unfold requestDue; rw [ht2']⟩
    have hne : midA ≠ midB := by
      rintro rfl
      have := (b5 i f _ hmi hdA).1
      subst this
      have h1 := (Exec.callsOut hxA).1
      have h2 : (callTexts trA).map Prod.fst = (Conn.callsOut trA).map (·.1) := rfl
      rw [← h2] at h1
      have h3 := (hwc.map Prod.fst).nodup h1
      simp at h3
    rw [List.mem_append] at hm
    rcases hm with hm | hm
    swap
    · rw [List.mem_singleton, Prod.mk.injEq] at hm; exact absurd hm.1 hne
    have hown : (rA.type.isChargePoint = true ↔ a = .cp) := by
      have := (requestDue_type a2 a3 (id' := midA) (r := rA) (by unfold requestDue; rw [hdA])).2
      rw [this]; exact h.properA.own i _ _ a1
    have hcall : (midA, some rA) ∈ handled u := by
      rw [show handled u = _ from Exec.handlerCalls_eq hu]
      refine List.mem_filterMap.2 ⟨(midA, rA), hm, ?_⟩
      unfold handlerArg
      rw [if_pos (mine_of_own h.ne hown o₂)]
      rfl
    have hret : midA ∈ (handlerRets u).map (·.1) := by
      obtain ⟨⟨c, p, h1, h2, -, h3⟩, -⟩ := Exec.handler hu
      rw [hloop] at h1 h3
      have : p = [] := by rcases h3 with h3 | ⟨-, h3⟩; exact h3; cases h3
      subst this
      rw [← h2]
      have h4 : (midA, some rA) ∈ handlerCalls u := hcall
      rw [h1] at h4
      simp only [running_sel, List.append_nil] at h4
      exact List.mem_map.2 ⟨_, h4, rfl⟩
    obtain ⟨e, he, hx⟩ := List.mem_filterMap.1 (show (midA, some rA) ∈ handlerCalls u from hcall)
    simp only [List.mem_map, handlerRets, List.mem_filterMap] at hret
    obtain ⟨y, ⟨e', he', hy⟩, hy'⟩ := hret
    cases e' <;> simp at hy
    subst hy
    subst hy'
    split at hx
    · cases hx
      exact ⟨_, _, _, _, _, he, he'⟩
    · cases hx

/-- A `Send` that has got an answer or timed out has written its call. -/
theorem past_written {S : Sem} {side : Side} {tr : List (Conn.Ev S)} {s : St S} (h : Conn.Exec side tr s) {i : Nat} {x : Sender S} (hx : s.senders[i]? = some x)
    (hp : x.phase = .waiting ∨ ∃ y, x.phase = .received y) : ∃ f, Ev.writeCall i (some f) ∈ tr := by
  induction h generalizing x with
  | nil => simp [Conn.init] at hx
  | @snoc tr e s s' hr hs ih =>
    have ih' : ∀ x : Sender S, s.senders[i]? = some x → (x.phase = .waiting ∨ ∃ y, x.phase = .received y) → ∃ f, Ev.writeCall i (some f) ∈ tr ++ [e] := by
      intro x hx hp
      obtain ⟨f, h2⟩ := ih hx hp
      exact ⟨f, List.mem_append_left _ h2⟩
    clear ih
    cases hs <;> simp only [St.setReader, St.setPhase, List.getElem?_set, List.getElem?_append, List.mem_append, List.mem_singleton] at * <;>
      grind

/-- A `Send` has returned: with what the peer answered, or because its time is up. -/
def Returned {S : Sem} (i : Nat) (e : Conn.Ev S) : Prop := (∃ x, e = .finish i x) ∨ e = .timeout i

theorem Returned.written {S : Sem} {side : Side} {t₁ t₂ : List (Conn.Ev S)} {e : Conn.Ev S} {s : St S} {i : Nat}
    (h : Conn.Exec side (t₁ ++ e :: t₂) s) (he : Returned i e) : ∃ f, Ev.writeCall i (some f) ∈ t₁ := by
  obtain ⟨s₁, h1, h2⟩ := Conn.Run.split h
  obtain ⟨s₂, hst, -⟩ := Conn.Run.cons_inv h2
  rcases he with ⟨x, rfl⟩ | rfl
  · cases hst with
    | finish _ hx hp => exact past_written h1 hx (.inr ⟨_, hp⟩)
  · cases hst with
    | timeout _ hx hp => exact past_written h1 hx (.inl hp)

/-- The calls of Sends made one after the other are written in this order. -/
theorem sequential_written {S : Sem} {side : Side} {tr : List (Conn.Ev S)} {s : St S} (h : Conn.Exec side tr s) {i j : Nat} {e : Conn.Ev S} {mid : String}
    {q : S.Req} {g : S.Frame} (he : Returned i e) (hs : [e, .send j mid q].Sublist tr) (hw : Ev.writeCall j (some g) ∈ tr) :
    ∃ f, [Ev.writeCall i (some f), Ev.writeCall j (some g)].Sublist tr := by
  obtain ⟨r1, r2, rfl, h1, h2⟩ := List.cons_sublist_iff.1 hs
  obtain ⟨s1, s2, rfl⟩ := List.append_of_mem h1
  obtain ⟨s3, s4, rfl⟩ := List.append_of_mem (List.singleton_sublist.1 h2)
  have hx : Conn.Exec side (s1 ++ e :: (s2 ++ (s3 ++ Ev.send j mid q :: s4))) s := by simpa using h
  obtain ⟨f, hf⟩ := he.written hx
  refine ⟨f, ?_⟩
  have hy : Conn.Exec side ((s1 ++ e :: s2 ++ s3) ++ Ev.send j mid q :: s4) s := by simpa using h
  obtain ⟨m, hm, h3⟩ := Conn.Run.split hy
  obtain ⟨m', hst, -⟩ := Conn.Run.cons_inv h3
  have hlen : j = m.senders.length := by
    cases hst <;> rfl
  have hin : Ev.writeCall j (some g) ∈ s4 := by
    have hw' : Ev.writeCall j (some g) ∈ (s1 ++ e :: s2 ++ s3) ++ Ev.send j mid q :: s4 := by simpa using hw
    rw [List.mem_append, List.mem_cons] at hw'
    rcases hw' with hw' | hw' | hw'
    · obtain ⟨x, hx, -⟩ := written_state hm hw'
      rw [hlen] at hx; simp at hx
    · cases hw'
    · exact hw'
  have h4 : [Ev.writeCall i (some f)].Sublist (s1 ++ e :: s2) := List.singleton_sublist.2 (List.mem_append_left _ hf)
  have h5 : [Ev.writeCall j (some g)].Sublist (s3 ++ Ev.send j mid q :: s4) :=
    List.singleton_sublist.2 (List.mem_append_right _ (List.mem_cons_of_mem _ hin))
  exact h4.append h5

/-- At one end of a connection: the call of a `Send` that the peer's handler is called for was written. -/
theorem Linked.calledWritten (h : Linked trA trB) {j k : Nat} {mid : String} {q : Req} {r : Req} {arg : Option Req}
    (hB : Ev.send (S := ocppj F o₁ a) j mid q ∈ trA) (ht : Ev.take (S := ocppj F o₂ b) k mid r (some arg) ∈ trB) :
    ∃ g, Ev.writeCall (S := ocppj F o₁ a) j (some g) ∈ trA := by
  obtain ⟨sA, hA⟩ := h.left
  have hm : (mid, arg) ∈ handled trB := List.mem_filterMap.2 ⟨_, ht, rfl⟩
  obtain ⟨j', q', g, r', h1, h2, -, -, -, -, -⟩ := h.calls.2 mid arg hm
  obtain ⟨e, he1, he2⟩ := List.mem_filterMap.1 h2
  have hw : Ev.writeCall (S := ocppj F o₁ a) j' (some g) ∈ trA := by
    cases e <;> simp [Ev.callOut] at he2
    rename_i w
    cases w <;> simp [Ev.callOut] at he2
    obtain ⟨rfl, rfl⟩ := he2
    exact he1
  obtain ⟨x, hx, -, -⟩ := (Exec.callsOut hA).2 j' g h2
  have hj' : x.id = mid := by
    rcases Exec.sender_of_send hA j' mid q' h1 with ⟨y, hy, h3, -⟩ | ⟨_, h3⟩
    · rw [hx] at hy; cases hy; exact h3
    · subst h3; simp at hx
  rcases Exec.sender_of_send hA j mid q hB with ⟨y, hy, h3, -⟩ | ⟨-, h3⟩
  · have := (Exec.minv hA).ids j' j x y hx hy (hj'.trans h3.symm)
    subst this
    exact ⟨g, hw⟩
  · -- the sender whose encoder panicked: its id is new
    exfalso
    subst h3
    obtain ⟨u, v, rfl⟩ := List.append_of_mem hB
    obtain ⟨m, hm', h4⟩ := Conn.Run.split hA
    obtain ⟨m', hst, h5⟩ := Conn.Run.cons_inv h4
    have hcr : m'.crashed = true → v = [] ∧ sA = m' := by
      intro hc
      cases v with
      | nil =>
        generalize hv : ([] : List (Ev (ocppj F o₁ a))) = v at h5
        cases h5 with
        | nil => exact ⟨rfl, rfl⟩
        | snoc => simp at hv
      | cons e' v' =>
        obtain ⟨m2, h6, -⟩ := Conn.Run.cons_inv h5
        cases h6 <;> simp_all
    have hmono : ∀ {t : List (Ev (ocppj F o₁ a))} {p p' : St (ocppj F o₁ a)}, Conn.Run a p t p' → p.senders.length ≤ p'.senders.length := by
      intro t p p' hr
      induction hr with
      | nil => exact Nat.le_refl _
      | snoc _ hs ih =>
        refine Nat.le_trans ih ?_
        cases hs <;> simp [St.setReader, St.setPhase]
    generalize hlen : sA.senders.length = n at hst
    have hle := hmono h5
    cases hst with
    | send => simp at hle; omega
    | sendErr => simp at hle; omega
    | sendPanic hcr' hfr _ =>
      obtain ⟨-, rfl⟩ := hcr rfl
      exact hfr x (List.mem_of_getElem? hx) hj'

/-- At one end of a connection: a `Send` called after another one has returned. -/
theorem Linked.sequential (h : Linked trA trB) {i j : Nat} {midA midB : String} {qA qB : Req} {e : Ev (ocppj F o₁ a)} (he : Returned i e)
    (hA : Ev.send (S := ocppj F o₁ a) i midA qA ∈ trA) (hB : [e, Ev.send (S := ocppj F o₁ a) j midB qB].Sublist trA)
    {u v : List (Ev (ocppj F o₂ b))} {k : Nat} {r : Req} {arg : Option Req} (ht : trB = u ++ Ev.take (S := ocppj F o₂ b) k midB r (some arg) :: v) :
    (∃ k' r' arg' resp err, Ev.take (S := ocppj F o₂ b) k' midA r' (some arg') ∈ u ∧ Ev.handlerRet (S := ocppj F o₂ b) midA resp err ∈ u) ∨
    ∃ k' c ok, Ev.refuse (S := ocppj F o₂ b) k' midA c ok ∈ u := by
  obtain ⟨sA, hxA⟩ := h.left
  have hB' : Ev.send (S := ocppj F o₁ a) j midB qB ∈ trA := hB.subset (by simp)
  obtain ⟨g, hg⟩ := h.calledWritten hB' (ht ▸ List.mem_append_right _ (List.mem_cons_self ..))
  obtain ⟨f, hw⟩ := sequential_written hxA he hB hg
  exact h.order hA hB' hw ht

section
variable {tr : List (Ev (ocppj F o₁ .cp) ⊕ Ev (ocppj F o₂ .cs))} {x : Sys F o₁ o₂}

/-- **C105** The central system's handler is called for the requests of a charge point in the order in which the charge point wrote them:
when it is called for one, its call for any request written before that has returned, or that request had been refused. -/
theorem C105_chargePoint (h : Sys.Exec tr x) (hp : Proper (atCp tr)) (hs : Proper (atCs tr)) {i j : Nat} {midA midB : String} {qA qB : Req} {f g : Text}
    (hA : Ev.send (S := ocppj F o₁ .cp) i midA qA ∈ atCp tr) (hB : Ev.send (S := ocppj F o₁ .cp) j midB qB ∈ atCp tr)
    (hw : [Ev.writeCall (S := ocppj F o₁ .cp) i (some f), Ev.writeCall (S := ocppj F o₁ .cp) j (some g)].Sublist (atCp tr))
    {u v : List (Ev (ocppj F o₂ .cs))} {k : Nat} {r : Req} {arg : Option Req}
    (ht : atCs tr = u ++ Ev.take (S := ocppj F o₂ .cs) k midB r (some arg) :: v) :
    (∃ k' r' arg' resp err, Ev.take (S := ocppj F o₂ .cs) k' midA r' (some arg') ∈ u ∧ Ev.handlerRet (S := ocppj F o₂ .cs) midA resp err ∈ u) ∨
    ∃ k' c ok, Ev.refuse (S := ocppj F o₂ .cs) k' midA c ok ∈ u :=
  (h.linked hp hs).1.order hA hB hw ht

/-- **C105** The same in the other direction. -/
theorem C105_centralSystem (h : Sys.Exec tr x) (hp : Proper (atCp tr)) (hs : Proper (atCs tr)) {i j : Nat} {midA midB : String} {qA qB : Req} {f g : Text}
    (hA : Ev.send (S := ocppj F o₂ .cs) i midA qA ∈ atCs tr) (hB : Ev.send (S := ocppj F o₂ .cs) j midB qB ∈ atCs tr)
    (hw : [Ev.writeCall (S := ocppj F o₂ .cs) i (some f), Ev.writeCall (S := ocppj F o₂ .cs) j (some g)].Sublist (atCs tr))
    {u v : List (Ev (ocppj F o₁ .cp))} {k : Nat} {r : Req} {arg : Option Req}
    (ht : atCp tr = u ++ Ev.take (S := ocppj F o₁ .cp) k midB r (some arg) :: v) :
    (∃ k' r' arg' resp err, Ev.take (S := ocppj F o₁ .cp) k' midA r' (some arg') ∈ u ∧ Ev.handlerRet (S := ocppj F o₁ .cp) midA resp err ∈ u) ∨
    ∃ k' c ok, Ev.refuse (S := ocppj F o₁ .cp) k' midA c ok ∈ u :=
  (h.linked hp hs).2.order hA hB hw ht

/-- **C105** A charge point that calls `Send` again after a `Send` has returned, with an answer or because its time was up: when the
central system's handler is called for the second request, its call for the first has returned, or the first had been refused. -/
theorem C105_afterChargePoint (h : Sys.Exec tr x) (hp : Proper (atCp tr)) (hs : Proper (atCs tr)) {i j : Nat} {midA midB : String} {qA qB : Req}
    {e : Ev (ocppj F o₁ .cp)} (he : Returned i e) (hA : Ev.send (S := ocppj F o₁ .cp) i midA qA ∈ atCp tr)
    (hB : [e, Ev.send (S := ocppj F o₁ .cp) j midB qB].Sublist (atCp tr))
    {u v : List (Ev (ocppj F o₂ .cs))} {k : Nat} {r : Req} {arg : Option Req}
    (ht : atCs tr = u ++ Ev.take (S := ocppj F o₂ .cs) k midB r (some arg) :: v) :
    (∃ k' r' arg' resp err, Ev.take (S := ocppj F o₂ .cs) k' midA r' (some arg') ∈ u ∧ Ev.handlerRet (S := ocppj F o₂ .cs) midA resp err ∈ u) ∨
    ∃ k' c ok, Ev.refuse (S := ocppj F o₂ .cs) k' midA c ok ∈ u :=
  (h.linked hp hs).1.sequential he hA hB ht

/-- **C105** The same for a central system that sends one request to a charge point after another. -/
theorem C105_afterCentralSystem (h : Sys.Exec tr x) (hp : Proper (atCp tr)) (hs : Proper (atCs tr)) {i j : Nat} {midA midB : String} {qA qB : Req}
    {e : Ev (ocppj F o₂ .cs)} (he : Returned i e) (hA : Ev.send (S := ocppj F o₂ .cs) i midA qA ∈ atCs tr)
    (hB : [e, Ev.send (S := ocppj F o₂ .cs) j midB qB].Sublist (atCs tr))
    {u v : List (Ev (ocppj F o₁ .cp))} {k : Nat} {r : Req} {arg : Option Req}
    (ht : atCp tr = u ++ Ev.take (S := ocppj F o₁ .cp) k midB r (some arg) :: v) :
    (∃ k' r' arg' resp err, Ev.take (S := ocppj F o₁ .cp) k' midA r' (some arg') ∈ u ∧ Ev.handlerRet (S := ocppj F o₁ .cp) midA resp err ∈ u) ∨
    ∃ k' c ok, Ev.refuse (S := ocppj F o₁ .cp) k' midA c ok ∈ u :=
  (h.linked hp hs).2.sequential he hA hB ht

end

/-! ### The hypotheses can be met -/

/-- The first request times out before the central system has even read it; the second is sent; the handler gets the first and
then the second. -/
def late (F : FloatFmt) (o₁ o₂ : Order) (id id' : String) (q q₁ q' q₁' : Req) (f f' g : Text) (resp : Option Resp) (err : Option String) :
    List (Ev (ocppj F o₁ .cp) ⊕ Ev (ocppj F o₂ .cs)) :=
  [.inr (.spawn 0), .inl (Ev.send (S := ocppj F o₁ .cp) 0 id q), .inl (.regSent 0), .inl (.regChan 0),
   .inl (Ev.writeCall (S := ocppj F o₁ .cp) 0 (some f)), .inl (.timeout 0), .inl (Ev.send (S := ocppj F o₁ .cp) 1 id' q'), .inl (.regSent 1),
   .inl (.regChan 1), .inl (Ev.writeCall (S := ocppj F o₁ .cp) 1 (some f')), .inr (Ev.read (S := ocppj F o₂ .cs) 0 f), .inr (.dispatch 0),
   .inr (Ev.take (S := ocppj F o₂ .cs) 0 id q₁ (some (some q₁))), .inr (Ev.handlerRet (S := ocppj F o₂ .cs) id resp err),
   .inr (Ev.answer (S := ocppj F o₂ .cs) id resp err (some g)), .inr (.spawn 1), .inr (Ev.read (S := ocppj F o₂ .cs) 1 f'), .inr (.dispatch 1),
   .inr (Ev.take (S := ocppj F o₂ .cs) 1 id' q₁' (some (some q₁')))]

set_option maxHeartbeats 2000000 in
theorem late_exec {id id' : String} (hid : id ≠ id') {q q₁ q' q₁' : Req} {f f' g : Text} {p p' : Payload} {resp : Option Resp} {err : Option String}
    (hq : q₁.type.isChargePoint = true) (hq' : q₁'.type.isChargePoint = true)
    (h1 : encCall F id q = .ok f) (h2 : receive f = .ok (some (.call id (String.ofList q.type.action) p)))
    (h3 : callToRequest F o₂ (String.ofList q.type.action) p = .ok q₁)
    (h1' : encCall F id' q' = .ok f') (h2' : receive f' = .ok (some (.call id' (String.ofList q'.type.action) p')))
    (h3' : callToRequest F o₂ (String.ofList q'.type.action) p' = .ok q₁')
    (h4 : encReply F id resp err = .ok g) : ∃ x, Sys.Exec (late F o₁ o₂ id id' q q₁ q' q₁' f f' g resp err) x := by
  have o : ∀ {S : Sem} {e : Ev S} {l : List S.Frame}, (∀ k f, e ≠ .read k f) → Consumes e l l := fun h => .other h
  have r0 := Sys.Exec.nil (F := F) (o₁ := o₁) (o₂ := o₂)
  have r1 := r0.snoc (.cs (Step.spawn rfl rfl) (o (by intros; simp)))
  have r2 := r1.snoc (.cp (Step.send (id := id) rfl (by simp [Sys.init, Conn.init]) h1) (o (by intros; simp)))
  have r3 := r2.snoc (.cp (Step.regSent (i := 0) rfl rfl rfl) (o (by intros; simp)))
  have r4 := r3.snoc (.cp (Step.regChan (i := 0) rfl rfl rfl) (o (by intros; simp)))
  have r5 := r4.snoc (.cp (Step.writeOk (i := 0) rfl rfl rfl rfl rfl) (o (by intros; simp)))
  have r6 := r5.snoc (.cp (Step.timeout (i := 0) rfl rfl rfl) (o (by intros; simp)))
  have r7 := r6.snoc (.cp (Step.send (id := id') rfl (by simpa [Sys.init, Conn.init, St.setPhase] using hid) h1') (o (by intros; simp)))
  have r8 := r7.snoc (.cp (Step.regSent (i := 1) rfl rfl rfl) (o (by intros; simp)))
  have r9 := r8.snoc (.cp (Step.regChan (i := 1) rfl rfl rfl) (o (by intros; simp)))
  have r10 := r9.snoc (.cp (Step.writeOk (i := 1) rfl rfl rfl rfl rfl) (o (by intros; simp)))
  have r11 := r10.snoc (.cs (Step.read (k := 0) (f := f) rfl rfl) .read)
  have r12 := r11.snoc (.cs (Step.dispatch (k := 0) (p := .toLoop id q₁) rfl rfl (afterRead_call o₂ _ h2 h3)) (o (by intros; simp)))
  have hat : afterTake (S := ocppj F o₂ .cs) .cs id q₁ = .handling id (some q₁) := if_pos hq
  have st := fun s h1 h2 h3 => Step.take (S := ocppj F o₂ .cs) (side := .cs) (s := s) (k := 0) (id := id) (r := q₁) h1 h2 h3
  rw [hat] at st
  have r13 := r12.snoc (.cs (st _ rfl ⟨_, rfl⟩ rfl) (o (by intros; simp)))
  have r14 := r13.snoc (.cs (Step.handlerRet (S := ocppj F o₂ .cs) (r := some q₁) resp err rfl rfl) (o (by intros; simp)))
  have r15 := r14.snoc (.cs (Step.answerOk rfl rfl h4 rfl) (o (by intros; simp)))
  have r16 := r15.snoc (.cs (Step.spawn rfl rfl) (o (by intros; simp)))
  have r17 := r16.snoc (.cs (Step.read (k := 1) (f := f') rfl rfl) .read)
  have r18 := r17.snoc (.cs (Step.dispatch (k := 1) (p := .toLoop id' q₁') rfl rfl (afterRead_call o₂ _ h2' h3')) (o (by intros; simp)))
  have hat' : afterTake (S := ocppj F o₂ .cs) .cs id' q₁' = .handling id' (some q₁') := if_pos hq'
  have st' := fun s h1 h2 h3 => Step.take (S := ocppj F o₂ .cs) (side := .cs) (s := s) (k := 1) (id := id') (r := q₁') h1 h2 h3
  rw [hat'] at st'
  have r19 := r18.snoc (.cs (st' _ rfl ⟨_, rfl⟩ rfl) (o (by intros; simp)))
  exact ⟨_, r19⟩

/-- **C105** And this happens, even when the first request has timed out: for every two encodable requests there is a schedule that meets
the hypotheses of `C105_afterChargePoint`. -/
theorem C105_possible (F : FloatFmt) (o₁ o₂ : Order) (id id' : String) (hid : id ≠ id') (q q' : Req) (resp : Resp) (hcp : q.type.isChargePoint = true)
    (hcp' : q'.type.isChargePoint = true) (hs : q.type.action ≠ "DataTransfer".toList) (hs' : q'.type.action ≠ "DataTransfer".toList)
    (hq : HasTy q.type.ty q.val) (hq' : HasTy q'.type.ty q'.val) (hr : HasTy resp.type.ty resp.val)
    (hi : q.val.IntsAll fun n => |n| ≤ 2 ^ 53) (hi' : q'.val.IntsAll fun n => |n| ≤ 2 ^ 53)
    (hp : q.val.TimesAll GoTime.Plain) (hp' : q'.val.TimesAll GoTime.Plain)
    (hm : ∃ t, marshal F q.type.ty q.val = .ok t) (hm' : ∃ t, marshal F q'.type.ty q'.val = .ok t) (hmr : ∃ g, encReply F id (some resp) none = .ok g) :
    ∃ tr : List (Ev (ocppj F o₁ .cp) ⊕ Ev (ocppj F o₂ .cs)), ∃ x, Sys.Exec tr x ∧ Proper (atCp tr) ∧ Proper (atCs tr) ∧
      Ev.send (S := ocppj F o₁ .cp) 0 id q ∈ atCp tr ∧ Returned (S := ocppj F o₁ .cp) 0 (.timeout 0) ∧
      [Ev.timeout 0, Ev.send (S := ocppj F o₁ .cp) 1 id' q'].Sublist (atCp tr) ∧
      ∃ u v k r arg, atCs tr = u ++ Ev.take (S := ocppj F o₂ .cs) k id' r (some arg) :: v := by
  obtain ⟨t, hm⟩ := hm
  obtain ⟨t', hm'⟩ := hm'
  obtain ⟨g, hg⟩ := hmr
  obtain ⟨f, p, v, h1, h2, h3, -, -⟩ := C14_request F o₂ id q hs hq hi hp t hm
  obtain ⟨f', p', v', h1', h2', h3', -, -⟩ := C14_request F o₂ id' q' hs' hq' hi' hp' t' hm'
  obtain ⟨x, hx⟩ := late_exec (o₁ := o₁) (o₂ := o₂) hid (q₁ := ⟨q.type, v⟩) (q₁' := ⟨q'.type, v'⟩) hcp hcp' h1 h2 h3 h1' h2' h3' hg
  refine ⟨_, x, hx, ⟨⟨?_, ?_⟩, ?_⟩, ⟨⟨?_, ?_⟩, ?_⟩, ?_, .inr rfl, ?_, ?_⟩
  · intro i mid r hm
    simp [late, atCp] at hm
    rcases hm with ⟨-, -, rfl⟩ | ⟨-, -, rfl⟩ <;> assumption
  · intro mid r e hm
    simp [late, atCp] at hm
  · intro i mid r hm
    simp [late, atCp] at hm
    rcases hm with ⟨-, -, rfl⟩ | ⟨-, -, rfl⟩ <;> simp [hcp, hcp']
  · intro i mid r hm
    simp [late, atCs] at hm
  · intro mid r e hm
    simp [late, atCs] at hm
    obtain ⟨-, rfl, -⟩ := hm
    exact hr
  · intro i mid r hm
    simp [late, atCs] at hm
  · simp [late, atCp]
  · exact .cons _ (.cons _ (.cons _ (.cons _ (.cons₂ _ (.cons₂ _ (List.nil_sublist _))))))
  · exact ⟨[.spawn 0, .read 0 f, .dispatch 0, .take 0 id ⟨q.type, v⟩ (some (some ⟨q.type, v⟩)), .handlerRet id (some resp) none,
      .answer id (some resp) none (some g), .spawn 1, .read 1 f', .dispatch 1], [], 1, ⟨q'.type, v'⟩, some ⟨q'.type, v'⟩, rfl⟩

end Verif.Ocppj

namespace Verif.World
open Json Codec Decode Encode Trip Conn Ocppj

variable {F : FloatFmt} {o₁ o₂ : Order} {csURL : Text} {tr : List (Ev F o₁ o₂)} {w : St F o₁ o₂}

/-- **C105** The same on each connection of a central system with any number of charge points. -/
theorem C105_world (h : Exec csURL tr w) (n : Nat) (identity : Text) (hd : Dialled tr n identity) (hp : Proper (cpEvents n tr)) (hs : Proper (csEvents n tr))
    {i j : Nat} {midA midB : String} {qA qB : Req} {k : Nat} {r : Req} {arg : Option Req} :
    (∀ e, Returned i e → Conn.Ev.send (S := ocppj F o₁ .cp) i midA qA ∈ cpEvents n tr →
      [e, Conn.Ev.send (S := ocppj F o₁ .cp) j midB qB].Sublist (cpEvents n tr) →
      ∀ u v, csEvents n tr = u ++ Conn.Ev.take (S := ocppj F o₂ .cs) k midB r (some arg) :: v →
      (∃ k' r' arg' resp err, Conn.Ev.take (S := ocppj F o₂ .cs) k' midA r' (some arg') ∈ u ∧ Conn.Ev.handlerRet (S := ocppj F o₂ .cs) midA resp err ∈ u) ∨
      ∃ k' c ok, Conn.Ev.refuse (S := ocppj F o₂ .cs) k' midA c ok ∈ u) ∧
    (∀ e, Returned i e → Conn.Ev.send (S := ocppj F o₂ .cs) i midA qA ∈ csEvents n tr →
      [e, Conn.Ev.send (S := ocppj F o₂ .cs) j midB qB].Sublist (csEvents n tr) →
      ∀ u v, cpEvents n tr = u ++ Conn.Ev.take (S := ocppj F o₁ .cp) k midB r (some arg) :: v →
      (∃ k' r' arg' resp err, Conn.Ev.take (S := ocppj F o₁ .cp) k' midA r' (some arg') ∈ u ∧ Conn.Ev.handlerRet (S := ocppj F o₁ .cp) midA resp err ∈ u) ∨
      ∃ k' c ok, Conn.Ev.refuse (S := ocppj F o₁ .cp) k' midA c ok ∈ u) := by
  obtain ⟨l, hl, -⟩ := h.inv.dialled n identity hd
  have hsys := h.inv.ends n l hl
  rw [← atCp_onLink (o₂ := o₂)] at hp
  rw [← atCs_onLink (o₁ := o₁)] at hs
  rw [← atCp_onLink (o₂ := o₂) n tr, ← atCs_onLink (o₁ := o₁) n tr]
  exact ⟨fun e he hA hB u v ht => C105_afterChargePoint hsys hp hs he hA hB ht, fun e he hA hB u v ht => C105_afterCentralSystem hsys hp hs he hA hB ht⟩

end Verif.World
