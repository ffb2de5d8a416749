import Verif.Props.Answered
import Verif.Props.Timed
/-!
# A peer that falls silent: property C111

The library sends no pings and sets no deadlines (ws/conn.go:165-227, 265-280): what it learns of the peer is what reading from the socket
gives.  Here reading gives nothing: no text, no error.
-/
set_option linter.unusedSimpArgs false
namespace Verif.Conn
variable {S : Sem} {side : Side}

/-- No text arrives, no read fails, nobody closes the connection, and (at the central system) nothing in the handler panics. -/
def Silent (side : Side) (t : List (Ev S)) : Prop := ∀ e ∈ t, (∀ k f, e ≠ .read k f) ∧ ¬ e.Closes side

theorem run_one {s s' : St S} {e : Ev S} (h : Run side s [e] s') : Step side s e s' := by
  generalize hx : [e] = l at h
  cases h with
  | nil => cases hx
  | @snoc t e' u _ hr hs =>
    obtain ⟨rfl, rfl⟩ : t = [] ∧ e' = e := by
      cases t with
      | nil => simp at hx; exact ⟨rfl, hx.symm⟩
      | cons a t => simp at hx
    generalize hy : ([] : List (Ev S)) = l at hr
    cases hr with
    | nil => exact hs
    | snoc _ _ => simp at hy

/-- **C111** While the peer is silent the connection is not closed, however many requests are sent and however many of them fail: the channel
of `WaitClose` stays open, and the loop does not leave for it. -/
theorem C111_open {tr tr' : List (Ev S)} {s s' : St S} (h : Exec side tr s) (ho : ∀ e ∈ tr, ¬ e.Closes side) (hr : Run side s tr' s')
    (hq : Silent side tr') : s'.closed = false ∧ Ev.seeClosed ∉ tr' := by
  have key : ∀ {t : List (Ev S)} {u : St S}, Run side s t u → (∀ e ∈ t, ¬ e.Closes side) → u.closed = false := by
    intro t u hr hq
    rw [← Bool.not_eq_true, C30_closed_iff (h.append hr)]
    rintro ⟨e, he, hc⟩
    rcases List.mem_append.1 he with he | he
    · exact ho e he hc
    · exact hq e he hc
  refine ⟨key hr (fun e he => (hq e he).2), fun hm => ?_⟩
  obtain ⟨t₁, t₂, rfl⟩ := List.append_of_mem hm
  rw [List.append_cons] at hr
  obtain ⟨u, h1, -⟩ := Run.split hr
  obtain ⟨v, h3, h4⟩ := Run.split h1
  have hv := key h3 (fun e he => (hq e (List.mem_append_left _ he)).2)
  have hst : Step side v .seeClosed u := run_one h4
  generalize hev : (Ev.seeClosed : Ev S) = ev at hst
  cases hst <;> cases hev
  rename_i h5
  rw [hv] at h5; cases h5

/-- **C111** No `Send` is answered while the peer is silent, unless a text read before names its id: it ends with a write error or by
its time limit. -/
theorem C111_unanswered {tr tr' : List (Ev S)} {s s' : St S} (h : Exec side tr s) (hr : Run side s tr' s') (hq : Silent side tr')
    {i : Nat} {id : String} {r : S.Req} (hs : Ev.send i id r ∈ tr') (hno : ∀ k f a, Ev.read k f ∈ tr → ¬ AnswerTo id (S.action r) f a) (a : Answer S) :
    Ev.finish i a ∉ tr' := by
  intro hf
  have hx := h.append hr
  obtain ⟨k, f, id', r', h1, h2, h3⟩ := (C21_responses_never_crossed hx).1 i a (List.mem_append_right _ hf)
  have hsub := h3.subset (a := Ev.send i id' r') (by simp)
  obtain ⟨x, hx1⟩ := Exec.finish_sender hx (List.mem_append_right tr hf)
  have e1 : x.id = id ∧ x.req = r := by
    rcases Exec.sender_of_send hx i id r (List.mem_append_right _ hs) with ⟨y, g1, g2⟩ | ⟨-, g⟩
    · obtain rfl := Option.some.inj (hx1.symm.trans g1); exact g2
    · have := (List.getElem?_eq_some_iff.1 hx1).1; omega
  have e2 : x.id = id' ∧ x.req = r' := by
    rcases Exec.sender_of_send hx i id' r' hsub with ⟨y, g1, g2⟩ | ⟨-, g⟩
    · obtain rfl := Option.some.inj (hx1.symm.trans g1); exact g2
    · have := (List.getElem?_eq_some_iff.1 hx1).1; omega
  obtain ⟨rfl, rfl⟩ := e1
  obtain ⟨rfl, rfl⟩ := e2
  have hrd := h2.subset (a := Ev.read k f) (by simp)
  rcases List.mem_append.1 hrd with g | g
  · exact hno k f a g h1
  · exact (hq _ g).1 k f rfl

/-- The life of a `Send` to which nothing comes back: written at time `t`, given up at `t + 60 s`. -/
def inVain (t i : Nat) (id : String) (r : S.Req) (f : S.Frame) : List (Nat × Ev S) :=
  [(t, .send i id r), (t, .regSent i), (t, .regChan i), (t, .writeCall i (some f)), (t + limit, .timeout i)]

/-- **C111** And it can go on for ever: from every state of a connection that is open, any number of requests (encodable, under new ids) can be
sent one after the other, each given up 60 s after it was written, with the peer silent all the time. -/
theorem C111_any_number {tr : List (Nat × Ev S)} {s : St S} (h : TRun side tr s) (hc : s.crashed = false) (ho : s.closed = false)
    (l : List (String × S.Req)) (henc : ∀ x ∈ l, ∃ f, S.encCall x.1 x.2 = .ok f) (hids : (l.map Prod.fst).Nodup)
    (hnew : ∀ x ∈ l, ∀ y ∈ s.senders, y.id ≠ x.1) :
    ∃ tr' s', TRun side (tr ++ tr') s' ∧ s'.closed = false ∧ s'.crashed = false ∧ Silent side (tr'.map Prod.snd) ∧
      ∀ x ∈ l, ∃ t i f, (inVain t i x.1 x.2 f).Sublist tr' := by
  induction l generalizing tr s with
  | nil => exact ⟨[], s, by simpa using h, ho, hc, by simp [Silent], by simp⟩
  | cons x l ih =>
    obtain ⟨f, hf⟩ := henc x (by simp)
    obtain ⟨t, ht⟩ : ∃ t, ∀ y ∈ tr, y.1 ≤ t := by
      clear ih h
      induction tr with
      | nil => exact ⟨0, by simp⟩
      | cons y tr ih =>
        obtain ⟨t, ht⟩ := ih
        refine ⟨max t y.1, ?_⟩
        intro z hz
        rcases List.mem_cons.1 hz with rfl | hz
        · omega
        · have := ht z hz; omega
    have hn : ∀ y ∈ s.senders, y.id ≠ x.1 := hnew x (by simp)
    have al : ∀ {u : List (Nat × Ev S)} {e : Ev S}, (∀ y ∈ u, y.1 ≤ t) → (∀ i, e ≠ .timeout i) → Allowed u t e :=
      fun hu he => ⟨hu, fun i hi => absurd hi (he i)⟩
    generalize hi : s.senders.length = i at *
    have get0 : ∀ y : Sender S, (s.senders ++ [y])[i]? = some y := fun y => by simp [← hi]
    have set0 : ∀ y z : Sender S, (s.senders ++ [y]).set i z = s.senders ++ [z] := fun y z => by simp [← hi]
    have r1 := h.snoc (.send hc hn hf) (al ht (by simp))
    rw [hi] at r1
    have b1 : ∀ y ∈ tr ++ [(t, Ev.send (S := S) i x.1 x.2)], y.1 ≤ t := by
      intro y hy; rcases List.mem_append.1 hy with hy | hy
      · exact ht y hy
      · simp at hy; subst hy; exact Nat.le_refl _
    have r2 := r1.snoc (.regSent (i := i) hc (get0 _) rfl) (al b1 (by simp))
    simp only [St.setPhase, set0] at r2
    have b2 : ∀ y ∈ tr ++ [(t, Ev.send (S := S) i x.1 x.2)] ++ [(t, .regSent i)], y.1 ≤ t := by
      intro y hy; rcases List.mem_append.1 hy with hy | hy
      · exact b1 y hy
      · simp at hy; subst hy; exact Nat.le_refl _
    have r3 := r2.snoc (.regChan (i := i) hc (get0 _) rfl) (al b2 (by simp))
    simp only [St.setPhase, set0] at r3
    have b3 : ∀ y ∈ tr ++ [(t, Ev.send (S := S) i x.1 x.2)] ++ [(t, .regSent i)] ++ [(t, .regChan i)], y.1 ≤ t := by
      intro y hy; rcases List.mem_append.1 hy with hy | hy
      · exact b2 y hy
      · simp at hy; subst hy; exact Nat.le_refl _
    have r4 := r3.snoc (.writeOk (i := i) hc (get0 _) rfl rfl ho) (al b3 (by simp))
    simp only [St.setPhase, set0] at r4
    have b4 : ∀ y ∈ tr ++ [(t, Ev.send (S := S) i x.1 x.2)] ++ [(t, .regSent i)] ++ [(t, .regChan i)] ++ [(t, .writeCall i (some f))], y.1 ≤ t := by
      intro y hy; rcases List.mem_append.1 hy with hy | hy
      · exact b3 y hy
      · simp at hy; subst hy; exact Nat.le_refl _
    have r5 := r4.snoc (t := t + limit) (.timeout (i := i) hc (get0 _) rfl) ⟨fun y hy => by have := b4 y hy; omega, by
      intro j hj w g hw
      have := b4 _ hw
      simp only at this
      omega⟩
    simp only [St.setPhase, set0] at r5
    obtain ⟨tr', s', q1, q2, q3, q4, q5⟩ := ih r5 hc ho (fun y hy => henc y (by simp [hy])) (by simp at hids ⊢; exact hids.2) (by
      intro y hy z hz
      simp only [List.mem_append, List.mem_singleton] at hz
      rcases hz with hz | rfl
      · exact hnew y (by simp [hy]) z hz
      · simp only [List.map_cons, List.nodup_cons, List.mem_map] at hids
        intro he
        exact hids.1 ⟨y, hy, he.symm⟩)
    refine ⟨inVain t i x.1 x.2 f ++ tr', s', ?_, q2, q3, ?_, ?_⟩
    · have e : tr ++ (inVain t i x.1 x.2 f ++ tr') = tr ++ [(t, .send i x.1 x.2)] ++ [(t, .regSent i)] ++ [(t, .regChan i)] ++ [(t, .writeCall i (some f))] ++
          [(t + limit, .timeout i)] ++ tr' := by simp [inVain]
      rw [e]; exact q1
    · intro e he
      rw [List.map_append, List.mem_append] at he
      rcases he with he | he
      · simp [inVain] at he
        rcases he with rfl | rfl | rfl | rfl | rfl <;> simp [Ev.Closes, Ev.isClose]
      · exact q4 e he
    · intro y hy
      rcases List.mem_cons.1 hy with rfl | hy
      · exact ⟨t, i, f, List.sublist_append_left _ _⟩
      · obtain ⟨t', i', f', g⟩ := q5 y hy
        exact ⟨t', i', f', g.trans (List.sublist_append_right _ _)⟩

end Verif.Conn

namespace Verif.World
open Conn Codec Ocppj
variable {F : FloatFmt} {o₁ o₂ : Order} {csURL : Text} {tr tr' : List (Ev F o₁ o₂)} {w w' : St F o₁ o₂}

/-- **C111** A central system does not notice that a charge point has fallen silent: as long as reading from its connection gives neither a text
nor an error, `WaitDisconnect` (called before) returned a channel that is still open, the disconnection listener is not called for it,
the central system does not finish with it, and, if no other connection is registered under the id, `GetServiceOf` still gives it. -/
theorem C111_unnoticed (h : Exec csURL tr w) (hr : Run csURL w tr' w') {n k : Nat} {id : String} (hl : Latest tr n k id) (hg : Registered tr id)
    (ho : ¬ CutOff tr n) (hq : Silent .cs (csEvents n tr')) :
    w'.reg.discClosed (w.reg.waitDisconnect id) = false ∧ Ev.reg (.disconnected k id) ∉ tr ++ tr' ∧ ¬ Ended (tr ++ tr') n ∧
    ((∀ m j, ¬ Accepted tr' m j id) → ∀ url, w'.reg.getServiceOf id "V16" url = .ok (.json k)) := by
  have hx := h.append hr
  have hcut : ¬ CutOff (tr ++ tr') n := by
    rintro ⟨e, he, hc⟩
    rw [csEvents_append] at he
    rcases List.mem_append.1 he with he | he
    · exact ho ⟨e, he, hc⟩
    · exact (hq e he).2 hc
  have hacc : Accepted (tr ++ tr') n k id := List.mem_append_left _ hl.1
  have hend : ¬ Ended (tr ++ tr') n := by
    intro he
    obtain ⟨t₁, t₂, w₁, e, -, -, -, ⟨x, hx1, hx2⟩, -⟩ := C93_window hx he
    refine hcut ⟨x, ?_, hx2⟩
    rw [e, csEvents_append]; exact List.mem_append_left _ hx1
  refine ⟨?_, ?_, hend, ?_⟩
  · rw [← Bool.not_eq_true, C69_waitDisconnect h hr]
    rintro (g | ⟨m, j, g1, g2⟩)
    · exact g hg
    · obtain rfl : j = k := Nat.le_antisymm (hl.2 _ _ g1.1) (g1.2 _ _ hl.1)
      obtain rfl := (h.accepted_unique g1.1 hl.1).2 ⟨rfl, rfl⟩
      exact hcut g2
  · intro hm
    obtain ⟨m, g1, g2⟩ := C93_disconnected hx hm
    obtain rfl := (hx.accepted_unique g1 hacc).2 ⟨rfl, rfl⟩
    exact hcut g2
  · intro hn url
    refine ((C67_service hx id url).1 k).2 ⟨⟨n, k, hacc, hend⟩, n, hacc, ?_⟩
    intro m j hm
    rcases List.mem_append.1 hm with g | g
    · exact hl.2 m j g
    · exact absurd g (hn m j)

/-- **C111** A silent connection keeps a dead one in its place: if the charge point has connected again and that connection, the last one, has been
cut off, then for as long as the silent one is not noticed, and no further one is registered, `GetServiceOf` gives the dead one, also when
the central system has finished with it, `WaitDisconnect` and `WaitConnect` return closed channels, and no `Send` begun on it writes its
request or is answered. -/
theorem C111_dead_kept (h : Exec csURL tr w) (hr : Run csURL w tr' w') {n j m k : Nat} {id : String} (ha : Accepted tr n j id) (ho : ¬ CutOff tr n)
    (hl : Latest tr m k id) (hc : CutOff tr m) (hq : Silent .cs (csEvents n tr')) (hn : ∀ m j, ¬ Accepted tr' m j id) :
    (∀ url, w'.reg.getServiceOf id "V16" url = .ok (.json k)) ∧ w'.reg.discClosed (w'.reg.waitDisconnect id) = true ∧
    (∀ c w₁, Step csURL w' (.reg (.waitConnect id c)) w₁ → w₁.reg.chanClosed[c]? = some true) ∧
    (∀ t w₁, Run csURL w' t w₁ → ∀ i mid r, Conn.Ev.send (S := ocppj F o₂ .cs) i mid r ∈ csEvents m t →
      (∀ a, Conn.Ev.finish (S := ocppj F o₂ .cs) i a ∉ csEvents m t) ∧ ∀ f, Conn.Ev.writeCall (S := ocppj F o₂ .cs) i (some f) ∉ csEvents m t) := by
  have hx := h.append hr
  have hcut : ¬ CutOff (tr ++ tr') n := by
    rintro ⟨e, he, hc⟩
    rw [csEvents_append] at he
    rcases List.mem_append.1 he with he | he
    · exact ho ⟨e, he, hc⟩
    · exact (hq e he).2 hc
  have hend : ¬ Ended (tr ++ tr') n := by
    intro he
    obtain ⟨t₁, t₂, w₁, e, -, -, -, ⟨x, hx1, hx2⟩, -⟩ := C93_window hx he
    refine hcut ⟨x, ?_, hx2⟩
    rw [e, csEvents_append]; exact List.mem_append_left _ hx1
  have hl' : Latest (tr ++ tr') m k id := by
    refine ⟨List.mem_append_left _ hl.1, fun m' j' g => ?_⟩
    rcases List.mem_append.1 g with g | g
    · exact hl.2 m' j' g
    · exact absurd g (hn m' j')
  have hc' : CutOff (tr ++ tr') m := by
    obtain ⟨e, he, hce⟩ := hc
    exact ⟨e, by rw [csEvents_append]; exact List.mem_append_left _ he, hce⟩
  obtain ⟨g1, g2, g3, g4⟩ := C93_dead hx hl' ⟨n, j, List.mem_append_left _ ha, hend⟩ hc'
  exact ⟨g3, g1, g2, fun t w₁ ht i mid r hs => ⟨(g4 t w₁ ht i mid r hs).1, (g4 t w₁ ht i mid r hs).2.2⟩⟩

end Verif.World

namespace Verif.Ocppj
open Conn Codec
variable {F : FloatFmt} {o₁ o₂ : Order}

/-- A request that can be encoded: ClearCache. -/
theorem clearCache_encodes (F : FloatFmt) (o : Order) (id : String) : ∃ f, encCall F id (⟨.csreqClearCache, .struct []⟩ : Req) = .ok f := by
  have g1 : HasTy (MsgType.req .csreqClearCache).ty (.struct []) := by
    simp [MsgType.ty, ReqType.ty, csreq.ClearCache, HasTy, HasTys]
  obtain ⟨j, hw⟩ : ∃ j, wire F (MsgType.req .csreqClearCache).ty (.struct []) = .ok j := ⟨_, rfl⟩
  have hm : ∃ t, marshal F (MsgType.req .csreqClearCache).ty (.struct []) = .ok t := by
    rcases C01_wellformed F (.req .csreqClearCache) _ g1 with ⟨t, ms, h, -⟩ | ⟨e, -, h⟩ | ⟨e, -, h⟩
    · exact ⟨t, h⟩
    · rw [hw] at h; cases h
    · rw [hw] at h; cases h
  obtain ⟨t, hm⟩ := hm
  obtain ⟨f, -, -, h, -⟩ := C14_request F o id ⟨.csreqClearCache, .struct []⟩ (by decide) g1 (by simp [Val.IntsAll, Val.IntsAlls]) (by simp [Val.TimesAll, Val.TimesAlls]) t hm
  exact ⟨f, h⟩

/-- Hypotheses of `C111_any_number`, `C111_open` and `C111_unanswered` are met: a central system sends two requests in vain. -/
example (F : FloatFmt) (o : Order) : ∃ (tr : List (Nat × Ev (ocppj F o .cs))) (s : St (ocppj F o .cs)), TRun .cs tr s ∧ s.closed = false ∧
    Silent .cs (tr.map Prod.snd) ∧ (∃ t i f, (inVain (S := ocppj F o .cs) t i "1" (⟨.csreqClearCache, .struct []⟩ : Req) f).Sublist tr) ∧
    ∃ t i f, (inVain (S := ocppj F o .cs) t i "2" (⟨.csreqClearCache, .struct []⟩ : Req) f).Sublist tr := by
  obtain ⟨tr, s, h1, h2, -, h3, h4⟩ := C111_any_number (S := ocppj F o .cs) (side := .cs) .nil rfl rfl
    [("1", (⟨.csreqClearCache, .struct []⟩ : Req)), ("2", (⟨.csreqClearCache, .struct []⟩ : Req))]
    (by
      intro x hx
      simp only [List.mem_cons, List.not_mem_nil, or_false] at hx
      rcases hx with rfl | rfl
      · exact clearCache_encodes F o "1"
      · exact clearCache_encodes F o "2")
    (by simp) (by simp [Conn.init])
  exact ⟨tr, s, by simpa using h1, h2, h3, h4 ("1", _) (by simp), h4 ("2", _) (by simp)⟩

end Verif.Ocppj

namespace Verif.Fleet
open Codec Ocppj World
variable {F : FloatFmt} {o₁ o₂ : Order} {csURL : Text}

/-- Hypotheses of `C111_unnoticed` are met: a charge point has connected, and a request sent to it is given up. -/
example (F : FloatFmt) (o₁ o₂ : Order) (identity id : Text) (hid : Http.registeredAs csURL identity = some id) :
    ∃ (tr tr' : List (World.Ev F o₁ o₂)) (w w' : World.St F o₁ o₂) (n k : Nat), World.Exec csURL tr w ∧ World.Run csURL w tr' w' ∧
      Latest tr n k (String.ofList id) ∧ Registered tr (String.ofList id) ∧ ¬ CutOff tr n ∧ Conn.Silent .cs (csEvents n tr') ∧
      Conn.Ev.timeout (S := ocppj F o₂ .cs) 0 ∈ csEvents n tr' := by
  obtain ⟨_, _, _, _, _, _, t, s, -, -, h⟩ := C82_comes_back (F := F) (o₁ := o₁) (o₂ := o₂) (i := 0) (identity := identity) (ids := [identity]) .nil rfl hid
    (by intro l hl; simp [init, World.init] at hl) (by simp [connsOf]) (by intro c hc; simp [init] at hc; subst hc; simp [ChargePoint.init])
  obtain ⟨n, r, h4, h5, h6, -, ⟨l, h7, h8, h9⟩, h10⟩ := h.back
  have hx := h.exec
  have hends := hx.inv.world.inv.ends n l h7
  rw [h10] at hends
  have hl0 : l.ends = Sys.init F o₁ o₂ := by
    generalize he : ([] : List (Conn.Ev (ocppj F o₁ .cp) ⊕ Conn.Ev (ocppj F o₂ .cs))) = t0 at hends
    generalize l.ends = z at hends ⊢
    cases hends with
    | nil => rfl
    | snoc _ _ => simp at he
  obtain ⟨c, hc⟩ : ∃ c, s.cps[0]? = some c := by
    refine ⟨_, List.getElem?_eq_getElem ?_⟩
    by_contra hlt
    rw [hx.inv.none 0 (by omega)] at h4
    cases h4
  have hlinks := hx.inv.links 0 c hc
  have hlast := h4
  rw [← hlinks, List.getLast?_eq_getElem?] at hlast
  have hlen : c.links.length = (c.links.length - 1) + 1 := by
    have := lt_of_get hlast
    omega
  obtain ⟨t1, s1, c1, id1, r1, l1, a1, a2, a3, a4, a5, a6⟩ := toServed hx ⟨hc, fun m hm l hl => h.running.2 m (hlinks ▸ hm) l hl, h.running.1⟩ hlast hlen h7 h8 h9
  obtain ⟨f, hf⟩ := clearCache_encodes F o₂ "1"
  have run : ∃ x, Sys.Run (Sys.init F o₁ o₂) [.inr (Conn.Ev.send (S := ocppj F o₂ .cs) 0 "1" (⟨.csreqClearCache, .struct []⟩ : Req)), .inr (.regSent 0), .inr (.regChan 0),
      .inr (Conn.Ev.writeCall (S := ocppj F o₂ .cs) 0 (some f)), .inr (.timeout 0)] x ∧ x.cp.crashed = false ∧ x.cs.crashed = false := by
    have o : ∀ {S : Sem} {e : Conn.Ev S} {l : List S.Frame}, (∀ k f, e ≠ .read k f) → Consumes e l l := fun h => .other h
    have r0 := Sys.Run.nil (x := Sys.init F o₁ o₂)
    have r1 := r0.snoc (.cs (Conn.Step.send (S := ocppj F o₂ .cs) (id := "1") (r := (⟨.csreqClearCache, .struct []⟩ : Req)) rfl (by simp [Sys.init, Conn.init]) hf) (o (by intros; simp)))
    have r2 := r1.snoc (.cs (Conn.Step.regSent (i := 0) rfl rfl rfl) (o (by intros; simp)))
    have r3 := r2.snoc (.cs (Conn.Step.regChan (i := 0) rfl rfl rfl) (o (by intros; simp)))
    have r4 := r3.snoc (.cs (Conn.Step.writeOk (i := 0) rfl rfl rfl rfl rfl) (o (by intros; simp)))
    have r5 := r4.snoc (.cs (Conn.Step.timeout (i := 0) rfl rfl rfl) (o (by intros; simp)))
    exact ⟨_, r5, rfl, rfl⟩
  obtain ⟨x, e1, e2, e3⟩ := run
  obtain ⟨s2, c2, d1, d2, d3⟩ := Served.lift (hx.append a2) a3 (by rw [a4, hl0]; exact e1) e3 e2 (by
    intro e he
    simp only [List.mem_cons, List.not_mem_nil, or_false] at he
    rcases he with rfl | rfl | rfl | rfl | rfl <;> simp)
  have hon := onLink_lift (F := F) (o₁ := o₁) (o₂ := o₂) 0 (c.links.length - 1) n id1 [.inr (Conn.Ev.send (S := ocppj F o₂ .cs) 0 "1" (⟨.csreqClearCache, .struct []⟩ : Req)), .inr (.regSent 0), .inr (.regChan 0),
      .inr (Conn.Ev.writeCall (S := ocppj F o₂ .cs) 0 (some f)), .inr (.timeout 0)]
  obtain ⟨hreg, m, hlat⟩ := ((C67_service hx.inv.world (String.ofList id) "").1 r).1 h6
  obtain rfl := (hx.inv.world.accepted_unique h5 hlat.1).2 ⟨rfl, rfl⟩
  have hcs : csEvents n (worldEvents (t1 ++ Fleet.lift 0 (c.links.length - 1) n id1 [.inr (Conn.Ev.send (S := ocppj F o₂ .cs) 0 "1" (⟨.csreqClearCache, .struct []⟩ : Req)), .inr (.regSent 0), .inr (.regChan 0),
      .inr (Conn.Ev.writeCall (S := ocppj F o₂ .cs) 0 (some f)), .inr (.timeout 0)])) =
      [Conn.Ev.send (S := ocppj F o₂ .cs) 0 "1" (⟨.csreqClearCache, .struct []⟩ : Req), .regSent 0, .regChan 0, Conn.Ev.writeCall (S := ocppj F o₂ .cs) 0 (some f), .timeout 0] := by
    rw [← atCs_onLink, worldEvents_append, onLink_append, onLink_settling a1, hon]
    rfl
  refine ⟨_, _, _, _, n, r, hx.inv.world, (a2.trans d1).world, hlat, hreg, ?_, ?_, ?_⟩
  · rw [← hx.inv.world.cutOff h7, h9]; simp
  · rw [hcs]
    intro e he
    simp only [List.mem_cons, List.not_mem_nil, or_false] at he
    rcases he with rfl | rfl | rfl | rfl | rfl <;> simp [Conn.Ev.Closes, Conn.Ev.isClose]
  · rw [hcs]; simp

/-- Hypotheses of `C111_dead_kept` are met, by the history of `C81_stale_possible`: the connection registered first is served, and the one registered
last is finished with. -/
example (F : FloatFmt) (o₁ o₂ : Order) (identity id : Text) (hid : Http.registeredAs csURL identity = some id) :
    ∃ (tr : List (World.Ev F o₁ o₂)) (w : World.St F o₁ o₂), World.Exec csURL tr w ∧ Accepted tr 1 0 (String.ofList id) ∧ ¬ CutOff tr 1 ∧
      Latest tr 0 1 (String.ofList id) ∧ CutOff tr 0 ∧ Ended tr 0 := by
  obtain ⟨tr, s, h1, -, -, -, ⟨l, h5, -, h6, -⟩, h7, -, h9, h10, h11⟩ := C81_stale_possible F o₁ o₂ csURL identity id hid
  have hw := h1.inv.world
  obtain ⟨-, n, hl⟩ := ((C67_service hw (String.ofList id) "").1 1).1 h11
  obtain rfl := (hw.accepted_unique h9 hl.1).2 ⟨rfl, rfl⟩
  refine ⟨_, _, hw, h7, ?_, hl, ?_, h10⟩
  · rw [← hw.cutOff h5, h6]; simp
  · obtain ⟨t₁, t₂, w₁, e, -, -, -, ⟨x, hx1, hx2⟩, -⟩ := C93_window hw h10
    exact ⟨x, by rw [e, csEvents_append]; exact List.mem_append_left _ hx1, hx2⟩

end Verif.Fleet
