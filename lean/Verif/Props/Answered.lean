import Verif.Props.FleetLive
import Verif.Props.Waits
/-!
# The central system's requests are answered, also after a loss: properties C57 and C93
-/
set_option linter.unusedSimpArgs false
namespace Verif.Ocppj
open Conn Codec
variable {F : FloatFmt} {o₁ o₂ : Order}

/-- The round trip in the other direction, step by step: the central system sends `q`, the charge point's handler gets `q'` and returns
`resp`, and the central system's `Send` returns `y`. -/
def roundTripCs (F : FloatFmt) (o₁ o₂ : Order) (id : String) (q q' : Req) (f g : Text) (resp : Option Resp) (err : Option String)
    (y : Answer (ocppj F o₂ .cs)) : List (Ev (ocppj F o₁ .cp) ⊕ Ev (ocppj F o₂ .cs)) :=
  [.inl (.spawn 0), .inr (.spawn 0), .inr (Ev.send (S := ocppj F o₂ .cs) 0 id q), .inr (.regSent 0), .inr (.regChan 0),
   .inr (Ev.writeCall (S := ocppj F o₂ .cs) 0 (some f)), .inl (Ev.read (S := ocppj F o₁ .cp) 0 f), .inl (.dispatch 0),
   .inl (Ev.take (S := ocppj F o₁ .cp) 0 id q' (some (some q'))), .inl (Ev.handlerRet (S := ocppj F o₁ .cp) id resp err),
   .inl (Ev.answer (S := ocppj F o₁ .cp) id resp err (some g)), .inr (Ev.read (S := ocppj F o₂ .cs) 0 g), .inr (.dispatch 0),
   .inr (.deliver 0 0), .inr (.finish 0 y)]

theorem roundTripCs_state {id : String} {q q' : Req} {f g : Text} {p p' : Payload} {resp : Option Resp} {r : Resp}
    (hq : q'.type.isChargePoint = false)
    (h1 : encCall F id q = .ok f) (h2 : receive f = .ok (some (.call id (String.ofList q.type.action) p)))
    (h3 : callToRequest F o₁ (String.ofList q.type.action) p = .ok q')
    (h4 : encReply F id resp none = .ok g) (h5 : receive g = .ok (some (.result id p')))
    (h6 : resultToResponse F o₂ (String.ofList q.type.action) p' = .ok r) :
    ∃ x, Sys.Exec (roundTripCs F o₁ o₂ id q q' f g resp none (.resp r)) x ∧ x.cp.crashed = false ∧ x.cs.crashed = false := by
  have o : ∀ {S : Sem} {e : Ev S} {l : List S.Frame}, (∀ k f, e ≠ .read k f) → Consumes e l l := fun h => .other h
  have r0 := Sys.Exec.nil (F := F) (o₁ := o₁) (o₂ := o₂)
  have r1 := r0.snoc (.cp (Step.spawn rfl rfl) (o (by intros; simp)))
  have r2 := r1.snoc (.cs (Step.spawn rfl rfl) (o (by intros; simp)))
  have r3 := r2.snoc (.cs (Step.send (id := id) rfl (by simp [Sys.init, Conn.init]) h1) (o (by intros; simp)))
  have r4 := r3.snoc (.cs (Step.regSent (i := 0) rfl rfl rfl) (o (by intros; simp)))
  have r5 := r4.snoc (.cs (Step.regChan (i := 0) rfl rfl rfl) (o (by intros; simp)))
  have r6 := r5.snoc (.cs (Step.writeOk (i := 0) rfl rfl rfl rfl rfl) (o (by intros; simp)))
  have r7 := r6.snoc (.cp (Step.read (k := 0) (f := f) rfl rfl) .read)
  have r8 := r7.snoc (.cp (Step.dispatch (k := 0) (p := .toLoop id q') rfl rfl (afterRead_call o₁ _ h2 h3)) (o (by intros; simp)))
  have hat : afterTake (S := ocppj F o₁ .cp) .cp id q' = .handling id (some q') := by
    have : (ocppj F o₁ .cp).mine q' = true := by simp [ocppj, hq]
    exact if_pos this
  have st9 := fun s h1 h2 h3 => Step.take (S := ocppj F o₁ .cp) (side := .cp) (s := s) (k := 0) (id := id) (r := q') h1 h2 h3
  rw [hat] at st9
  have r9 := r8.snoc (.cp (st9 _ rfl ⟨_, rfl⟩ rfl) (o (by intros; simp)))
  have r10 := r9.snoc (.cp (Step.handlerRet (S := ocppj F o₁ .cp) (r := some q') resp none rfl rfl) (o (by intros; simp)))
  have r11 := r10.snoc (.cp (Step.answerOk rfl rfl h4 rfl) (o (by intros; simp)))
  have r12 := r11.snoc (.cs (Step.read (k := 0) (f := g) rfl rfl) .read)
  have r13 := r12.snoc (.cs (Step.dispatch (k := 0) (p := .toSender (some 0) (.resp r)) rfl rfl (afterRead_result o₂ _ (by exact if_pos rfl) (by exact if_pos rfl) h5 h6)) (o (by intros; simp)))
  have r14 := r13.snoc (.cs (Step.deliver (k := 0) (i := 0) rfl rfl rfl rfl) (o (by intros; simp)))
  have r15 := r14.snoc (.cs (Step.finish (i := 0) rfl rfl rfl) (o (by intros; simp)))
  exact ⟨_, r15, rfl, rfl⟩

end Verif.Ocppj

namespace Verif.Ocppj
open Conn Codec
variable {F : FloatFmt} {o₁ o₂ : Order}

/-- The round trip for the objects of C14. -/
theorem roundTripCs_possible (F : FloatFmt) (o₁ o₂ : Order) (id : String) (q : Req) (resp : Resp) (hcp : q.type.isChargePoint = false)
    (hs : q.type.action ≠ "DataTransfer".toList) (ht : resp.type = q.type.response)
    (hq : HasTy q.type.ty q.val) (hr : HasTy resp.type.ty resp.val)
    (hi : q.val.IntsAll fun n => |n| ≤ 2 ^ 53) (hi' : resp.val.IntsAll fun n => |n| ≤ 2 ^ 53)
    (hp : q.val.TimesAll GoTime.Plain) (hp' : resp.val.TimesAll GoTime.Plain)
    (hm : ∃ t, marshal F q.type.ty q.val = .ok t) (hm' : ∃ t, marshal F resp.type.ty resp.val = .ok t) :
    ∃ q' f g x, Sys.Exec (roundTripCs F o₁ o₂ id q q' f g (some resp) none (.resp ⟨resp.type, resp.val.cutTimes⟩)) x ∧
      x.cp.crashed = false ∧ x.cs.crashed = false := by
  obtain ⟨t, hm⟩ := hm
  obtain ⟨t', hm'⟩ := hm'
  obtain ⟨f, p, v, h1, h2, h3, -, -⟩ := C14_request F o₁ id q hs hq hi hp t hm
  obtain ⟨g, p', h4, h5, h6⟩ := C14_response F o₂ id q.type hs resp ht hr hi' hp' t' hm'
  obtain ⟨x, hx⟩ := roundTripCs_state (o₁ := o₁) (o₂ := o₂) (q' := ⟨q.type, v⟩) hcp h1 h2 h3 h4 h5 h6
  exact ⟨⟨q.type, v⟩, f, g, x, hx⟩

/-- **C57** Round trips happen in the other direction too: for every central system request other than DataTransfer and every response
belonging to it, both encodable, there is a schedule in which the central system's `Send` of this request returns this response (times cut
to seconds). -/
theorem C57_possible_centralSystem (F : FloatFmt) (o₁ o₂ : Order) (id : String) (q : Req) (resp : Resp) (hcp : q.type.isChargePoint = false)
    (hs : q.type.action ≠ "DataTransfer".toList) (ht : resp.type = q.type.response)
    (hq : HasTy q.type.ty q.val) (hr : HasTy resp.type.ty resp.val)
    (hi : q.val.IntsAll fun n => |n| ≤ 2 ^ 53) (hi' : resp.val.IntsAll fun n => |n| ≤ 2 ^ 53)
    (hp : q.val.TimesAll GoTime.Plain) (hp' : resp.val.TimesAll GoTime.Plain)
    (hm : ∃ t, marshal F q.type.ty q.val = .ok t) (hm' : ∃ t, marshal F resp.type.ty resp.val = .ok t) :
    ∃ tr : List (Ev (ocppj F o₁ .cp) ⊕ Ev (ocppj F o₂ .cs)), ∃ x, Sys.Exec tr x ∧ Proper (atCp tr) ∧ Proper (atCs tr) ∧
      Ev.send (S := ocppj F o₂ .cs) 0 id q ∈ atCs tr ∧
      Ev.finish (S := ocppj F o₂ .cs) 0 (.resp (⟨resp.type, resp.val.cutTimes⟩ : Resp)) ∈ atCs tr := by
  obtain ⟨q', f, g, x, hx, -⟩ := roundTripCs_possible F o₁ o₂ id q resp hcp hs ht hq hr hi hi' hp hp' hm hm'
  refine ⟨_, x, hx, ⟨⟨?_, ?_⟩, ?_⟩, ⟨⟨?_, ?_⟩, ?_⟩, ?_, ?_⟩
  · intro i id' r hm
    simp [roundTripCs, atCp] at hm
  · intro id' r e hm
    simp [roundTripCs, atCp] at hm
    obtain ⟨-, rfl, -⟩ := hm
    exact hr
  · intro i id' r hm
    simp [roundTripCs, atCp] at hm
  · intro i id' r hm
    simp [roundTripCs, atCs] at hm
    obtain ⟨-, -, rfl⟩ := hm
    exact hq
  · intro id' r e hm
    simp [roundTripCs, atCs] at hm
  · intro i id' r hm
    simp [roundTripCs, atCs] at hm
    obtain ⟨-, -, rfl⟩ := hm
    simp [hcp]
  · simp [roundTripCs, atCs]
  · simp [roundTripCs, atCs]

end Verif.Ocppj

namespace Verif.Fleet
open Codec Ocppj World
variable {F : FloatFmt} {o₁ o₂ : Order} {csURL : Text} {ids : List Text} {tr : List (Ev F o₁ o₂)} {s : St F o₁ o₂}

/-- Steps on connection `n` alone in which the user does nothing but call `Send` of `q` under the id `mid` at the central system and let
the charge point's handler return `resp`, and in which nothing fails. -/
def Only (mid : String) (q : Req) (resp : Resp) : Conn.Ev (ocppj F o₁ .cp) ⊕ Conn.Ev (ocppj F o₂ .cs) → Prop
  | .inl (.handlerRet _ r e) => r = some resp ∧ e = none
  | .inl e => ¬External (F := F) (o₁ := o₁) (o₂ := o₂) (.inl e)
  | .inr (.send _ id q') => id = mid ∧ q' = q
  | .inr e => ¬External (F := F) (o₁ := o₁) (o₂ := o₂) (.inr e)

/-- **C93** After a disconnection that both ends have seen, a `Send` through `GetServiceOf` can be answered, contrary to what ocpp_test.go
expects: if all connections of a charge point are closed at its end, then without an action of the user the library alone gets it to where
`GetServiceOf` gives a new connection; and from there a `Send` through it, of any encodable central system request but DataTransfer, may
return any encodable response of the charge point's handler. -/
theorem C93_answered {i : Nat} {identity id : Text} (h : Exec csURL ids tr s) (hi : ids[i]? = some identity) (hid : Http.registeredAs csURL identity = some id)
    (hw : s.world.alive) (hal : ∀ n ∈ connsOf i tr, ∀ l, s.world.links[n]? = some l → l.ends.cp.crashed = false ∧ l.ends.cp.closed = true)
    (hh : ∀ c, s.cps[i]? = some c → c.st.phase ≠ .handling ∧ c.st.phase ≠ .stopped)
    (mid : String) (q : Req) (resp : Resp) (hcp : q.type.isChargePoint = false)
    (hs : q.type.action ≠ "DataTransfer".toList) (ht : resp.type = q.type.response)
    (hq : HasTy q.type.ty q.val) (hr : HasTy resp.type.ty resp.val)
    (hb : q.val.IntsAll fun n => |n| ≤ 2 ^ 53) (hb' : resp.val.IntsAll fun n => |n| ≤ 2 ^ 53)
    (hp : q.val.TimesAll GoTime.Plain) (hp' : resp.val.TimesAll GoTime.Plain)
    (hm : ∃ t, marshal F q.type.ty q.val = .ok t) (hm' : ∃ t, marshal F resp.type.ty resp.val = .ok t) :
    ∃ k n x k' n' r₀ t s' m r, t.Sublist (comeback i k n x k' n' r₀ identity (String.ofList id)) ∧ Run csURL s t s' ∧
      Accepted (worldEvents (tr ++ t)) m r (String.ofList id) ∧ s'.world.reg.getServiceOf (String.ofList id) "V16" "" = .ok (.json r) ∧
      ∃ t' s'', Run csURL s' t' s'' ∧ (∀ e ∈ t', Within i m e) ∧ (∀ e ∈ onLink m (worldEvents t'), Only mid q resp e) ∧
        Conn.Ev.send (S := ocppj F o₂ .cs) 0 mid q ∈ csEvents m (worldEvents t') ∧
        Conn.Ev.finish (S := ocppj F o₂ .cs) 0 (.resp (⟨resp.type, resp.val.cutTimes⟩ : Resp)) ∈ csEvents m (worldEvents t') := by
  obtain ⟨k, n, x, k', n', r₀, t, s', h1, h2, h3⟩ := C82_comes_back h hi hid hw hal hh
  obtain ⟨m, r, h4, h5, h6, -, ⟨l, h7, h8, h9⟩, h10⟩ := h3.back
  have hx := h3.exec
  have hends := hx.inv.world.inv.ends m l h7
  rw [h10] at hends
  obtain ⟨q', f, g, y, e1, e2, e3⟩ := roundTripCs_possible F o₁ o₂ mid q resp hcp hs ht hq hr hb hb' hp hp' hm hm'
  have hl0 : l.ends = Sys.init F o₁ o₂ := by
    generalize he : ([] : List (Conn.Ev (ocppj F o₁ .cp) ⊕ Conn.Ev (ocppj F o₂ .cs))) = t0 at hends
    generalize l.ends = z at hends ⊢
    cases hends with
    | nil => rfl
    | snoc _ _ => simp at he
  obtain ⟨c, hc⟩ : ∃ c, s'.cps[i]? = some c := by
    refine ⟨_, List.getElem?_eq_getElem ?_⟩
    by_contra hlt
    rw [hx.inv.none i (by omega)] at h4
    cases h4
  have hlinks := hx.inv.links i c hc
  have hlast := h4
  rw [← hlinks, List.getLast?_eq_getElem?] at hlast
  have hlen : c.links.length = (c.links.length - 1) + 1 := by
    have := lt_of_get hlast
    omega
  obtain ⟨t1, s1, c1, id1, r1, l1, a1, a2, a3, a4, a5, a6⟩ := toServed hx ⟨hc, fun m hm l hl => h3.running.2 m (hlinks ▸ hm) l hl, h3.running.1⟩ hlast hlen h7 h8 h9
  obtain ⟨s2, c2, d1, d2, d3⟩ := Served.lift (hx.append a2) a3 (by rw [a4, hl0]; exact e1.run) e3 e2 (by
    intro e he
    simp only [roundTripCs, List.mem_cons, List.not_mem_nil, or_false] at he
    rcases he with rfl | rfl | rfl | rfl | rfl | rfl | rfl | rfl | rfl | rfl | rfl | rfl | rfl | rfl | rfl <;> simp)
  have hon : onLink m (worldEvents (t1 ++ Fleet.lift i (c.links.length - 1) m id1 (roundTripCs F o₁ o₂ mid q q' f g (some resp) none (.resp ⟨resp.type, resp.val.cutTimes⟩)))) =
      roundTripCs F o₁ o₂ mid q q' f g (some resp) none (.resp ⟨resp.type, resp.val.cutTimes⟩) := by
    rw [worldEvents_append, onLink_append, onLink_settling a1, onLink_lift, List.nil_append]
  refine ⟨k, n, x, k', n', r₀, t, s', m, r, h1, h2, h5, h6, _, s2, a2.trans d1, ?_, ?_, ?_, ?_⟩
  · intro e he
    rcases List.mem_append.1 he with he | he
    · have := a1.subset he
      simp only [settling, List.mem_cons, List.not_mem_nil, or_false] at this
      rcases this with rfl | rfl | rfl | rfl | rfl <;> simp [Within]
    · obtain ⟨e', -, rfl⟩ := List.mem_map.1 he
      rcases e' with e' | e' <;> simp [Within]
  · rw [hon]
    intro e he
    simp only [roundTripCs, List.mem_cons, List.not_mem_nil, or_false] at he
    rcases he with rfl | rfl | rfl | rfl | rfl | rfl | rfl | rfl | rfl | rfl | rfl | rfl | rfl | rfl | rfl <;>
      first | exact ⟨rfl, rfl⟩ | simp [Only, External, Fault, isSend]
  · rw [← atCs_onLink, hon]
    simp [roundTripCs, atCs]
  · rw [← atCs_onLink, hon]
    simp [roundTripCs, atCs]

/-- It happens, from the beginning. -/
example (identity id : Text) (hid : Http.registeredAs csURL identity = some id) :
    ∃ (tr : List (Ev F o₁ o₂)) (s : St F o₁ o₂) (m : Nat), Exec csURL [identity] tr s ∧
      Conn.Ev.finish (S := ocppj F o₂ .cs) 0 (.resp (⟨.csrespClearCache, .struct [.str "Accepted".toList]⟩ : Resp)) ∈ csEvents m (worldEvents tr) := by
  have e : ∀ (m : MsgType) (v : Val), HasTy m.ty v → (∃ j, wire F m.ty v = .ok j) → ∃ t, marshal F m.ty v = .ok t := by
    intro m v hv ⟨j, hj⟩
    rcases C01_wellformed F m v hv with ⟨t, ms, h, -⟩ | ⟨e, -, h⟩ | ⟨e, -, h⟩
    · exact ⟨t, h⟩
    · rw [hj] at h; cases h
    · rw [hj] at h; cases h
  have g1 : HasTy (MsgType.req .csreqClearCache).ty (.struct []) := by
    simp [MsgType.ty, ReqType.ty, csreq.ClearCache, HasTy, HasTys]
  have g2 : HasTy (MsgType.resp .csrespClearCache).ty (.struct [.str "Accepted".toList]) := by
    simp [MsgType.ty, RespType.ty, csresp.ClearCache, HasTy, HasTys]
  obtain ⟨k, _, _, _, _, _, t, s', m, r, -, h1, -, -, t', s'', h2, -, -, -, h3⟩ := C93_answered (F := F) (o₁ := o₁) (o₂ := o₂) (i := 0) (identity := identity) (ids := [identity]) .nil rfl hid
    (by intro l hl; simp [init, World.init] at hl) (by simp [connsOf]) (by intro c hc; simp [init] at hc; subst hc; simp [ChargePoint.init])
    "1" ⟨.csreqClearCache, .struct []⟩ ⟨.csrespClearCache, .struct [.str "Accepted".toList]⟩ rfl (by decide) rfl g1 g2
    (by simp [Val.IntsAll, Val.IntsAlls]) (by simp [Val.IntsAll, Val.IntsAlls]) (by simp [Val.TimesAll, Val.TimesAlls]) (by simp [Val.TimesAll, Val.TimesAlls])
    (e (.req .csreqClearCache) _ g1 ⟨_, rfl⟩) (e (.resp .csrespClearCache) _ g2 ⟨_, rfl⟩)
  refine ⟨_, s'', m, (Exec.append .nil h1).append h2, ?_⟩
  rw [worldEvents_append, csEvents_append]
  exact List.mem_append_right _ h3

end Verif.Fleet
