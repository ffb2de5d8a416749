import Verif.Props.Answered
/-!
# The rounds of the repository's connection test: property C93

ocpp_test.go:143-155: the connection is closed at the charge point, both ends' `WaitDisconnect` are waited for, then both ends'
`WaitConnect`, and then a `Send` through `GetServiceOf` is expected to be answered.
-/
set_option linter.unusedSimpArgs false
namespace Verif.Fleet
open Codec Ocppj World
variable {F : FloatFmt} {o₁ o₂ : Order} {csURL : Text} {ids : List Text} {tr : List (Ev F o₁ o₂)} {s : St F o₁ o₂}

/-- The charge point's user closes the connection (ocpp_test.go:145), and the central system's read fails. -/
def cut (F : FloatFmt) (o₁ o₂ : Order) : List (Conn.Ev (ocppj F o₁ .cp) ⊕ Conn.Ev (ocppj F o₂ .cs)) :=
  [.inl .close, .inr (.spawn 0), .inr (.readErr 0 .err)]

theorem cut_run : ∃ x, Sys.Run (Sys.init F o₁ o₂) (cut F o₁ o₂) x ∧ x.cp.crashed = false ∧ x.cs.crashed = false ∧ x.cp.closed = true ∧
    x.cp.loop = .top := by
  have o : ∀ {S : Sem} {e : Conn.Ev S} {l : List S.Frame}, (∀ k f, e ≠ .read k f) → Consumes e l l := fun h => .other h
  have r0 := Sys.Run.nil (x := Sys.init F o₁ o₂)
  have r1 := r0.snoc (.cp (Conn.Step.close rfl) (o (by intros; simp)))
  have r2 := r1.snoc (.cs (Conn.Step.spawn rfl rfl) (o (by intros; simp)))
  have r3 := r2.snoc (.cs (Conn.Step.readErr (k := 0) (e := .err) rfl rfl (by simp)) (o (by intros; simp)))
  exact ⟨_, r3, rfl, rfl, rfl, rfl⟩

/-- The four waits of a round are over at once at the charge point `c` and the central system `w`, for the charge point's `k`-th connection and
the id `id`: whatever channel `WaitDisconnect` and `WaitConnect` return, at either end, is closed. -/
structure WaitsOver (c : Cp) (w : World.St F o₁ o₂) (csURL : Text) (k : Nat) (id : String) : Prop where
  cpDisconnect : (∃ st, ChargePoint.Step c.st (.waitDisconnect k) st) ∧ ∀ j st, ChargePoint.Step c.st (.waitDisconnect j) st → st.connClosed j = true
  csDisconnect : w.reg.discClosed (w.reg.waitDisconnect id) = true
  cpConnect : ∀ ch st, ChargePoint.Step c.st (.waitConnect ch) st → st.chanClosed ch = true
  csConnect : ∀ ch w', World.Step csURL w (.reg (.waitConnect id ch)) w' → w'.reg.chanClosed[ch]? = some true

/-- **C93** The rounds of the repository's connection test.  Whenever a charge point has (re)connected, what the test does next, closing the
connection at the charge point, can have the following outcome: the four channels waited for are all closed, the two of
`WaitConnect` too, although neither end has begun to deal with the loss; `GetServiceOf` still gives the lost connection; and no `Send` begun
on it from then on is answered: it ends with an error (so the test's next check fails).  From there the library alone may get the charge point
connected again, so that every round may end like this, and, by `C93_answered`, also the other way. -/
theorem C93_rounds {i : Nat} {identity id : Text} (h : Back csURL ids tr s i (String.ofList id)) (hi : ids[i]? = some identity)
    (hid : Http.registeredAs csURL identity = some id) :
    ∃ n r k c t s', (connsOf i tr).getLast? = some n ∧ (connsOf i tr)[k]? = some n ∧ Accepted (worldEvents tr) n r (String.ofList id) ∧
      Run csURL s t s' ∧ (∀ e ∈ t, Within i n e) ∧ onLink n (worldEvents t) = cut F o₁ o₂ ∧
      s'.cps[i]? = some c ∧ WaitsOver c s'.world csURL k (String.ofList id) ∧
      (∀ url, s'.world.reg.getServiceOf (String.ofList id) "V16" url = .ok (.json r)) ∧
      (∀ t' s'', Run csURL s' t' s'' → ∀ j mid (q : Req), Conn.Ev.send (S := ocppj F o₂ .cs) j mid q ∈ csEvents n (worldEvents t') →
        (∀ a, Conn.Ev.finish (S := ocppj F o₂ .cs) j a ∉ csEvents n (worldEvents t')) ∧
        ∀ f, Conn.Ev.writeCall (S := ocppj F o₂ .cs) j (some f) ∉ csEvents n (worldEvents t')) ∧
      ∃ t₂ s₂, Run csURL s' t₂ s₂ ∧ Back csURL ids (tr ++ t ++ t₂) s₂ i (String.ofList id) := by
  obtain ⟨n, r, h4, h5, h6, -, ⟨l, h7, h8, h9⟩, h10⟩ := h.back
  have hx := h.exec
  have hw := hx.inv.world
  have hends := hw.inv.ends n l h7
  rw [h10] at hends
  have hl0 : l.ends = Sys.init F o₁ o₂ := by
    generalize he : ([] : List (Conn.Ev (ocppj F o₁ .cp) ⊕ Conn.Ev (ocppj F o₂ .cs))) = t0 at hends
    generalize l.ends = z at hends ⊢
    cases hends with
    | nil => rfl
    | snoc _ _ => simp at he
  obtain ⟨c, hc⟩ : ∃ c, s.cps[i]? = some c := by
    refine ⟨_, List.getElem?_eq_getElem ?_⟩
    by_contra hlt
    rw [hx.inv.none i (by omega)] at h4
    cases h4
  have hlinks := hx.inv.links i c hc
  have hlast := h4
  rw [← hlinks, List.getLast?_eq_getElem?] at hlast
  have hlen : c.links.length = (c.links.length - 1) + 1 := by
    have := lt_of_get hlast
    omega
  generalize hk : c.links.length - 1 = k at hlast hlen
  obtain ⟨t1, s1, c1, id1, r1, l1, a1, a2, a3, a4, a5, a6⟩ := toServed hx ⟨hc, fun m hm l hl => h.running.2 m (hlinks ▸ hm) l hl, h.running.1⟩ hlast hlen h7 h8 h9
  obtain ⟨x, e1, e2, e3, e4, e5⟩ := cut_run (F := F) (o₁ := o₁) (o₂ := o₂)
  obtain ⟨s2, c2, d1, d2, d3⟩ := Served.lift (hx.append a2) a3 (by rw [a4, hl0]; exact e1) e3 e2 (by
    intro e he
    simp only [cut, List.mem_cons, List.not_mem_nil, or_false] at he
    rcases he with rfl | rfl | rfl <;> simp)
  have hrun := a2.trans d1
  have hwithin : ∀ e ∈ t1 ++ Fleet.lift i k n id1 (cut F o₁ o₂), Within i n e := by
    intro e he
    rcases List.mem_append.1 he with he | he
    · have := a1.subset he
      simp only [settling, List.mem_cons, List.not_mem_nil, or_false] at this
      rcases this with rfl | rfl | rfl | rfl | rfl <;> simp [Within]
    · obtain ⟨e', -, rfl⟩ := List.mem_map.1 he
      rcases e' with e' | e' <;> simp [Within]
  have hon : onLink n (worldEvents (t1 ++ Fleet.lift i k n id1 (cut F o₁ o₂))) = cut F o₁ o₂ := by
    rw [worldEvents_append, onLink_append, onLink_settling a1, onLink_lift, List.nil_append]
  have hx2 := hx.append hrun
  have hnoconn : connsOf i (t1 ++ Fleet.lift i k n id1 (cut F o₁ o₂)) = [] := by
    rw [connsOf, List.filterMap_eq_nil_iff]
    intro e he
    have := hwithin e he
    cases e <;> simp_all [Within]
  generalize hT : t1 ++ Fleet.lift i k n id1 (cut F o₁ o₂) = T at hrun hwithin hon hx2 hnoconn
  have hw2 := hx2.inv.world
  have hmem : ∀ e, e ∈ worldEvents T → (∀ k, e ≠ .reg (.cleanup k)) ∧ ∀ m j id, e = .register m j id → m = n := by
    intro e he
    obtain ⟨e', h1, h2⟩ := List.mem_filterMap.1 he
    have h3 := hwithin e' h1
    cases e' with
    | cs e' =>
      simp at h2; subst h2
      cases e' with
      | reg g => cases g <;> simp_all [Within]
      | register => simp_all [Within]
      | _ => simp_all [Within]
    | dialled => simp_all [Within]
    | halfDialled => simp_all [Within]
    | self => simp_all [Within]
    | on => simp at h2; subst h2; simp
  have hacc : Accepted (worldEvents (tr ++ T)) n r (String.ofList id) := by
    rw [worldEvents_append]; exact List.mem_append_left _ h5
  obtain ⟨hregd, n', hlat⟩ := ((C67_service hw (String.ofList id) "").1 r).1 h6
  obtain rfl : n = n' := (hw.accepted_unique h5 hlat.1).2 ⟨rfl, rfl⟩
  have hlat2 : Latest (worldEvents (tr ++ T)) n r (String.ofList id) := by
    refine ⟨hacc, fun m j hm => ?_⟩
    have hm' := hm
    rw [worldEvents_append] at hm'
    rcases List.mem_append.1 hm' with g | g
    · exact hlat.2 m j g
    · have := (hmem _ g).2 m j _ rfl
      exact Nat.le_of_eq (((hw2.accepted_unique hm hacc).1 this).1)
  have hregd2 : Registered (worldEvents (tr ++ T)) (String.ofList id) := by
    obtain ⟨m, j, g1, g2⟩ := hregd
    refine ⟨m, j, by rw [worldEvents_append]; exact List.mem_append_left _ g1, ?_⟩
    rintro ⟨j', id', g3, g4⟩
    obtain ⟨rfl, rfl⟩ : j' = j ∧ id' = String.ofList id := (hw2.accepted_unique g3 (by rw [worldEvents_append]; exact List.mem_append_left _ g1)).1 rfl
    rw [worldEvents_append] at g4
    rcases List.mem_append.1 g4 with g | g
    · exact g2 ⟨j', _, g1, g⟩
    · exact (hmem _ g).1 _ rfl
  have hcut : CutOff (worldEvents (tr ++ T)) n := by
    refine ⟨.readErr 0 .err, ?_, .inr (.inl ⟨_, _, rfl⟩)⟩
    rw [worldEvents_append, csEvents_append, ← atCs_onLink n (worldEvents T), hon]
    simp [cut, atCs]
  obtain ⟨g1, g2, g3, g4⟩ := World.C93_dead hw2 hlat2 hregd2 hcut
  -- the charge point
  have hown := (hx2.inv.own i c2 d2.up.get)
  have hci := hown.inv
  have hcl : c2.st.connClosed k = true := by
    obtain ⟨l', b1, -, b2⟩ := hx2.inv.link i k n c2 d2.up.get d2.link
    rw [d2.get] at b1; cases b1
    simp [ChargePoint.St.connClosed, b2, e4]
  have hphase : c2.st.phase = .select := by
    rcases d2.phase with p | p
    · exact p
    · have := hx2.inv.loop i k n c2 _ d2.up.get d2.up.alive d2.link d2.get
      simp only [kindOf, d2.conn, if_true, p, e5] at this
      cases this
  have hupp : c2.st.phase.isUp = true := by rw [hphase]; rfl
  have hlinks2 := hx2.inv.links i c2 d2.up.get
  have hsame : connsOf i (tr ++ T) = connsOf i tr := by rw [connsOf_append, hnoconn, List.append_nil]
  have hover : WaitsOver c2 s2.world csURL k (String.ofList id) := by
    refine ⟨⟨⟨_, .waitDisconnect d2.conn⟩, ?_⟩, g1, ?_, ?_⟩
    · intro j st hs
      cases hs with
      | waitDisconnect hj => rw [d2.conn] at hj; cases hj; exact hcl
    · intro ch st hs
      cases hs
      simp [ChargePoint.St.chanClosed, hci.closed, hupp]
    · intro ch w' hs; exact g2 ch w' hs
  obtain ⟨_, _, _, _, _, _, t₂, s₂, -, b1, b2⟩ := C82_comes_back hx2 hi hid d2.up.central (by
      intro m hm l' hl'
      have hm' : m ∈ c2.links := by rw [hlinks2]; exact hm
      refine ⟨d2.up.alive m hm' l' hl', ?_⟩
      obtain ⟨j, hj⟩ := List.mem_iff_getElem?.1 hm'
      obtain ⟨l'', b1, -, b2⟩ := hx2.inv.link i j m c2 d2.up.get hj
      rw [hl'] at b1; cases b1
      have hcnt := hx2.inv.cnt i c2 d2.up.get
      have hll : c2.links.length = k + 1 := by rw [hlinks2, hsame, ← hlinks]; exact hlen
      have hlt := lt_of_get hj
      have : c2.st.connClosed j = true := by
        rcases Nat.lt_or_ge j k with g | g
        · exact hci.prev (.inr (.inr (.inl hupp))) j (by omega)
        · obtain rfl : j = k := by omega
          exact hcl
      simpa [ChargePoint.St.connClosed, b2] using this)
    (by intro c' hc'; rw [d2.up.get] at hc'; cases hc'; rw [hphase]; simp)
  refine ⟨n, r, k, c2, T, s2, h4, by rw [← hlinks]; exact hlast, h5, hrun, hwithin, hon, d2.up.get, hover, g3, ?_, t₂, s₂, b1, b2⟩
  intro t' s'' hr j mid q hs
  obtain ⟨q1, -, q3⟩ := g4 _ _ hr.world j mid q hs
  exact ⟨q1, q3⟩

/-- Its hypothesis is met: by a charge point that has just connected. -/
example (F : FloatFmt) (o₁ o₂ : Order) (identity id : Text) (hid : Http.registeredAs csURL identity = some id) :
    ∃ (tr : List (Ev F o₁ o₂)) (s : St F o₁ o₂), Back csURL [identity] tr s 0 (String.ofList id) := by
  obtain ⟨_, _, _, _, _, _, t, s', -, -, h⟩ := C82_comes_back (F := F) (o₁ := o₁) (o₂ := o₂) (i := 0) (identity := identity) (ids := [identity]) .nil rfl hid
    (by intro l hl; simp [init, World.init] at hl) (by simp [connsOf]) (by intro c hc; simp [init] at hc; subst hc; simp [ChargePoint.init])
  exact ⟨_, s', h⟩

end Verif.Fleet
