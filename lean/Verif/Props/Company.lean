import Verif.Lemmas.Company
/-!
# Charge points of this library among strangers

Property C109.
-/
set_option linter.unusedSimpArgs false
namespace Verif.Company
open Conn Codec Ocppj Json Decode Encode Trip
open World (get_snoc get_left set_get get_set lt_of_get register_table noteClosed_get noteClosed_table ofLoop)

variable {F : FloatFmt} {o₁ o₂ : Order} {csURL : Text} {tr tr' : List (Ev F o₁ o₂)} {w w' : St F o₁ o₂}

theorem Exec.upgraded (h : Exec csURL tr w) {n : Nat} {identity : Text} (hd : Dialled tr n identity) :
    ∃ key rest, key ≠ "" ∧ Hub.Upgraded (hubEvents csURL tr) n (Hub.dialled csURL identity "V16" key rest) ∧
      ∃ id, Http.registeredAs csURL identity = some id := by
  obtain ⟨key, rest, hd⟩ := hd
  obtain ⟨p, h1, rfl⟩ := h.inv.dialled _ _ _ _ hd
  obtain ⟨m, h2, -, h3, key, rest, hk, h4, -⟩ := h.inv.ends n p h1
  exact ⟨key, rest, hk, List.mem_filterMap.2 ⟨_, h4, rfl⟩, h3⟩

theorem Exec.sys (h : Exec csURL tr w) {n : Nat} {identity : Text} (hd : Dialled tr n identity) :
    ∃ x : Sys F o₁ o₂, Sys.Exec (onLink n tr) x := by
  obtain ⟨key, rest, hd⟩ := hd
  obtain ⟨p, h1, rfl⟩ := h.inv.dialled _ _ _ _ hd
  obtain ⟨m, -, h2, -⟩ := h.inv.ends n p h1
  exact ⟨_, h2⟩

theorem accepted_iff {n k : Nat} {id : String} : Hub.Accepted (hubEvents csURL tr) n k id ↔ Accepted tr n k id :=
  mem_hubEvents (by simp)

theorem Names.dialled {identity id id' : Text} {key : String} {rest : Text} (hk : key ≠ "") (hr : Http.registeredAs csURL identity = some id)
    (hn : Hub.Names (Hub.dialled csURL identity "V16" key rest) id') : id' = id := by
  obtain ⟨p, hn⟩ := hn
  rw [Hub.dialled_names hk hr] at hn
  cases hn; rfl

/-- A charge point is registered under its own identity. -/
theorem Exec.identity (h : Exec csURL tr w) {n k : Nat} {identity : Text} {id : String} (hd : Dialled tr n identity) (ha : Accepted tr n k id) :
    Http.registeredAs csURL identity = some id.toList := by
  obtain ⟨key, rest, hk, hu, id', hr⟩ := h.upgraded hd
  obtain ⟨r, h1, h2⟩ := h.inv.hub.acceptedNames (accepted_iff.2 ha)
  rw [h.inv.hub.upgraded_unique h1 hu] at h2
  rw [Names.dialled hk hr h2, hr]

/-- **C109** A central system with charge points of this library among strangers is one with arbitrary clients, and each of these
charge points and what serves it are the two ends of a connection. -/
theorem C109_views (h : Exec csURL tr w) : Hub.Exec (hubEvents csURL tr) w.hub ∧
    ∀ n identity, Dialled tr n identity → ∃ x : Sys F o₁ o₂, Sys.Exec (onLink n tr) x ∧ atCp (onLink n tr) = cpEvents n tr ∧
      atCs (onLink n tr) = csEvents n tr :=
  ⟨h.inv.hub, fun n i hd => by
    obtain ⟨x, hx⟩ := h.sys hd
    exact ⟨x, hx, atCp_onLink n tr, atCs_onLink n tr⟩⟩

/-- **C109** If a `Send` of a charge point returns a response, the central system has registered its connection under its identity and
called its handler exactly once for this request, with what was sent, with the metadata of this charge point's own connection; and the
response is what this call returned.  Whoever else is connected. -/
theorem C109_response (h : Exec csURL tr w) (n : Nat) (identity : Text) (hd : Dialled tr n identity)
    (hp : Proper (cpEvents n tr)) (hs : Proper (csEvents n tr)) (i : Nat) (r : Resp)
    (hf : Ev.cp n (.finish (S := ocppj F o₁ .cp) i (.resp r)) ∈ tr) :
    ∃ j about mid q resp k r', Accepted tr n j about.chargePointID ∧ Http.registeredAs csURL identity = some about.chargePointID.toList ∧
      (∃ key rest, about.httpRequest = Hub.dialled csURL identity "V16" key rest) ∧
      Ev.cp n (.send (S := ocppj F o₁ .cp) i mid q) ∈ tr ∧ HandledOnce o₂ (csEvents n tr) mid q (some resp) none ∧
      Returns q resp r ∧ Ev.cs (.conn n about (.take (S := ocppj F o₂ .cs) k mid r' (some (some r')))) ∈ tr ∧ Arrives F o₂ q r' := by
  obtain ⟨x, hsys⟩ := h.sys hd
  have hf' := mem_cpEvents.2 hf
  rw [← atCp_onLink] at hp hf'
  rw [← atCs_onLink] at hs
  obtain ⟨mid, q, resp, h1, h2, h3⟩ := C57_chargePoint hsys hp hs i r hf'
  have h2' := h2
  obtain ⟨⟨q', h4, h5⟩, -⟩ := h2'
  have hin : ((mid, some q') : String × Option Req) ∈ handled (atCs (onLink n tr)) :=
    List.mem_of_mem_filter (p := fun x => decide (x.1 = mid)) (by rw [h4]; simp)
  rw [atCs_onLink] at hin h2
  rw [atCp_onLink] at h1
  obtain ⟨k, r₀, hk⟩ := World.mem_handled hin
  obtain ⟨about, hab⟩ := mem_csEvents.1 hk
  have hab' := (mem_hubEvents (csURL := csURL) (e := Hub.Ev.conn n about (.take (S := ocppj F o₂ .cs) k mid r₀ (some (some q')))) (by simp)).2 hab
  obtain ⟨m1, ⟨j, m2⟩, m3⟩ := h.inv.hub.connMeta hab'
  obtain ⟨key, rest, hkey, hu, -⟩ := h.upgraded hd
  have hreq : (some q' : Option Req) = some r₀ := by
    obtain ⟨ta, tb, hsp⟩ := List.append_of_mem hab'
    have := h.inv.hub
    rw [hsp] at this
    exact (Hub.C108_handlerCall n k about mid r₀ _ this).1
  cases hreq
  refine ⟨j, about, mid, q, resp, k, q', accepted_iff.1 m2, h.identity hd (accepted_iff.1 m2), ⟨key, rest, h.inv.hub.upgraded_unique m1 hu⟩,
    mem_cpEvents.1 h1, h2, h3, hab, h5⟩

/-- **C109** When the handler of the central system is called for a text from a charge point of this library, this is for exactly one
`Send` of this charge point; the handler gets what was sent, and the id is this charge point's. -/
theorem C109_caller (h : Exec csURL tr w) (n k : Nat) (identity : Text) (hd : Dialled tr n identity) (about : Hub.Metadata) (mid : String) (r : Req)
    (q' : Option Req) (hc : Ev.cs (.conn n about (.take (S := ocppj F o₂ .cs) k mid r (some q'))) ∈ tr)
    (hp : Proper (cpEvents n tr)) (hs : Proper (csEvents n tr)) :
    ∃ i q r', Http.registeredAs csURL identity = some about.chargePointID.toList ∧
      Ev.cp n (.send (S := ocppj F o₁ .cp) i mid q) ∈ tr ∧ q' = some r' ∧ Arrives F o₂ q r' ∧
      (handled (csEvents n tr)).filter (fun x => x.1 = mid) = [(mid, some r')] := by
  obtain ⟨x, hsys⟩ := h.sys hd
  have hc' := (mem_hubEvents (csURL := csURL) (e := Hub.Ev.conn n about (.take (S := ocppj F o₂ .cs) k mid r (some q'))) (by simp)).2 hc
  obtain ⟨m1, ⟨j, m2⟩, m3⟩ := h.inv.hub.connMeta hc'
  have hin : (mid, q') ∈ handled (csEvents n tr) := List.mem_filterMap.2 ⟨_, mem_csEvents.2 ⟨about, hc⟩, rfl⟩
  have hsend : ∀ i q, Conn.Ev.send (S := ocppj F o₁ .cp) i mid q ∈ cpEvents n tr → Ev.cp n (.send (S := ocppj F o₁ .cp) i mid q) ∈ tr :=
    fun i q hm => mem_cpEvents.1 hm
  have hid := h.identity hd (accepted_iff.1 m2)
  rw [← atCp_onLink] at hp hsend
  rw [← atCs_onLink] at hs hin ⊢
  obtain ⟨⟨h1, h2⟩, -⟩ := C57_atMostOnce hsys hp hs mid
  obtain ⟨i, q, r', h3, rfl, h4⟩ := h2 q' hin
  refine ⟨i, q, r', hid, hsend i q h3, rfl, h4, ?_⟩
  have hmem : ((mid, some r') : String × Option Req) ∈ (handled (atCs (onLink n tr))).filter (fun x => x.1 = mid) :=
    List.mem_filter.2 ⟨hin, by simp⟩
  generalize (handled (atCs (onLink n tr))).filter (fun x => x.1 = mid) = l at h1 hmem
  rcases l with _ | ⟨x, _ | ⟨y, l⟩⟩
  · cases hmem
  · rw [List.mem_singleton] at hmem; rw [hmem]
  · simp at h1

/-- **C109** A `Send` of the central system on the connection of a charge point of this library that returns a response: the handler of
this charge point was called exactly once for it, and the response is what it returned. -/
theorem C109_addressed (h : Exec csURL tr w) (n : Nat) (identity : Text) (hd : Dialled tr n identity)
    (hp : Proper (cpEvents n tr)) (hs : Proper (csEvents n tr)) (i : Nat) (r : Resp)
    (hf : Conn.Ev.finish (S := ocppj F o₂ .cs) i (.resp r) ∈ csEvents n tr) :
    ∃ mid q resp, Conn.Ev.send (S := ocppj F o₂ .cs) i mid q ∈ csEvents n tr ∧ HandledOnce o₁ (cpEvents n tr) mid q (some resp) none ∧ Returns q resp r := by
  obtain ⟨x, hsys⟩ := h.sys hd
  rw [← atCp_onLink] at hp ⊢
  rw [← atCs_onLink] at hs hf ⊢
  exact C57_centralSystem hsys hp hs i r hf

/-- An event of a connection as an event of the whole. -/
def lift (n : Nat) (about : Hub.Metadata) (t : List (Conn.Ev (ocppj F o₁ .cp) ⊕ Conn.Ev (ocppj F o₂ .cs))) : List (Ev F o₁ o₂) :=
  t.map fun
    | .inl e => .cp n e
    | .inr e => .cs (.conn n about e)

/-- **C109** Nobody can hinder a charge point: in every state in which the process of the central system is up and the charge point's
connection is served, whatever the two ends of the connection could do by themselves they can do, with the same outcome, and nothing
changes for anybody else. -/
theorem C109_free (ha : w.hub.alive) {n k : Nat} {p : Peer F o₁} {m : Hub.Member F o₂} {c : Registry.CState}
    (hp : w.peers[n]? = some (some p)) (hm : w.hub.members[n]? = some m) (hk : m.reg = some k) (hc : w.hub.reg.table[k]? = some c)
    (hph : c.phase = .serving) (e : Conn.Ev (ocppj F o₁ .cp) ⊕ Conn.Ev (ocppj F o₂ .cs)) (y : Sys F o₁ o₂)
    (hs : Sys.Step ⟨p.fin, m.fin, p.toCs, p.toCp⟩ e y) :
    ∃ reg', Run csURL w (lift n ⟨c.cp, m.request⟩ [e]) ⟨⟨reg', w.hub.members.set n { m with fin := y.cs }⟩, w.peers.set n (some ⟨p.identity, y.cp, y.toCs, y.toCp⟩)⟩ ∧
      (∃ d, reg'.table[k]? = some d ∧ d.cp = c.cp ∧ d.phase = .serving) ∧ reg'.conns = w.hub.reg.conns ∧
      ∀ j, j ≠ k → reg'.table[j]? = w.hub.reg.table[j]? := by
  cases hs with
  | @cp e s' l h1 h2 =>
    refine ⟨w.hub.reg, ?_, ⟨c, hc, rfl, hph⟩, rfl, fun _ _ => rfl⟩
    have hst : Step csURL w (.cp n e) _ := .cp hp h1 h2
    have hself : w.hub.members.set n { m with fin := m.fin } = w.hub.members := by
      obtain ⟨h3, h4⟩ := List.getElem?_eq_some_iff.1 hm
      rw [← h4]; simp
    have := Run.snoc (.nil (w := w)) hst
    simp only at hself ⊢
    rw [hself]
    exact this
  | @cs e s' l h1 h2 =>
    have hst : Step csURL w (.cs (.conn n ⟨c.cp, m.request⟩ e)) _ := .cs hp (.conn ha hm hk hc h1 (fun _ => hph)) h2
    refine ⟨_, Run.snoc (.nil (w := w)) hst, ?_, ?_, ?_⟩
    · obtain ⟨d, hd⟩ : ∃ d, (World.noteClosed w.hub.reg k s'.closed).table[k]? = some d :=
        ⟨_, List.getElem?_eq_getElem (by rw [noteClosed_table]; exact (List.getElem?_eq_some_iff.1 hc).1)⟩
      obtain ⟨d2, h5, h6, -, h7⟩ := noteClosed_get _ _ _ _ _ hd
      rw [hc] at h5; cases h5
      exact ⟨d, hd, h6, h7.trans hph⟩
    · unfold World.noteClosed; split <;> rfl
    · intro j hj; exact World.noteClosed_other _ _ _ _ hj

theorem lift_run {n k : Nat} {p : Peer F o₁} {m : Hub.Member F o₂} {c : Registry.CState}
    {t : List (Conn.Ev (ocppj F o₁ .cp) ⊕ Conn.Ev (ocppj F o₂ .cs))} {x : Sys F o₁ o₂}
    (ha : w.hub.alive) (hp : w.peers[n]? = some (some p)) (hm : w.hub.members[n]? = some m) (hk : m.reg = some k)
    (hc : w.hub.reg.table[k]? = some c) (hph : c.phase = .serving)
    (hi : (⟨p.fin, m.fin, p.toCs, p.toCp⟩ : Sys F o₁ o₂) = Sys.init F o₁ o₂)
    (ht : Sys.Exec t x) (hx : x.cs.crashed = false) :
    ∃ reg', Run csURL w (lift n ⟨c.cp, m.request⟩ t) ⟨⟨reg', w.hub.members.set n { m with fin := x.cs }⟩, w.peers.set n (some ⟨p.identity, x.cp, x.toCs, x.toCp⟩)⟩ ∧
      (∃ d, reg'.table[k]? = some d ∧ d.cp = c.cp ∧ d.phase = .serving) ∧ reg'.conns = w.hub.reg.conns := by
  induction ht with
  | nil =>
    refine ⟨w.hub.reg, ?_, ⟨c, hc, rfl, hph⟩, rfl⟩
    rw [← hi]
    have h1 : w.hub.members.set n { m with fin := m.fin } = w.hub.members := by
      obtain ⟨h3, h4⟩ := List.getElem?_eq_some_iff.1 hm
      rw [← h4]; simp
    have h2 : w.peers.set n (some ⟨p.identity, p.fin, p.toCs, p.toCp⟩) = w.peers := by
      obtain ⟨h3, h4⟩ := List.getElem?_eq_some_iff.1 hp
      have : (some ⟨p.identity, p.fin, p.toCs, p.toCp⟩ : Option (Peer F o₁)) = some p := rfl
      rw [this, ← h4]; simp
    simp only at h1 h2 ⊢
    rw [h1, h2]; exact .nil
  | @snoc t e x y ht hs ih =>
    have hxc := World.sys_not_crashed hs hx
    obtain ⟨reg', h1, ⟨d, h2, h3, h4⟩, h5⟩ := ih hxc
    have hlt := lt_of_get hm
    have hltp := lt_of_get hp
    obtain ⟨reg2, g1, ⟨d', g2, g3, g4⟩, g5, -⟩ := C109_free (csURL := csURL)
      (w := ⟨⟨reg', w.hub.members.set n { m with fin := x.cs }⟩, w.peers.set n (some ⟨p.identity, x.cp, x.toCs, x.toCp⟩)⟩)
      (n := n) (k := k) (p := ⟨p.identity, x.cp, x.toCs, x.toCp⟩) (m := { m with fin := x.cs }) (c := d) (by
        intro l hl
        rcases List.mem_or_eq_of_mem_set hl with h | rfl
        · exact ha l h
        · exact hxc) (by simp [hltp]) (by simp [hlt]) hk h2 h4 e y hs
    refine ⟨reg2, ?_, ⟨d', g2, g3.trans h3, g4⟩, g5.trans h5⟩
    have happ : lift n ⟨c.cp, m.request⟩ (t ++ [e]) = lift n ⟨c.cp, m.request⟩ t ++ lift n ⟨c.cp, m.request⟩ [e] := by simp [lift]
    rw [happ]
    have key : ∀ {a b z : St F o₁ o₂} {t1 t2}, Run csURL a t1 b → Run csURL b t2 z → Run csURL a (t1 ++ t2) z := by
      intro a b z t1 t2 r1 r2
      induction r2 with
      | nil => simpa using r1
      | snoc _ hs' ih' => rw [← List.append_assoc]; exact .snoc ih' hs'
    rw [h3] at g1
    simp only [List.set_set] at g1
    exact key h1 g1

theorem Run.append {a b z : St F o₁ o₂} {t1 t2} (r1 : Run csURL a t1 b) (r2 : Run csURL b t2 z) : Run csURL a (t1 ++ t2) z := by
  induction r2 with
  | nil => simpa using r1
  | snoc _ hs' ih' => rw [← List.append_assoc]; exact .snoc ih' hs'

theorem register_get (s : Registry.St) (id : String) : (s.register id).conns.get id = some s.table.length := by
  unfold Registry.St.register Registry.St.ensureChan Registry.St.closeChan
  simp only
  repeat' split
  all_goals simp [GoMap.get_put]

theorem alive_snoc {reg reg' : Registry.St} {ms : List (Hub.Member F o₂)} {r : Hub.Upgrade} {x} (h : (⟨reg, ms⟩ : Hub.St F o₂).alive) :
    (⟨reg', ms ++ [⟨r, Conn.init _, x⟩]⟩ : Hub.St F o₂).alive := by
  intro m hm
  simp only [List.mem_append, List.mem_singleton] at hm
  rcases hm with hm | rfl
  · exact h m hm
  · rfl

/-- A charge point dials and is registered and served. -/
theorem join (ha : w.hub.alive) {identity id : Text} {key : String} {rest : Text} (hk : key ≠ "") (hid : Http.registeredAs csURL identity = some id) :
    ∃ reg1, Run csURL w [.dial w.hub.members.length identity key rest, .cs (.register w.hub.members.length w.hub.reg.table.length (String.ofList id)),
        .cs (.reg (.notify w.hub.reg.table.length (String.ofList id)))]
      ⟨⟨reg1, w.hub.members ++ [⟨Hub.dialled csURL identity "V16" key rest, Conn.init _, some w.hub.reg.table.length⟩]⟩,
        w.peers ++ [some ⟨identity, Conn.init _, [], []⟩]⟩ ∧
      reg1.table[w.hub.reg.table.length]? = some ⟨String.ofList id, .serving, false, false, false⟩ ∧
      reg1.conns.get (String.ofList id) = some w.hub.reg.table.length ∧ reg1.table.length = w.hub.reg.table.length + 1 := by
  have hacc := Hub.dialled_names (version := "V16") (rest := rest) hk hid
  have r1 := Run.snoc (.nil (w := w)) (Step.dial (csURL := csURL) (rest := rest) hk hid (Hub.Step.upgrade ha hacc))
  have r2 := Run.snoc r1 (Step.other (Hub.Step.register (n := w.hub.members.length)
    (m := ⟨Hub.dialled csURL identity "V16" key rest, Conn.init _, none⟩) (id := id) (alive_snoc ha) (by simp) rfl hacc
    (Registry.Step.handshake (String.ofList id))) (by simp) (by simp))
  simp only [Hub.set_last] at r2
  have t1 := register_table w.hub.reg (String.ofList id)
  have c1 := register_get w.hub.reg (String.ofList id)
  generalize hreg : Registry.St.register w.hub.reg (String.ofList id) = reg1 at r2 t1 c1
  have r3 := Run.snoc r2 (Step.other (Hub.Step.reg (e := .notify w.hub.reg.table.length (String.ofList id)) (alive_snoc ha)
    (Registry.Step.notify (s := reg1) (n := w.hub.reg.table.length) (c := ⟨String.ofList id, .registered, false, false, false⟩) (by rw [t1]; simp) rfl)
    (by simp) (by simp) (by simp)) (by simp) (by simp))
  exact ⟨_, r3, by simp [t1], c1, by simp [t1]⟩

/-- A stranger connects under an id and is registered. -/
theorem intrude (ha : w.hub.alive) {r : Hub.Upgrade} {id : Text} (hs : Http.serve r.toRequest = .websocket id) (ho : Http.OpeningHandshake r.toWsRequest) :
    ∃ reg1, Run csURL w [.cs (.upgrade w.hub.members.length r), .cs (.register w.hub.members.length w.hub.reg.table.length (String.ofList id))]
      ⟨⟨reg1, w.hub.members ++ [⟨r, Conn.init _, some w.hub.reg.table.length⟩]⟩, w.peers ++ [none]⟩ ∧
      reg1.conns.get (String.ofList id) = some w.hub.reg.table.length ∧
      ∀ (j : Nat) c, w.hub.reg.table[j]? = some c → reg1.table[j]? = some c := by
  have hacc := Hub.accept_names hs ho
  have r1 := Run.snoc (.nil (w := w)) (Step.stranger (csURL := csURL) (Hub.Step.upgrade ha hacc))
  have r2 := Run.snoc r1 (Step.other (Hub.Step.register (n := w.hub.members.length)
    (m := ⟨r, Conn.init _, none⟩) (id := id) (alive_snoc ha) (by simp) rfl hacc
    (Registry.Step.handshake (String.ofList id))) (by simp) (by simp))
  simp only [Hub.set_last] at r2
  have t1 := register_table w.hub.reg (String.ofList id)
  have c1 := register_get w.hub.reg (String.ofList id)
  exact ⟨_, r2, c1, fun j c hc => by rw [t1]; exact get_left hc⟩

theorem onLink_lift (n : Nat) (about : Hub.Metadata) (t : List (Conn.Ev (ocppj F o₁ .cp) ⊕ Conn.Ev (ocppj F o₂ .cs))) :
    onLink n (lift n about t) = t := by
  induction t with
  | nil => rfl
  | cons e t ih =>
    have : lift n about (e :: t) = lift n about [e] ++ lift n about t := by simp [lift]
    rw [this, onLink_append, ih]
    rcases e with e | e <;> simp [lift, onLink]

theorem alive_set {reg reg' : Registry.St} {ms : List (Hub.Member F o₂)} {n : Nat} {m : Hub.Member F o₂} (h : (⟨reg, ms⟩ : Hub.St F o₂).alive)
    (hm : m.fin.crashed = false) : (⟨reg', ms.set n m⟩ : Hub.St F o₂).alive := by
  intro l hl
  rcases List.mem_or_eq_of_mem_set hl with h' | rfl
  · exact h l h'
  · exact hm

/-- **C109** Whatever has happened, as long as the process is up: a charge point can dial, is registered under its identity and given by
`GetServiceOf`, and then whatever can happen on a connection alone (such as the round trips of C57) can happen on its connection, with
nobody else doing anything. -/
theorem C109_served (h : Exec csURL tr w) (ha : w.hub.alive) (identity id : Text) (hid : Http.registeredAs csURL identity = some id)
    (t : List (Conn.Ev (ocppj F o₁ .cp) ⊕ Conn.Ev (ocppj F o₂ .cs))) (x : Sys F o₁ o₂) (ht : Sys.Exec t x) (hx : x.cs.crashed = false) :
    ∃ n k tr' w', Run csURL w tr' w' ∧ Dialled tr' n identity ∧ Accepted tr' n k (String.ofList id) ∧ (∀ i, ¬ Dialled tr n i) ∧
      w'.hub.alive ∧ onLink n (tr ++ tr') = t ∧ (∀ m, m ≠ n → onLink m tr' = []) ∧
      ∀ url, w'.hub.reg.getServiceOf (String.ofList id) "V16" url = .ok (.json k) := by
  obtain ⟨reg1, r1, h1, h2, h3⟩ := join (csURL := csURL) (w := w) (rest := []) (key := "AAAAAAAAAAAAAAAAAAAAAA==") ha (by decide) hid
  have hlen := h.inv.size
  obtain ⟨reg2, r2, -, h4⟩ := lift_run (csURL := csURL) (n := w.hub.members.length) (p := ⟨identity, Conn.init _, [], []⟩)
    (w := ⟨⟨reg1, w.hub.members ++ [⟨Hub.dialled csURL identity "V16" "AAAAAAAAAAAAAAAAAAAAAA==" [], Conn.init _, some w.hub.reg.table.length⟩]⟩,
        w.peers ++ [some ⟨identity, Conn.init _, [], []⟩]⟩)
    (alive_snoc ha) (by simp [← hlen]) (by simp; rfl) rfl h1 rfl rfl ht hx
  refine ⟨w.hub.members.length, w.hub.reg.table.length, _, _, r1.append r2, ?_, ?_, ?_, ?_, ?_, ?_, ?_⟩
  · exact ⟨_, _, by simp; exact .inl ⟨rfl, rfl⟩⟩
  · simp [Accepted]
  · rintro i ⟨key, rest, hd⟩
    obtain ⟨p, hp, -⟩ := h.inv.dialled _ _ _ _ hd
    have := lt_of_get hp
    omega
  · exact alive_set (alive_snoc ha (reg' := reg1)) hx
  · rw [onLink_append, onLink_append, onLink_lift, h.inv.none _ (Nat.le_refl _)]
    simp [onLink]
  · intro m hm
    rw [onLink_append]
    have : ∀ (about : Hub.Metadata) (t : List (Conn.Ev (ocppj F o₁ .cp) ⊕ Conn.Ev (ocppj F o₂ .cs))), onLink m (lift w.hub.members.length about t) = [] := by
      intro about t
      induction t with
      | nil => rfl
      | cons e t ih =>
        have : lift w.hub.members.length about (e :: t) = lift w.hub.members.length about [e] ++ lift w.hub.members.length about t := by simp [lift]
        rw [this, onLink_append, ih]
        rcases e with e | e <;> simp [lift, onLink, Ne.symm hm]
    rw [this]
    simp [onLink]
  · intro url
    unfold Registry.St.getServiceOf
    simp only [show ("V16" : String) ≠ "V15" by decide, if_false, if_true, h4, h2]

/-- **C109** A charge point whose place is taken does not notice: whatever has happened, a charge point can dial and be registered, a
stranger can then connect under its id, and from then on `GetServiceOf` never gives the charge point's connection; but whatever can
happen on a connection alone can happen on it, so its requests are answered as ever. -/
theorem C109_takenOver (h : Exec csURL tr w) (ha : w.hub.alive) (identity id : Text) (hid : Http.registeredAs csURL identity = some id)
    (r : Hub.Upgrade) (hs : Http.serve r.toRequest = .websocket id) (ho : Http.OpeningHandshake r.toWsRequest)
    (t : List (Conn.Ev (ocppj F o₁ .cp) ⊕ Conn.Ev (ocppj F o₂ .cs))) (x : Sys F o₁ o₂) (ht : Sys.Exec t x) (hx : x.cs.crashed = false) :
    ∃ n k j tr' w', Run csURL w tr' w' ∧ Dialled tr' n identity ∧ Accepted tr' n k (String.ofList id) ∧ w'.hub.alive ∧ onLink n (tr ++ tr') = t ∧
      (∀ url, w'.hub.reg.getServiceOf (String.ofList id) "V16" url = .ok (.json j)) ∧
      ∀ tr'' w'', Run csURL w' tr'' w'' → ∀ url, w''.hub.reg.getServiceOf (String.ofList id) "V16" url ≠ .ok (.json k) := by
  obtain ⟨reg1, r1, h1, h2, h3⟩ := join (csURL := csURL) (w := w) (rest := []) (key := "AAAAAAAAAAAAAAAAAAAAAA==") ha (by decide) hid
  have hlen := h.inv.size
  obtain ⟨reg2, r2, h5, h6⟩ := intrude (csURL := csURL)
    (w := ⟨⟨reg1, w.hub.members ++ [⟨Hub.dialled csURL identity "V16" "AAAAAAAAAAAAAAAAAAAAAA==" [], Conn.init _, some w.hub.reg.table.length⟩]⟩,
        w.peers ++ [some ⟨identity, Conn.init _, [], []⟩]⟩) (alive_snoc ha) hs ho
  obtain ⟨reg3, r3, -, h7⟩ := lift_run (csURL := csURL) (n := w.hub.members.length) (p := ⟨identity, Conn.init _, [], []⟩)
    (w := ⟨⟨reg2, (w.hub.members ++ [⟨Hub.dialled csURL identity "V16" "AAAAAAAAAAAAAAAAAAAAAA==" [], Conn.init _, some w.hub.reg.table.length⟩]) ++
        [⟨r, Conn.init _, some reg1.table.length⟩]⟩, (w.peers ++ [some ⟨identity, Conn.init _, [], []⟩]) ++ [none]⟩)
    (alive_snoc (alive_snoc ha (reg' := reg1))) (get_left (by simp [← hlen])) (get_left (by simp; rfl)) rfl (h6 _ _ h1) rfl rfl ht hx
  have hrun := (r1.append r2).append r3
  have hex := h.append hrun
  refine ⟨w.hub.members.length, w.hub.reg.table.length, reg1.table.length, _, _, hrun, ?_, ?_, ?_, ?_, ?_, ?_⟩
  · exact ⟨_, _, by simp; exact .inl ⟨rfl, rfl⟩⟩
  · simp [Accepted]
  · exact alive_set (alive_snoc (alive_snoc ha (reg' := reg1)) (reg' := reg2)) hx
  · rw [onLink_append, onLink_append, onLink_append, onLink_lift, h.inv.none _ (Nat.le_refl _)]
    simp [onLink]
  · intro url
    unfold Registry.St.getServiceOf
    simp only [show ("V16" : String) ≠ "V15" by decide, if_false, if_true, h7, h5]
  · intro tr'' w'' hr url
    have hex2 := hex.append hr
    intro hg
    obtain ⟨-, m, hl⟩ := ((Hub.C108_service hex2.inv.hub (String.ofList id) url).1 _).1 hg
    have := hl.2 (w.hub.members.length + 1) reg1.table.length (accepted_iff.2 (by simp [Accepted]))
    omega

/-- Round trips of this kind, and a stranger of this kind. -/
example (host : Text) (hh : Http.PlainHost host) : Http.registeredAs host "CP-1".toList = some "CP-1".toList ∧
    ∃ r : Hub.Upgrade, Http.serve r.toRequest = .websocket "CP-1".toList ∧ Http.OpeningHandshake r.toWsRequest := by
  refine ⟨(Http.C41_identity host hh [] (by simp) _ ⟨by decide, ?_, by decide, by decide⟩).2,
    ⟨Http.wsDialRequest "V16" "AAAAAAAAAAAAAAAAAAAAAA==" "/CP-1".toList, []⟩, by decide +kernel,
    ⟨rfl, ?_, by simp [Http.wsDialRequest], by simp [Http.wsDialRequest]⟩⟩
  · intro c hc; unfold Http.Unreserved; revert c; decide
  · exact (Http.isUpgrade_iff _).1 (by simp [Http.Request.isUpgrade, Http.wsDialRequest, Http.dialRequest])

end Verif.Company
