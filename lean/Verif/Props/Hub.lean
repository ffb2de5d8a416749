import Verif.Lemmas.Hub
import Verif.Props.Handshake
import Verif.Props.World
import Verif.Props.HttpExact
/-!
# A central system and whoever connects to it

Property C108.
-/
set_option linter.unusedSimpArgs false
namespace Verif.Hub
open Conn Codec Ocppj Json Decode Encode Trip
open World (get_snoc get_left set_get lt_of_get register_table own own_iff)

variable {F : FloatFmt} {o : Order} {tr tr' : List (Ev F o)} {s s' : St F o}

theorem mem_connEvents {n : Nat} {e : Conn.Ev (ocppj F o .cs)} : e ∈ connEvents n tr ↔ ∃ about, Ev.conn n about e ∈ tr := by
  simp only [connEvents, List.mem_filterMap]
  constructor
  · rintro ⟨e', h1, h2⟩
    cases e' <;> simp at h2
    obtain ⟨rfl, rfl⟩ := h2; exact ⟨_, h1⟩
  · rintro ⟨about, h⟩; exact ⟨_, h, by simp⟩

theorem Exec.append (h : Exec tr s) (hr : Run s tr' s') : Exec (tr ++ tr') s' := by
  induction hr with
  | nil => simpa using h
  | snoc _ hs ih => rw [← List.append_assoc]; exact .snoc ih hs

theorem Exec.split {t : List (Ev F o)} (h : Exec t s) : ∀ {t1 e t2}, t = t1 ++ e :: t2 → ∃ a b, Exec t1 a ∧ Step a e b := by
  induction h with
  | nil => intro t1 e t2 he; simp at he
  | @snoc tr e' s s' hx hs ih =>
    intro t1 e t2 he
    rcases List.eq_nil_or_concat t2 with rfl | ⟨t3, x, rfl⟩
    · obtain ⟨rfl, h2⟩ := List.append_inj' he rfl
      simp only [List.cons.injEq, and_true] at h2
      subst h2
      exact ⟨s, s', hx, hs⟩
    · have : tr ++ [e'] = (t1 ++ e :: t3) ++ [x] := by simpa using he
      obtain ⟨h1, -⟩ := List.append_inj' this rfl
      exact ih h1

/-- The path of a request that names an id. -/
theorem Names.path {r : Upgrade} {id : Text} (h : Names r id) : Http.OpeningHandshake r.toWsRequest ∧ r.path = '/' :: id := by
  obtain ⟨p, h⟩ := h
  unfold Http.accept at h
  split at h
  · next i hs =>
    have hg : Http.OpeningHandshake r.toWsRequest := by
      by_contra hn
      rw [(Http.C78_handshake ["V16"] r.toWsRequest).2 hn] at h
      cases h
    refine ⟨hg, ?_⟩
    have hi : i = id := by
      split at h
      · cases h
      · cases h; rfl
    subst hi
    obtain ⟨h1, -, h2⟩ := ((Http.C42_serve r.toRequest).2.2.1 i).1 hs
    rcases h2 with h2 | ⟨h2, h3⟩
    · exact h2
    · rcases h1 with h1 | ⟨t, h1, -⟩
      · have := hg.get
        rw [h1] at this; exact absurd this (by decide)
      · exact absurd (h2.symm.trans h1) (h3 t)
  · cases h

theorem Exec.connMeta (h : Exec tr s) {n : Nat} {about : Metadata} {e : Conn.Ev (ocppj F o .cs)} (he : Ev.conn n about e ∈ tr) :
    Upgraded tr n about.httpRequest ∧ (∃ k, Accepted tr n k about.chargePointID) ∧ Names about.httpRequest about.chargePointID.toList := by
  induction h with
  | nil => simp at he
  | @snoc tr e' s s' hx hs ih =>
    rw [List.mem_append, List.mem_singleton] at he
    rcases he with he | rfl
    · obtain ⟨h1, ⟨k, h2⟩, h3⟩ := ih he
      exact ⟨List.mem_append_left _ h1, ⟨k, List.mem_append_left _ h2⟩, h3⟩
    · cases hs with
      | @conn _ k _ m c fin' hal hl hlk hc hst hloop =>
        obtain ⟨c', h1, h2, h3, h4⟩ := hx.inv.regd n k m hl hlk
        rw [hc] at h1; cases h1
        exact ⟨List.mem_append_left _ (hx.inv.named n m hl).1, ⟨k, List.mem_append_left _ h3⟩, h4⟩

theorem Exec.upgraded_unique (h : Exec tr s) {n : Nat} {r r' : Upgrade} (h1 : Upgraded tr n r) (h2 : Upgraded tr n r') : r = r' := by
  obtain ⟨l, ha, hb⟩ := h.inv.dialled _ _ h1
  obtain ⟨l', ha', hb'⟩ := h.inv.dialled _ _ h2
  rw [ha] at ha'; cases ha'
  exact hb.symm.trans hb'

theorem Exec.accepted_unique (h : Exec tr s) {n m k j : Nat} {id id' : String} (h1 : Accepted tr n k id) (h2 : Accepted tr m j id') :
    n = m ↔ k = j ∧ id = id' := by
  obtain ⟨l, c, ha, hb, hc, hd⟩ := h.inv.accepted _ _ _ h1
  obtain ⟨l', c', ha', hb', hc', hd'⟩ := h.inv.accepted _ _ _ h2
  constructor
  · rintro rfl
    rw [ha] at ha'; cases ha'
    rw [hb] at hb'; cases hb'
    rw [hc] at hc'; cases hc'
    exact ⟨rfl, hd.symm.trans hd'⟩
  · rintro ⟨rfl, -⟩
    exact h.inv.inj _ _ _ _ _ ha ha' hb hb'

theorem Exec.acceptedNames (h : Exec tr s) {n k : Nat} {id : String} (ha : Accepted tr n k id) :
    ∃ r, Upgraded tr n r ∧ Names r id.toList := by
  obtain ⟨l, c, h1, h2, h3, h4⟩ := h.inv.accepted _ _ _ ha
  obtain ⟨c', h5, h6, h7, h8⟩ := h.inv.regd n k l h1 h2
  rw [h3] at h5; cases h5
  exact ⟨l.request, (h.inv.named n l h1).1, by rw [← h4]; exact h8⟩

/-- **C108** Whatever the clients of a central system do, what happens on each connection is a history of a connection by itself (so that
everything said of a connection holds of each: C20 to C31, C65, C77, C92, …). -/
theorem C108_connection (h : Exec tr s) (n : Nat) (r : Upgrade) (hu : Upgraded tr n r) :
    ∃ fin, Conn.Exec .cs (connEvents n tr) fin := by
  obtain ⟨l, h1, -⟩ := h.inv.dialled _ _ hu
  exact ⟨_, h.inv.ends n l h1⟩

/-- **C108** And nobody else can hinder it: while the process is up, whatever a served connection could do by itself it can do. -/
theorem C108_free (h : Exec tr s) (ha : s.alive) (n k : Nat) (m : Member F o) (hm : s.members[n]? = some m) (hk : m.reg = some k)
    (c : Registry.CState) (hc : s.reg.table[k]? = some c) (hp : c.phase = .serving) (e : Conn.Ev (ocppj F o .cs)) (fin' : Conn.St (ocppj F o .cs))
    (hs : Conn.Step .cs m.fin e fin') :
    ∃ s', Step s (.conn n ⟨c.cp, m.request⟩ e) s' ∧ s'.members[n]? = some { m with fin := fin' } ∧
      ∀ j, j ≠ n → s'.members[j]? = s.members[j]? := by
  refine ⟨_, .conn ha hm hk hc hs (fun _ => hp), by simp [lt_of_get hm], ?_⟩
  intro j hj
  simp [List.getElem?_set_ne (Ne.symm hj)]

/-- **C108** What a handler is told about a request, `ChargePointRequestMetadata`, is true: the HTTP request is the one with which the
connection was made on which the text of the request had been read before, it asked for a websocket by a complete opening handshake, and
the charge point id is its path without the first slash.  It is the same for all requests of a connection. -/
theorem C108_handlerCall (n k : Nat) (about : Metadata) (mid : String) (r : Req) (q : Option Req)
    (h : Exec (tr ++ Ev.conn n about (.take (S := ocppj F o .cs) k mid r (some q)) :: tr') s) :
    q = some r ∧ Upgraded tr n about.httpRequest ∧ (∀ r', Upgraded (tr ++ Ev.conn n about (.take k mid r (some q)) :: tr') n r' → r' = about.httpRequest) ∧
    Http.OpeningHandshake about.httpRequest.toWsRequest ∧ about.httpRequest.path = '/' :: about.chargePointID.toList ∧
    (∃ k' about' t, Ev.conn n about' (.read (S := ocppj F o .cs) k' t) ∈ tr ∧ requestIn (S := ocppj F o .cs) t = some (mid, r)) := by
  obtain ⟨a, b, hx, hs⟩ := h.split rfl
  have hx' := hx.snoc hs
  have hm := hx'.connMeta (n := n) (about := about) (e := .take k mid r (some q)) (by simp)
  obtain ⟨h1, -, h3⟩ := hm
  obtain ⟨h4, h5⟩ := h3.path
  have h1' : Upgraded tr n about.httpRequest := by
    simpa [Upgraded] using h1
  refine ⟨?_, h1', ?_, h4, h5, ?_⟩
  · cases hs with
    | conn _ _ _ _ hst _ =>
      have key : ∀ {x : Conn.St (ocppj F o .cs)} {e y qq}, Conn.Step .cs x e y → e = .take k mid r qq → qq = some (some r) ∨ qq = none := by
        intro x e y qq hst he
        cases hst <;> cases he
        unfold afterTake
        split
        · exact .inl rfl
        · exact .inr rfl
      rcases key hst rfl with h9 | h9
      · cases h9; rfl
      · cases h9
  · intro r' hr'
    exact h.upgraded_unique hr' (by simp [Upgraded] at h1' ⊢; exact .inl h1')
  · cases hs with
    | @conn _ _ _ m c fin' hal hl hlk hc hst hloop =>
      have hex := (hx.inv.ends n m hl).snoc hst
      obtain ⟨pending, hpe, -⟩ := C23_requests_in_order hex
      have hin : ((mid, r) : String × Req) ∈ (framesRead (connEvents n tr ++ [.take k mid r (some q)])).filterMap (requestIn (S := ocppj F o .cs)) := by
        rw [hpe]
        exact List.mem_append_left _ (List.mem_filterMap.2 ⟨.take k mid r (some q), by simp, rfl⟩)
      obtain ⟨t, ht1, ht2⟩ := List.mem_filterMap.1 hin
      unfold framesRead at ht1
      rw [List.mem_filterMap] at ht1
      obtain ⟨e, he1, he2⟩ := ht1
      rw [List.mem_append, List.mem_singleton] at he1
      rcases he1 with he1 | rfl
      · split at he2
        · cases he2
          obtain ⟨about', h6⟩ := mem_connEvents.1 he1
          exact ⟨_, about', t, h6, ht2⟩
        · cases he2
      · cases he2

/-- **C108** A `Send` is answered by nobody but the client at the other end of its connection: what it returns as the answer is made
of a text that was read on this connection, after the call was made, and carries its message id.  A client that knows or guesses the
message ids of other connections cannot answer. -/
theorem C108_answered (h : Exec tr s) (n i : Nat) (about : Metadata) (x : Conn.Answer (ocppj F o .cs))
    (hf : Ev.conn n about (.finish i x) ∈ tr) :
    ∃ k t mid q, AnswerTo (S := ocppj F o .cs) mid ((ocppj F o .cs).action q) t x ∧
      [Conn.Ev.read k t, .dispatch k, .deliver k i, .finish i x].Sublist (connEvents n tr) ∧
      [Conn.Ev.send i mid q, .regSent i, .dispatch k, .deliver k i, .finish i x].Sublist (connEvents n tr) := by
  obtain ⟨h1, -, -⟩ := h.connMeta hf
  obtain ⟨fin, hx⟩ := C108_connection h n _ h1
  obtain ⟨k, t, mid, q, h2, h3, h4⟩ := (C21_responses_never_crossed hx).1 i x (mem_connEvents.2 ⟨_, hf⟩)
  exact ⟨k, t, mid, q, h2, h3, h4⟩

theorem Exec.conns (h : Exec tr s) (id : String) :
    (∀ k, s.reg.conns.get id = some k ↔ Registered tr id ∧ ∃ n, Latest tr n k id) ∧ (s.reg.conns.get id = none ↔ ¬ Registered tr id) := by
  obtain ⟨trR, hR, hR1, -, hR3⟩ := h.inv.reg
  have hcl : ∀ k, Registry.Cleaned trR k ↔ Ev.reg (.cleanup k) ∈ tr := fun k => by
    rw [← mem_regEvents, ← hR3]; simp [Registry.Cleaned, own]
  have hm : ∀ k id, Registry.Made trR k id ↔ ∃ n, Accepted tr n k id := fun n id => hR1 n id
  have hend : ∀ n k, Accepted tr n k id → (Ended tr n ↔ Ev.reg (.cleanup k) ∈ tr) := by
    intro n k ha
    constructor
    · rintro ⟨j, id', h1, h2⟩
      obtain ⟨rfl, -⟩ := (h.accepted_unique ha h1).1 rfl
      exact h2
    · intro hc; exact ⟨k, id, ha, hc⟩
  have hreg : Registry.Registered trR id ↔ Registered tr id := by
    simp only [Registry.Registered, Registry.Open, Registered, hm, hcl]
    constructor
    · rintro ⟨k, ⟨n, h1⟩, h2⟩; exact ⟨n, k, h1, fun he => h2 ((hend n k h1).1 he)⟩
    · rintro ⟨n, k, h1, h2⟩; exact ⟨k, ⟨n, h1⟩, fun he => h2 ((hend n k h1).2 he)⟩
  have hnew : ∀ k, Registry.Newest trR k id ↔ ∃ n, Latest tr n k id := by
    intro n
    simp only [Registry.Newest, Latest, hm]
    constructor
    · rintro ⟨⟨m, h1⟩, h2⟩; exact ⟨m, h1, fun m' i hi => h2 i ⟨m', hi⟩⟩
    · rintro ⟨m, h1, h2⟩; exact ⟨⟨m, h1⟩, fun m' ⟨i, hi⟩ => h2 i m' hi⟩
  refine ⟨fun n => ?_, ?_⟩
  · rw [Registry.conns_get hR, hreg, hnew]
  · rw [Registry.conns_none hR, hreg]

/-- **C108** `GetServiceOf(id, V16)` gives a connection exactly if somebody is registered as `id`: the last one that was, and that is
whoever asked for a websocket under the path `/id`. -/
theorem C108_service (h : Exec tr s) (id url : String) :
    (∀ k, s.reg.getServiceOf id "V16" url = .ok (.json k) ↔ Registered tr id ∧ ∃ n, Latest tr n k id) ∧
    ((∃ e, s.reg.getServiceOf id "V16" url = .err e) ↔ ¬ Registered tr id) ∧
    (∀ n k, Accepted tr n k id → ∃ r, Upgraded tr n r ∧ r.path = '/' :: id.toList) := by
  obtain ⟨h1, h2⟩ := h.conns id
  refine ⟨fun n => ?_, ?_, fun n k hi => ?_⟩
  · rw [← h1]
    unfold Registry.St.getServiceOf
    simp only [show ("V16" : String) ≠ "V15" by decide, if_false, if_true]
    cases s.reg.conns.get id <;> simp
  · rw [← h2]
    unfold Registry.St.getServiceOf
    simp only [show ("V16" : String) ≠ "V15" by decide, if_false, if_true]
    cases s.reg.conns.get id <;> simp
  · obtain ⟨r, h3, h4⟩ := h.acceptedNames hi
    exact ⟨r, h3, h4.path.2⟩

theorem accept_names {r : Upgrade} {id : Text} (hs : Http.serve r.toRequest = .websocket id) (ho : Http.OpeningHandshake r.toWsRequest) :
    Http.accept r.toWsRequest = some (.switched "ocpp1.6", some id) := (Http.C78_centralSystem r.toWsRequest id hs).1 ho

theorem alive_append {r : Upgrade} {x} (h : s.alive) : (⟨s.reg, s.members ++ [⟨r, Conn.init _, x⟩]⟩ : St F o).alive := by
  intro m hm
  simp only [List.mem_append, List.mem_singleton] at hm
  rcases hm with hm | rfl
  · exact h m hm
  · rfl

theorem set_last {α : Type} (l : List α) (a b : α) : (l ++ [a]).set l.length b = l ++ [b] := by
  induction l with
  | nil => rfl
  | cons x l ih => simp [ih]

/-- **C108** Anybody can take the place of a charge point: at any time, whoever makes a connection under the path `/id`, with whatever
other headers, is from then on the one that `GetServiceOf(id, V16)` gives. -/
theorem C108_takeover (h : Exec tr s) (ha : s.alive) (r : Upgrade) (id : Text) (hs : Http.serve r.toRequest = .websocket id)
    (ho : Http.OpeningHandshake r.toWsRequest) (url : String) :
    ∃ n k s', Run s [.upgrade n r, .register n k (String.ofList id)] s' ∧ (∀ r', ¬ Upgraded tr n r') ∧
      s'.reg.getServiceOf (String.ofList id) "V16" url = .ok (.json k) := by
  have hacc := accept_names hs ho
  have r1 := Run.snoc (.nil (s := s)) (Step.upgrade ha hacc)
  have r2 := Run.snoc r1 (Step.register (n := s.members.length) (m := ⟨r, Conn.init _, none⟩) (id := id) (alive_append ha) (by simp) rfl hacc
    (Registry.Step.handshake (String.ofList id)))
  refine ⟨_, _, _, r2, ?_, ?_⟩
  · intro r' hu
    obtain ⟨l, h1, -⟩ := h.inv.dialled _ _ hu
    exact absurd (lt_of_get h1) (by simp)
  · have hx := h.append r2
    refine ((C108_service hx _ url).1 _).2 ⟨⟨s.members.length, s.reg.table.length, by simp [Accepted], ?_⟩, s.members.length, ?_, ?_⟩
    · rintro ⟨k, id', h1, h2⟩
      have h3 : Accepted (tr ++ ([] ++ [Ev.upgrade s.members.length r] ++ [Ev.register s.members.length s.reg.table.length (String.ofList id)]))
        s.members.length s.reg.table.length (String.ofList id) := by simp [Accepted]
      obtain ⟨rfl, -⟩ := (hx.accepted_unique h1 h3).1 rfl
      simp at h2
      have h4 := mem_regEvents.2 h2
      obtain ⟨trR, hR, hR1, -, hR3⟩ := h.inv.reg
      rw [← hR3] at h4
      have h5 := (List.mem_filter.1 h4).1
      obtain ⟨c, h6, -⟩ := (Registry.Exec.hist hR).cleaned _ |>.1 h5
      exact absurd (lt_of_get h6) (by simp)
    · simp [Accepted]
    · intro m j hj
      obtain ⟨l, c, h1, h2, h3, h4⟩ := hx.inv.accepted _ _ _ hj
      have := lt_of_get h3
      rw [register_table] at this
      simp at this ⊢
      omega

/-- **C108** And from then on `GetServiceOf(id, V16)` never again gives the connection that was there before. -/
theorem C108_lost (h : Exec tr s) (id url : String) (n k n' k' : Nat) (_ha : Accepted tr n k id) (hb : Accepted tr n' k' id) (hk : k < k')
    (hr : Run s tr' s') : s'.reg.getServiceOf id "V16" url ≠ .ok (.json k) := by
  intro hg
  obtain ⟨-, m, hl⟩ := ((C108_service (h.append hr) id url).1 k).1 hg
  have := hl.2 n' k' (List.mem_append_left _ hb)
  omega

/-- **C108** Anybody can end the process: at any time, whoever makes a connection, under any path, and sends one text of a value on which
the library crashes (C12; for example `[]`), with nobody else doing anything; the handler is not called. -/
theorem C108_ended (_h : Exec tr s) (ha : s.alive) (r : Upgrade) (id : Text) (hs : Http.serve r.toRequest = .websocket id)
    (ho : Http.OpeningHandshake r.toWsRequest) (t : Text) (j : JVal) (hj : JsonText j (normalise t)) (hi : InRange j) (hc : Crashing j) :
    ∃ n k about s', Run s [.upgrade n r, .register n k (String.ofList id), .reg (.notify k (String.ofList id)), .conn n about (.spawn 0),
        .conn n about (.read (S := ocppj F o .cs) 0 t), .conn n about (.dispatch 0)] s' ∧ ¬ s'.alive ∧
      ∀ tr'' s'', Run s' tr'' s'' → tr'' = [] := by
  have hacc := accept_names hs ho
  have r1 := Run.snoc (.nil (s := s)) (Step.upgrade ha hacc)
  have r2 := Run.snoc r1 (Step.register (n := s.members.length) (m := ⟨r, Conn.init _, none⟩) (id := id) (alive_append ha) (by simp) rfl hacc
    (Registry.Step.handshake (String.ofList id)))
  simp only [set_last] at r2
  generalize hreg : Registry.St.register s.reg (String.ofList id) = reg1 at r2
  have t1 : reg1.table = s.reg.table ++ [⟨String.ofList id, .registered, false, false, false⟩] := by rw [← hreg]; exact register_table _ _
  have al : ∀ (reg : Registry.St) (fin : Conn.St (ocppj F o .cs)), fin.crashed = false →
      (⟨reg, s.members ++ [⟨r, fin, some s.reg.table.length⟩]⟩ : St F o).alive := by
    intro reg fin hf m hm
    simp only [List.mem_append, List.mem_singleton] at hm
    rcases hm with hm | rfl
    · exact ha m hm
    · exact hf
  have r3 := Run.snoc r2 (Step.reg (e := .notify s.reg.table.length (String.ofList id)) (al _ _ rfl)
    (Registry.Step.notify (s := reg1) (n := s.reg.table.length) (c := ⟨String.ofList id, .registered, false, false, false⟩) (by rw [t1]; simp) rfl)
    (by simp) (by simp) (by simp))
  generalize hreg2 : ({ reg1 with table := _ } : Registry.St) = reg2 at r3
  have t2 : reg2.table[s.reg.table.length]? = some ⟨String.ofList id, .serving, false, false, false⟩ := by rw [← hreg2]; simp [t1]
  have r4 := Run.snoc r3 (Step.conn (n := s.members.length) (k := s.reg.table.length) (m := ⟨r, Conn.init _, some s.reg.table.length⟩) (c := ⟨String.ofList id, .serving, false, false, false⟩)
    (al _ _ rfl) (by simp) rfl t2 (Conn.Step.spawn rfl rfl) (fun _ => rfl))
  have e4 : World.noteClosed reg2 s.reg.table.length false = reg2 := rfl
  simp only [set_last] at r4
  have r5 := Run.snoc r4 (Step.conn (n := s.members.length) (k := s.reg.table.length) (m := ⟨r, _, some s.reg.table.length⟩) (c := ⟨String.ofList id, .serving, false, false, false⟩)
    (al _ _ rfl) (by simp; rfl) rfl t2 (Conn.Step.read (k := 0) (f := t) rfl rfl) (fun _ => rfl))
  simp only [set_last] at r5
  have hcr := (C12_crash_iff t).2 ⟨j, hj, hi, hc⟩
  have hread : ∀ s0 : Conn.St (ocppj F o .cs), afterRead s0 t = none := by
    intro s0
    unfold afterRead
    have e : (ocppj F o .cs).read t = receive t := rfl
    rw [e]
    cases h : receive t with
    | panic m => rfl
    | err m => rw [h] at hcr; simp [Crashes] at hcr
    | ok x =>
      cases x with
      | none => rfl
      | some m => rw [h] at hcr; simp [Crashes] at hcr
  have r6 := Run.snoc r5 (Step.conn (n := s.members.length) (k := s.reg.table.length) (m := ⟨r, _, some s.reg.table.length⟩) (c := ⟨String.ofList id, .serving, false, false, false⟩)
    (al _ _ rfl) (by simp; rfl) rfl t2 (Conn.Step.dispatchPanic (k := 0) (f := t) rfl rfl (hread _)) (fun _ => rfl))
  have hdead : ∀ w : St F o, ¬ w.alive → ∀ tr'' s'', Run w tr'' s'' → tr'' = [] := by
    intro w hw tr'' s'' hr
    have key : ∀ {t w'}, Run w t w' → t = [] ∧ w' = w := by
      intro t w' hr
      induction hr with
      | nil => exact ⟨rfl, rfl⟩
      | snoc hr' hs' ih =>
        obtain ⟨-, rfl⟩ := ih
        exfalso
        cases hs' <;> exact hw (by assumption)
    exact (key hr).1
  refine ⟨_, _, _, _, r6, ?_, hdead _ ?_⟩
  all_goals
    intro hal
    have := hal _ (List.mem_iff_getElem?.2 ⟨s.members.length, by simp; rfl⟩)
    cases this

theorem dialled_names {csURL identity id : Text} {version key : String} {rest : Text} (hk : key ≠ "")
    (h : Http.registeredAs csURL identity = some id) : Http.accept (dialled csURL identity version key rest).toWsRequest = some (.switched "ocpp1.6", some id) := by
  unfold Http.registeredAs Http.dial at h
  unfold dialled
  cases hp : Http.parseRest (csURL ++ '/' :: identity) with
  | none => rw [hp] at h; cases h
  | some p =>
    obtain ⟨host, path⟩ := p
    rw [hp] at h
    simp only [Option.map_eq_map, Option.map_some] at h
    split at h
    · rename_i i hs
      cases h
      refine (Http.C78_centralSystem _ id hs).1 ⟨rfl, ?_, by simp [Http.wsDialRequest], hk⟩
      exact (Http.isUpgrade_iff _).1 (by simp [Http.Request.isUpgrade, Http.wsDialRequest, Http.dialRequest])
    · cases h

/-- **C108** All of this is in particular about the charge points of this library: for every history of a central system with them
(`Verif.Model.World`) there is one of this model, in which the same happens at the central system. -/
theorem C108_chargePoints {o₁ : Order} {csURL : Text} {trW : List (World.Ev F o₁ o)} {w : World.St F o₁ o} (h : World.Exec csURL trW w) :
    ∃ (tr : List (Ev F o)) (s : St F o), Exec tr s ∧ s.reg = w.reg ∧ (s.alive ↔ w.alive) ∧ (∀ n, connEvents n tr = World.csEvents n trW) ∧
      regEvents tr = World.regEvents trW ∧ (∀ n k id, Accepted tr n k id ↔ World.Accepted trW n k id) ∧
      (∀ n identity, World.Dialled trW n identity → Upgraded tr n (dialled csURL identity "V16" "AAAAAAAAAAAAAAAAAAAAAA==" [])) := by
  have key : ∃ (tr : List (Ev F o)) (s : St F o), Exec tr s ∧ (s.reg = w.reg ∧ s.members = w.links.map fun l =>
        ⟨dialled csURL l.identity "V16" "AAAAAAAAAAAAAAAAAAAAAA==" [], l.ends.cs, l.reg⟩) ∧ (∀ n, connEvents n tr = World.csEvents n trW) ∧
      regEvents tr = World.regEvents trW ∧ (∀ n k id, Accepted tr n k id ↔ World.Accepted trW n k id) ∧
      (∀ n identity, World.Dialled trW n identity → Upgraded tr n (dialled csURL identity "V16" "AAAAAAAAAAAAAAAAAAAAAA==" [])) := by
    induction h with
    | nil => exact ⟨[], _, .nil, ⟨rfl, rfl⟩, fun _ => rfl, rfl, fun _ _ _ => by simp [Accepted, World.Accepted], by simp [World.Dialled]⟩
    | @snoc trW e w w' hx hs ih =>
      obtain ⟨tr, s, h1, ⟨h2, h2'⟩, h3, h4, h5, h6⟩ := ih
      have hal : w.alive → s.alive := by
        intro hw m hm
        rw [h2', List.mem_map] at hm
        obtain ⟨l, hl, rfl⟩ := hm
        exact hw l hl
      have hget : ∀ {n : Nat} {l}, w.links[n]? = some l → s.members[n]? = some ⟨dialled csURL l.identity "V16" "AAAAAAAAAAAAAAAAAAAAAA==" [], l.ends.cs, l.reg⟩ := by
        intro n l hl
        rw [h2', List.getElem?_map, hl]; rfl
      have happ : ∀ n (x : World.Ev F o₁ o), World.csEvents n (trW ++ [x]) = World.csEvents n trW ++ World.csEvents n [x] := by
        intro n x; simp [World.csEvents]
      cases hs with
      | @dial identity id ha hid =>
        have hlen : s.members.length = w.links.length := by rw [h2']; simp
        refine ⟨_, _, h1.snoc (.upgrade (hal ha) (dialled_names (version := "V16") (key := "AAAAAAAAAAAAAAAAAAAAAA==") (rest := []) (by decide) hid)), ⟨h2, by simp [h2', Sys.init]⟩, ?_, ?_, ?_, ?_⟩
        · intro n; rw [connEvents_append, happ, h3]; rfl
        · rw [regEvents_append, World.regEvents_append, h4]; rfl
        · intro n k id; simp [Accepted, World.Accepted] at h5 ⊢; exact h5 n k id
        · intro n i hd
          simp only [World.Dialled, List.mem_append, List.mem_singleton] at hd
          rcases hd with hd | hd
          · exact List.mem_append_left _ (h6 n i hd)
          · cases hd; rw [hlen]; simp [Upgraded]
      | @register n l id reg' ha hl hlr hid hreg =>
        refine ⟨_, _, h1.snoc (.register (n := n) (hal ha) (hget hl) hlr (dialled_names (by decide) hid) (by rw [h2]; exact hreg)), ⟨rfl, ?_⟩, ?_, ?_, ?_, ?_⟩
        · simp [h2', h2, List.map_set]
        · intro n; rw [connEvents_append, happ, h3]; rfl
        · rw [regEvents_append, World.regEvents_append, h4]; rfl
        · intro n' k' id'; simp only [Accepted, World.Accepted, List.mem_append, List.mem_singleton, h2] at h5 ⊢
          rw [h5]
          simp
        · intro n i hd
          simp only [World.Dialled, List.mem_append, List.mem_singleton, reduceCtorEq, or_false] at hd
          exact List.mem_append_left _ (h6 n i hd)
      | @reg e reg' ha hreg n1 n2 n3 =>
        refine ⟨_, _, h1.snoc (.reg (hal ha) (by rw [h2]; exact hreg) n1 n2 ?_), ⟨rfl, h2'⟩, ?_, ?_, ?_, ?_⟩
        · intro k id he
          obtain ⟨n, l, a1, a2, a3⟩ := n3 k id he
          exact ⟨n, _, hget a1, a2, a3⟩
        · intro n; rw [connEvents_append, happ, h3]; rfl
        · rw [regEvents_append, World.regEvents_append, h4]; rfl
        · intro n k id; simp [Accepted, World.Accepted] at h5 ⊢; exact h5 n k id
        · intro n i hd
          simp only [World.Dialled, List.mem_append, List.mem_singleton, reduceCtorEq, or_false] at hd
          exact List.mem_append_left _ (h6 n i hd)
      | @cp n e l ends' hl hst =>
        have hcs : ends'.cs = l.ends.cs := by
          generalize hev : (Sum.inl e : Conn.Ev (ocppj F o₁ .cp) ⊕ Conn.Ev (ocppj F o .cs)) = ev at hst
          cases hst <;> cases hev
          rfl
        refine ⟨tr, s, h1, ⟨h2, ?_⟩, ?_, ?_, ?_, ?_⟩
        · rw [h2']
          apply List.ext_getElem?
          intro i
          simp only [List.getElem?_map, List.getElem?_set]
          split
          · rename_i hi; subst hi
            simp [lt_of_get hl]
            have := (List.getElem?_eq_some_iff.1 hl).2
            simp [this, hcs]
          · rfl
        · intro n; rw [happ, h3]; simp [World.csEvents]
        · rw [World.regEvents_append, h4]; simp [World.regEvents]
        · intro n k id; simp [World.Accepted] at h5 ⊢; exact h5 n k id
        · intro n i hd
          simp only [World.Dialled, List.mem_append, List.mem_singleton, reduceCtorEq, or_false] at hd
          exact h6 n i hd
      | @cs n k e l c ends' ha hl hlk hc hst hloop =>
        have hst' : Conn.Step .cs l.ends.cs e ends'.cs := by
          generalize hev : (Sum.inr e : Conn.Ev (ocppj F o₁ .cp) ⊕ Conn.Ev (ocppj F o .cs)) = ev at hst
          cases hst with
          | cp => cases hev
          | cs h _ => cases hev; exact h
        refine ⟨_, _, h1.snoc (.conn (n := n) (hal ha) (hget hl) hlk (by rw [h2]; exact hc) hst' hloop), ⟨by rw [h2], by simp [h2', List.map_set]⟩, ?_, ?_, ?_, ?_⟩
        · intro n'; rw [connEvents_append, happ, h3]; rfl
        · rw [regEvents_append, World.regEvents_append, h4]; rfl
        · intro n k id; simp [Accepted, World.Accepted] at h5 ⊢; exact h5 n k id
        · intro n i hd
          simp only [World.Dialled, List.mem_append, List.mem_singleton, reduceCtorEq, or_false] at hd
          exact List.mem_append_left _ (h6 n i hd)
  obtain ⟨tr, s, h1, ⟨h2, h2'⟩, h3⟩ := key
  refine ⟨tr, s, h1, h2, ?_, h3⟩
  unfold St.alive World.St.alive
  rw [h2']
  simp

/-- **C108** Handler calls of the kind that `C108_handlerCall` speaks of, and Sends of the kind that `C108_answered` speaks of, happen: e.g.
with a charge point that makes any request other than DataTransfer. -/
theorem C108_possible (host : Text) (hh : Http.PlainHost host) (b : Text) (hb : Http.PlainSegment b) (o₁ : Order) (id : String) (q : Req) (resp : Resp)
    (hcp : q.type.isChargePoint = true) (hs : q.type.action ≠ "DataTransfer".toList) (ht : resp.type = q.type.response)
    (hq : HasTy q.type.ty q.val) (hr : HasTy resp.type.ty resp.val)
    (hi : q.val.IntsAll fun n => |n| ≤ 2 ^ 53) (hi' : resp.val.IntsAll fun n => |n| ≤ 2 ^ 53)
    (hp : q.val.TimesAll GoTime.Plain) (hp' : resp.val.TimesAll GoTime.Plain)
    (hm : ∃ t, marshal F q.type.ty q.val = .ok t) (hm' : ∃ t, marshal F resp.type.ty resp.val = .ok t) :
    ∃ (tr : List (Ev F o)) (s : St F o) (n k : Nat) (about : Metadata) (r : Req), Exec tr s ∧ s.alive ∧
      Ev.conn n about (.take (S := ocppj F o .cs) k id r (some (some r))) ∈ tr ∧ about.chargePointID = String.ofList b := by
  obtain ⟨t, hm⟩ := hm
  obtain ⟨t', hm'⟩ := hm'
  obtain ⟨f, p, v, h1, h2, h3, -, -⟩ := C14_request F o id q hs hq hi hp t hm
  obtain ⟨g, p', h4, h5, h6⟩ := C14_response F o₁ id q.type hs resp ht hr hi' hp' t' hm'
  obtain ⟨x, hx, hx2⟩ := roundTrip_state (o₁ := o₁) (o₂ := o) (q' := ⟨q.type, v⟩) hcp h1 h2 h3 h4 h5 h6
  obtain ⟨a, ha, hab⟩ : ∃ a, Http.PlainSegment a ∧ a ≠ b := by
    by_cases hb' : b = ['x']
    · refine ⟨['y'], ⟨by decide, ?_, by decide, by decide⟩, by rw [hb']; decide⟩
      intro c hc; unfold Http.Unreserved; revert c; decide
    · refine ⟨['x'], ⟨by decide, ?_, by decide, by decide⟩, fun h => hb' h.symm⟩
      intro c hc; unfold Http.Unreserved; revert c; decide
  obtain ⟨trW, trW', w, w', e1, -, -, -, e5, -, -, -, e9, e10, e11⟩ := World.C67_possible (F := F) (o₁ := o₁) (o₂ := o) host hh a b ha hb hab _ x hx
    hx2.2.1
  obtain ⟨tr, s, z1, z2, zal, z3, z4, z5, z6⟩ := C108_chargePoints (e1.append e9)
  have hin : Conn.Ev.take (S := ocppj F o .cs) 0 id ⟨q.type, v⟩ (some (some ⟨q.type, v⟩)) ∈ connEvents 1 tr := by
    rw [z3, ← World.atCs_onLink, e11]
    simp [roundTrip, atCs]
  obtain ⟨about, hab⟩ := mem_connEvents.1 hin
  refine ⟨tr, s, 1, 0, about, _, z1, ?_, hab, ?_⟩
  · exact zal.2 e10
  · obtain ⟨-, ⟨k, h8⟩, -⟩ := z1.connMeta hab
    have h9 := (z5 1 0 _).2 (List.mem_append_left _ e5)
    exact ((z1.accepted_unique h8 h9).1 rfl).2

/-- An ordinary request, and a text of this kind. -/
example : ∃ (r : Upgrade) (t : Text) (j : JVal), Http.serve r.toRequest = .websocket "CP-1".toList ∧ Http.OpeningHandshake r.toWsRequest ∧
    JsonText j (normalise t) ∧ InRange j ∧ Crashing j := by
  have hn : normalise "null".toList = "null".toList := by decide +kernel
  refine ⟨⟨Http.wsDialRequest "V16" "AAAAAAAAAAAAAAAAAAAAAA==" "/CP-1".toList, "Authorization: Basic Q1AtMTpz".toList⟩, "null".toList, .null, ?_,
    ⟨rfl, ?_, by simp [Http.wsDialRequest], by simp [Http.wsDialRequest]⟩, by rw [hn]; exact Value.null.jsonText, True.intro, .null⟩
  · decide +kernel
  · exact (Http.isUpgrade_iff _).1 (by simp [Http.Request.isUpgrade, Http.wsDialRequest, Http.dialRequest])

end Verif.Hub
