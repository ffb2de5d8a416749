import Verif.Lemmas.World
import Verif.Spec.World
/-!
# A central system and all its charge points

Properties C67 to C69.
-/
set_option linter.unusedSimpArgs false
namespace Verif.World
open Conn Codec Ocppj

variable {F : FloatFmt} {o₁ o₂ : Order} {csURL : Text} {tr tr' : List (Ev F o₁ o₂)} {w w' : St F o₁ o₂}

theorem atCp_onLink (n : Nat) (tr : List (Ev F o₁ o₂)) : atCp (onLink n tr) = cpEvents n tr := by
  simp only [atCp, onLink, cpEvents, List.filterMap_filterMap]
  congr 1
  funext e
  cases e <;> simp
  all_goals split <;> simp

theorem atCs_onLink (n : Nat) (tr : List (Ev F o₁ o₂)) : atCs (onLink n tr) = csEvents n tr := by
  simp only [atCs, onLink, csEvents, List.filterMap_filterMap]
  congr 1
  funext e
  cases e <;> simp
  all_goals split <;> simp

theorem mem_cpEvents {n : Nat} {e : Conn.Ev (ocppj F o₁ .cp)} : e ∈ cpEvents n tr ↔ Ev.cp n e ∈ tr := by
  simp only [cpEvents, List.mem_filterMap]
  constructor
  · rintro ⟨e', h1, h2⟩
    cases e' <;> simp at h2
    obtain ⟨rfl, rfl⟩ := h2; exact h1
  · intro h; exact ⟨_, h, by simp⟩

theorem mem_csEvents {n : Nat} {e : Conn.Ev (ocppj F o₂ .cs)} : e ∈ csEvents n tr ↔ ∃ id, Ev.cs n id e ∈ tr := by
  simp only [csEvents, List.mem_filterMap]
  constructor
  · rintro ⟨e', h1, h2⟩
    cases e' <;> simp at h2
    obtain ⟨rfl, rfl⟩ := h2; exact ⟨_, h1⟩
  · rintro ⟨id, h⟩; exact ⟨_, h, by simp⟩

theorem mem_handlerCalls {S : Sem} {t : List (Conn.Ev S)} {mid : String} {q : Option S.Req} (h : (mid, q) ∈ handlerCalls t) :
    ∃ k r, Conn.Ev.take k mid r (some q) ∈ t := by
  unfold handlerCalls at h
  rw [List.mem_filterMap] at h
  obtain ⟨e, h1, h2⟩ := h
  split at h2
  · cases h2; exact ⟨_, _, h1⟩
  · cases h2

theorem mem_handled {side : Side} {o : Order} {t : List (Conn.Ev (ocppj F o side))} {mid : String} {q : Option Req} (h : (mid, q) ∈ handled t) :
    ∃ k r, Conn.Ev.take (S := ocppj F o side) k mid r (some q) ∈ t := by
  exact mem_handlerCalls h

theorem Exec.append (h : Exec csURL tr w) (hr : Run csURL w tr' w') : Exec csURL (tr ++ tr') w' := by
  induction hr with
  | nil => simpa using h
  | snoc _ hs ih => rw [← List.append_assoc]; exact .snoc ih hs

/-- An event at the central system's end belongs to a connection registered under the id given. -/
theorem Exec.csId (h : Exec csURL tr w) {n : Nat} {id : String} {e : Conn.Ev (ocppj F o₂ .cs)} (he : Ev.cs n id e ∈ tr) :
    ∃ k, Accepted tr n k id := by
  induction h with
  | nil => simp at he
  | @snoc tr e' w w' hx hs ih =>
    rw [List.mem_append, List.mem_singleton] at he
    rcases he with he | rfl
    · obtain ⟨i, hi⟩ := ih he; exact ⟨i, List.mem_append_left _ hi⟩
    · cases hs with
      | @cs _ k _ l c ends' hal hl hlk hc hst hloop =>
        obtain ⟨c', h1, h2, h3, h4⟩ := hx.inv.regd n k l hl hlk
        rw [hc] at h1; cases h1
        exact ⟨k, List.mem_append_left _ h3⟩

/-- A connection has one identity. -/
theorem Exec.dialled_unique (h : Exec csURL tr w) {n : Nat} {i j : Text} (h1 : Dialled tr n i) (h2 : Dialled tr n j) : i = j := by
  obtain ⟨l, ha, hb⟩ := h.inv.dialled _ _ h1
  obtain ⟨l', ha', hb'⟩ := h.inv.dialled _ _ h2
  rw [ha] at ha'; cases ha'
  exact hb.symm.trans hb'

/-- A connection is registered at most once, and a registration is of one connection under one id. -/
theorem Exec.accepted_unique (h : Exec csURL tr w) {n m k j : Nat} {id id' : String} (h1 : Accepted tr n k id) (h2 : Accepted tr m j id') :
    n = m ↔ k = j ∧ id = id' := by
  obtain ⟨l, c, ha, hb, hc, hd⟩ := h.inv.accepted _ _ _ h1
  obtain ⟨l', c', ha', hb', hc', hd'⟩ := h.inv.accepted _ _ _ h2
  constructor
  · rintro rfl
    rw [ha] at ha'; cases ha'
    rw [hb] at hb'; cases hb'
    rw [hc] at hc'; cases hc'
    exact ⟨rfl, hd.symm.trans hd'⟩
  · rintro ⟨rfl, -⟩
    exact h.inv.inj _ _ _ _ _ ha ha' hb hb'

/-- A registered connection was made by a charge point whose identity and the URL give the id. -/
theorem Exec.acceptedAs (h : Exec csURL tr w) {n k : Nat} {id : String} (h1 : Accepted tr n k id) :
    ∃ identity, Dialled tr n identity ∧ Http.registeredAs csURL identity = some id.toList := by
  obtain ⟨l, c, ha, hb, hc, hd⟩ := h.inv.accepted _ _ _ h1
  obtain ⟨c', h2, h3, h4, h5⟩ := h.inv.regd n k l ha hb
  rw [hc] at h2; cases h2
  exact ⟨l.identity, (h.inv.named n l ha).1, by rw [← hd]; exact h5⟩

theorem Exec.conns (h : Exec csURL tr w) (id : String) :
    (∀ k, w.reg.conns.get id = some k ↔ Registered tr id ∧ ∃ n, Latest tr n k id) ∧ (w.reg.conns.get id = none ↔ ¬ Registered tr id) := by
  obtain ⟨trR, hR, hR1, -, hR3⟩ := h.inv.reg
  have hcl : ∀ k, Registry.Cleaned trR k ↔ Ev.reg (.cleanup k) ∈ tr := fun k => by
    rw [← mem_regEvents, ← hR3]; simp [Registry.Cleaned, own]
  have hm : ∀ k id, Registry.Made trR k id ↔ ∃ n, Accepted tr n k id := fun n id => hR1 n id
  have hend : ∀ n k, Accepted tr n k id → (Ended tr n ↔ Ev.reg (.cleanup k) ∈ tr) := by
    intro n k ha
    constructor
    · rintro ⟨j, id', h1, h2⟩
      obtain ⟨rfl, -⟩ := (h.accepted_unique ha h1).1 rfl
      exact h2
    · intro hc; exact ⟨k, id, ha, hc⟩
  have hreg : Registry.Registered trR id ↔ Registered tr id := by
    simp only [Registry.Registered, Registry.Open, Registered, hm, hcl]
    constructor
    · rintro ⟨k, ⟨n, h1⟩, h2⟩; exact ⟨n, k, h1, fun he => h2 ((hend n k h1).1 he)⟩
    · rintro ⟨n, k, h1, h2⟩; exact ⟨k, ⟨n, h1⟩, fun he => h2 ((hend n k h1).2 he)⟩
  have hnew : ∀ k, Registry.Newest trR k id ↔ ∃ n, Latest tr n k id := by
    intro n
    simp only [Registry.Newest, Latest, hm]
    constructor
    · rintro ⟨⟨m, h1⟩, h2⟩; exact ⟨m, h1, fun m' i hi => h2 i ⟨m', hi⟩⟩
    · rintro ⟨m, h1, h2⟩; exact ⟨⟨m, h1⟩, fun m' ⟨i, hi⟩ => h2 i m' hi⟩
  refine ⟨fun n => ?_, ?_⟩
  · rw [Registry.conns_get hR, hreg, hnew]
  · rw [Registry.conns_none hR, hreg]

/-- The registrations of a history, in order: connection, number and id. -/
def registrations (tr : List (Ev F o₁ o₂)) : List (Nat × Nat × String) :=
  tr.filterMap fun
    | .register n k id => some (n, k, id)
    | _ => none

/-- **C67** Registrations are numbered in the order in which they happen, and no connection is registered twice; so the latest one of an
id, which C67 and C69 speak of, is the one that happened last. -/
theorem C67_numbered (h : Exec csURL tr w) :
    (registrations tr).map (fun x => x.2.1) = List.range (registrations tr).length ∧ ((registrations tr).map Prod.fst).Nodup := by
  have hmem : ∀ {tr : List (Ev F o₁ o₂)} {n k id}, (n, k, id) ∈ registrations tr ↔ Accepted tr n k id := by
    intro tr n k id
    simp only [registrations, List.mem_filterMap, Accepted]
    constructor
    · rintro ⟨e, h1, h2⟩
      cases e <;> simp at h2
      obtain ⟨rfl, rfl, rfl⟩ := h2; exact h1
    · intro h; exact ⟨_, h, rfl⟩
  have key : ∀ {tr : List (Ev F o₁ o₂)} {w}, Exec csURL tr w →
      ((registrations tr).map (fun x => x.2.1) = List.range (registrations tr).length ∧ ((registrations tr).map Prod.fst).Nodup) ∧
      (registrations tr).length = w.reg.table.length := by
    intro tr w h
    induction h with
    | nil => simp [registrations, init, Registry.init]
    | @snoc tr e w w' hx hs ih =>
      obtain ⟨⟨ih1, ih2⟩, ih3⟩ := ih
      have happ : registrations (tr ++ [e]) = registrations tr ++ registrations [e] := by simp [registrations]
      rw [happ]
      cases hs with
      | dial => simp [registrations] at ih1 ih2 ih3 ⊢; exact ⟨⟨ih1, ih2⟩, ih3⟩
      | cp => simp [registrations] at ih1 ih2 ih3 ⊢; exact ⟨⟨ih1, ih2⟩, ih3⟩
      | @cs n k e l c ends' _ _ _ _ _ _ =>
        have : registrations [Ev.cs (F := F) (o₁ := o₁) (o₂ := o₂) n c.cp e] = [] := rfl
        rw [this, List.append_nil]
        refine ⟨⟨ih1, ih2⟩, ?_⟩
        rw [noteClosed_table]; exact ih3
      | @reg e reg' _ hst h1 h2 _ =>
        have : registrations [Ev.reg (F := F) (o₁ := o₁) (o₂ := o₂) e] = [] := rfl
        rw [this, List.append_nil]
        refine ⟨⟨ih1, ih2⟩, ?_⟩
        rw [ih3, (reg_table hst h1 h2).1]
      | @register n l id reg' _ hl hlr _ hst =>
        have e1 : registrations [Ev.register (F := F) (o₁ := o₁) (o₂ := o₂) n w.reg.table.length (String.ofList id)] = [(n, w.reg.table.length, String.ofList id)] := rfl
        have ht : reg'.table.length = w.reg.table.length + 1 := by
          generalize hev : Registry.Ev.handshake w.reg.table.length (String.ofList id) = ev at hst
          cases hst <;> cases hev
          rw [register_table]; simp
        rw [e1]
        refine ⟨⟨?_, ?_⟩, by simp [ih3, ht]⟩
        · simp only [List.map_append, List.map_cons, List.map_nil, List.length_append, List.length_singleton, List.range_succ, ih1, ih3]
        · simp only [List.map_append, List.map_cons, List.map_nil]
          rw [List.nodup_append]
          refine ⟨ih2, by simp, ?_⟩
          intro a ha b hb
          simp at hb; subst hb
          rintro rfl
          rw [List.mem_map] at ha
          obtain ⟨⟨n', k, id'⟩, h3, h4⟩ := ha
          simp at h4
          subst h4
          obtain ⟨l', c, h5, h6, -⟩ := hx.inv.accepted _ _ _ (hmem.1 h3)
          rw [hl] at h5; cases h5
          rw [hlr] at h6; cases h6
  exact (key h).1

/-- **C67** `GetServiceOf(id, V16)` gives a connection exactly if a charge point is registered as `id`; it is the last one that was
registered as `id`, and was made by a charge point whose identity and the central system's URL together give this id. -/
theorem C67_service (h : Exec csURL tr w) (id url : String) :
    (∀ k, w.reg.getServiceOf id "V16" url = .ok (.json k) ↔ Registered tr id ∧ ∃ n, Latest tr n k id) ∧
    ((∃ e, w.reg.getServiceOf id "V16" url = .err e) ↔ ¬ Registered tr id) ∧
    (∀ n k, Accepted tr n k id → ∃ identity, Dialled tr n identity ∧ Http.registeredAs csURL identity = some id.toList) := by
  obtain ⟨h1, h2⟩ := h.conns id
  refine ⟨fun n => ?_, ?_, fun n k hi => h.acceptedAs hi⟩
  · rw [← h1]
    unfold Registry.St.getServiceOf
    simp only [show ("V16" : String) ≠ "V15" by decide, if_false, if_true]
    cases w.reg.conns.get id <;> simp
  · rw [← h2]
    unfold Registry.St.getServiceOf
    simp only [show ("V16" : String) ≠ "V15" by decide, if_false, if_true]
    cases w.reg.conns.get id <;> simp

/-- **C67** With plain identities and a plain host, the id is the charge point's own identity. -/
theorem C67_identity (host : Text) (hh : Http.PlainHost host) (h : Exec host tr w) (n k : Nat) (identity : Text) (id : String)
    (hd : Dialled tr n identity) (ha : Accepted tr n k id) (hi : Http.PlainSegment identity) : identity = id.toList := by
  obtain ⟨i, h1, h2⟩ := h.acceptedAs ha
  rw [← h.dialled_unique hd h1, (Http.C41_identity host hh [] (by simp) identity hi).2] at h2
  exact Option.some.inj h2

/-- **C67** A request sent through `GetServiceOf(id, V16)` that gets a response was handled, exactly once, by the handler of the charge
point that made the connection, which is registered as `id`; and what `Send` returned is what this handler returned. -/
theorem C67_addressed (h : Exec csURL tr w) (id url : String) (n k : Nat) (hg : w.reg.getServiceOf id "V16" url = .ok (.json k))
    (ha : Accepted tr n k id) (hr : Run csURL w tr' w') (hp : Proper (cpEvents n (tr ++ tr'))) (hs : Proper (csEvents n (tr ++ tr')))
    (i : Nat) (r : Resp) (hf : Conn.Ev.finish (S := ocppj F o₂ .cs) i (.resp r) ∈ csEvents n (tr ++ tr')) :
    ∃ identity mid q resp, Latest tr n k id ∧ Dialled tr n identity ∧ Http.registeredAs csURL identity = some id.toList ∧
      Conn.Ev.send (S := ocppj F o₂ .cs) i mid q ∈ csEvents n (tr ++ tr') ∧
      HandledOnce o₁ (cpEvents n (tr ++ tr')) mid q (some resp) none ∧ Returns q resp r := by
  obtain ⟨-, m, hm⟩ := ((C67_service h id url).1 k).1 hg
  obtain rfl : n = m := (h.accepted_unique ha hm.1).2 ⟨rfl, rfl⟩
  obtain ⟨identity, hd, hid⟩ := h.acceptedAs ha
  have hx := h.append hr
  obtain ⟨l, hl, -⟩ := hx.inv.dialled n identity (List.mem_append_left _ hd)
  have hsys := hx.inv.ends n l hl
  rw [← atCp_onLink, ← atCs_onLink] at *
  obtain ⟨mid, q, resp, h1, h2, h3⟩ := C57_centralSystem hsys hp hs i r hf
  exact ⟨identity, mid, q, resp, hm, hd, hid, h1, h2, h3⟩

/-- **C67** A handler call at the central system with charge point id `id` and message `mid` was caused by one `Send` of a charge point
registered as `id`, on the connection it came from; it gets what was sent; and no other handler call on this connection has this
message id. -/
theorem C67_caller (h : Exec csURL tr w) (n k : Nat) (id mid : String) (r : Req) (q' : Option Req)
    (hc : Ev.cs n id (.take (S := ocppj F o₂ .cs) k mid r (some q')) ∈ tr)
    (hp : Proper (cpEvents n tr)) (hs : Proper (csEvents n tr)) :
    ∃ identity i q r', Dialled tr n identity ∧ Http.registeredAs csURL identity = some id.toList ∧
      Ev.cp n (.send (S := ocppj F o₁ .cp) i mid q) ∈ tr ∧ q' = some r' ∧ Arrives F o₂ q r' ∧
      (handled (csEvents n tr)).filter (fun x => x.1 = mid) = [(mid, some r')] := by
  obtain ⟨k', hd⟩ := h.csId hc
  obtain ⟨identity, hd, hid⟩ := h.acceptedAs hd
  obtain ⟨l, hl, -⟩ := h.inv.dialled n identity hd
  have hsys := h.inv.ends n l hl
  have hin : (mid, q') ∈ handled (csEvents n tr) := by
    refine List.mem_filterMap.2 ⟨_, mem_csEvents.2 ⟨id, hc⟩, rfl⟩
  have hsend : ∀ i q, Conn.Ev.send (S := ocppj F o₁ .cp) i mid q ∈ cpEvents n tr → Ev.cp n (.send (S := ocppj F o₁ .cp) i mid q) ∈ tr :=
    fun i q hm => mem_cpEvents.1 hm
  rw [← atCp_onLink, ← atCs_onLink] at *
  obtain ⟨⟨h1, h2⟩, -⟩ := C57_atMostOnce hsys hp hs mid
  obtain ⟨i, q, r', h3, rfl, h4⟩ := h2 q' hin
  refine ⟨identity, i, q, r', hd, hid, hsend i q h3, rfl, h4, ?_⟩
  have hmem : ((mid, some r') : String × Option Req) ∈ (handled (atCs (onLink n tr))).filter (fun x => x.1 = mid) :=
    List.mem_filter.2 ⟨hin, by simp⟩
  generalize (handled (atCs (onLink n tr))).filter (fun x => x.1 = mid) = l at h1 hmem
  rcases l with _ | ⟨x, _ | ⟨y, l⟩⟩
  · cases hmem
  · rw [List.mem_singleton] at hmem; rw [hmem]
  · simp at h1

/-- **C67** And the response goes back to it: if this charge point's `Send` returns a response, its connection was registered, and the
response is that of the handler call which was made with the id it is registered as. -/
theorem C67_response (h : Exec csURL tr w) (n : Nat) (identity : Text) (hd : Dialled tr n identity)
    (hp : Proper (cpEvents n tr)) (hs : Proper (csEvents n tr)) (i : Nat) (r : Resp)
    (hf : Ev.cp n (.finish (S := ocppj F o₁ .cp) i (.resp r)) ∈ tr) :
    ∃ j id mid q resp k r₀ r', Accepted tr n j id ∧ Http.registeredAs csURL identity = some id.toList ∧
      Ev.cp n (.send (S := ocppj F o₁ .cp) i mid q) ∈ tr ∧ HandledOnce o₂ (csEvents n tr) mid q (some resp) none ∧
      Returns q resp r ∧ Ev.cs n id (.take (S := ocppj F o₂ .cs) k mid r₀ (some (some r'))) ∈ tr ∧ Arrives F o₂ q r' := by
  obtain ⟨l, hl, -⟩ := h.inv.dialled n identity hd
  have hsys := h.inv.ends n l hl
  have hf' := mem_cpEvents.2 hf
  have e1 := atCp_onLink (o₂ := o₂) n tr
  have e2 := atCs_onLink (o₁ := o₁) n tr
  rw [← e1] at hp hf'
  rw [← e2] at hs
  obtain ⟨mid, q, resp, h1, h2, h3⟩ := C57_chargePoint hsys hp hs i r hf'
  have h2' := h2
  obtain ⟨⟨q', h4, h5⟩, -⟩ := h2'
  have hin : ((mid, some q') : String × Option Req) ∈ handled (atCs (onLink n tr)) :=
    List.mem_of_mem_filter (p := fun x => decide (x.1 = mid)) (by rw [h4]; simp)
  rw [e2] at hin h2
  rw [e1] at h1
  obtain ⟨k, r₀, hk⟩ := mem_handled hin
  obtain ⟨id', hid⟩ := mem_csEvents.1 hk
  obtain ⟨j, hj⟩ := h.csId hid
  obtain ⟨i', hi', hi2⟩ := h.acceptedAs hj
  obtain rfl := h.dialled_unique hd hi'
  exact ⟨j, id', mid, q, resp, k, r₀, q', hj, hi2, mem_cpEvents.1 h1, h2, h3, hid, h5⟩

/-! ### Independence of connections, and what they share -/

theorem noteClosed_other (r : Registry.St) (n m : Nat) (b : Bool) (h : m ≠ n) : (noteClosed r n b).table[m]? = r.table[m]? := by
  unfold noteClosed
  split
  · simp only; rw [List.getElem?_set_ne (Ne.symm h)]
  · rfl

theorem noteClosed_none {r : Registry.St} {n : Nat} {b : Bool} (h : r.table[n]? = none) : noteClosed r n b = r := by
  unfold noteClosed; rw [h]; cases b <;> rfl

theorem noteClosed_some {r : Registry.St} {n : Nat} {c : Registry.CState} (h : r.table[n]? = some c) :
    noteClosed r n true = { r with table := r.table.set n { c with closed := true } } := by
  unfold noteClosed; rw [h]

theorem noteClosed_comm (r : Registry.St) (n m : Nat) (a b : Bool) (h : m ≠ n) :
    noteClosed (noteClosed r n a) m b = noteClosed (noteClosed r m b) n a := by
  have h1 := noteClosed_other r n m a h
  have h2 := noteClosed_other r m n b (Ne.symm h)
  cases hn : r.table[n]? with
  | none => rw [noteClosed_none hn, noteClosed_none (h2.trans hn)]
  | some c =>
    cases hm : r.table[m]? with
    | none => rw [noteClosed_none hm, noteClosed_none (h1.trans hm)]
    | some d =>
      cases a with
      | false => cases b <;> rfl
      | true =>
        cases b with
        | false => rfl
        | true =>
          rw [noteClosed_some (h1.trans hm), noteClosed_some (h2.trans hn), noteClosed_some hn, noteClosed_some hm]
          simp only
          rw [List.set_comm _ _ (Ne.symm h)]

/-- **C68** Connections do not hold each other up: whatever can happen at an end of one connection can still happen after an event on
another connection, with the same effect, in either order (at the central system: unless that event crashed the process). -/
theorem C68_independent (h : Exec csURL tr w) {a b : Ev F o₁ o₂} {w₁ w₂ : St F o₁ o₂} {n m : Nat} (ha : Step csURL w a w₁)
    (hb : Step csURL w b w₂) (hn : a.link = some n) (hm : b.link = some m) (hne : n ≠ m)
    (h1 : b.ofCs = true → w₁.alive) (h2 : a.ofCs = true → w₂.alive) : ∃ w₃, Step csURL w₁ b w₃ ∧ Step csURL w₂ a w₃ := by
  cases ha with
  | dial => cases hn
  | register => cases hn
  | reg => cases hn
  | @cp n' e l ends' hl hst =>
    cases hn
    cases hb with
    | dial => cases hm
    | register => cases hm
    | reg => cases hm
    | @cp m' e' l' ends'' hl' hst' =>
      cases hm
      refine ⟨_, .cp (by simp only; rw [List.getElem?_set_ne hne]; exact hl') hst', ?_⟩
      rw [List.set_comm _ _ hne]
      exact .cp (w := { w with links := w.links.set m { l' with ends := ends'' } })
        (by simp only; rw [List.getElem?_set_ne (Ne.symm hne)]; exact hl) hst
    | @cs m' k' e' l' c' ends'' hal' hl' hk' hc' hst' hloop' =>
      cases hm
      refine ⟨_, .cs (h1 rfl) (by simp only; rw [List.getElem?_set_ne hne]; exact hl') hk' hc' hst' hloop', ?_⟩
      rw [List.set_comm _ _ hne]
      exact .cp (w := ⟨noteClosed w.reg k' ends''.cs.closed, w.links.set m { l' with ends := ends'' }⟩)
        (by simp only; rw [List.getElem?_set_ne (Ne.symm hne)]; exact hl) hst
  | @cs n' k e l c ends' hal hl hk hc hst hloop =>
    cases hn
    cases hb with
    | dial => cases hm
    | register => cases hm
    | reg => cases hm
    | @cp m' e' l' ends'' hl' hst' =>
      cases hm
      refine ⟨_, .cp (by simp only; rw [List.getElem?_set_ne hne]; exact hl') hst', ?_⟩
      simp only
      rw [List.set_comm _ _ hne]
      exact .cs (w := { w with links := w.links.set m { l' with ends := ends'' } }) (h2 rfl)
        (by simp only; rw [List.getElem?_set_ne (Ne.symm hne)]; exact hl) hk hc hst hloop
    | @cs m' k' e' l' c' ends'' hal' hl' hk' hc' hst' hloop' =>
      cases hm
      have hkk : k ≠ k' := by
        rintro rfl
        exact hne (h.inv.inj n m k l l' hl hl' hk hk')
      refine ⟨_, .cs (h1 rfl) (by simp only; rw [List.getElem?_set_ne hne]; exact hl') hk'
        (by simp only; rw [noteClosed_other _ _ _ _ (Ne.symm hkk)]; exact hc') hst' hloop', ?_⟩
      simp only
      rw [List.set_comm _ _ hne, noteClosed_comm _ _ _ _ _ (Ne.symm hkk)]
      exact .cs (w := ⟨noteClosed w.reg k' ends''.cs.closed, w.links.set m { l' with ends := ends'' }⟩) (h2 rfl)
        (by simp only; rw [List.getElem?_set_ne (Ne.symm hne)]; exact hl) hk
        (by simp only; rw [noteClosed_other _ _ _ _ hkk]; exact hc) hst hloop

theorem alive_set {ls : List (Link F o₁ o₂)} {n : Nat} {l : Link F o₁ o₂} {x : Sys F o₁ o₂} (hl : ls[n]? = some l)
    (hx : x.cs.crashed = l.ends.cs.crashed) : (∀ k ∈ ls.set n { l with ends := x }, k.ends.cs.crashed = false) ↔ ∀ k ∈ ls, k.ends.cs.crashed = false := by
  constructor
  · intro h k hk
    obtain ⟨m, hm⟩ := List.mem_iff_getElem?.1 hk
    by_cases hmn : m = n
    · subst hmn
      rw [hl] at hm; cases hm
      rw [← hx]
      exact h { l with ends := x } (List.mem_iff_getElem?.2 ⟨m, by simp [(List.getElem?_eq_some_iff.1 hl).1]⟩)
    · exact h k (List.mem_iff_getElem?.2 ⟨m, by rw [List.getElem?_set_ne (Ne.symm hmn)]; exact hm⟩)
  · intro h k hk
    rcases List.mem_or_eq_of_mem_set hk with h1 | rfl
    · exact h k h1
    · simp only; rw [hx]; exact h l (List.mem_of_getElem? hl)

/-- **C68** A charge point's events, also its crash, leave the central system's process alone. -/
theorem C68_chargePoint_crash {n : Nat} {e : Conn.Ev (ocppj F o₁ .cp)} (h : Step csURL w (.cp n e) w') :
    (w'.alive ↔ w.alive) ∧ w'.reg = w.reg := by
  generalize hev : Ev.cp (o₂ := o₂) n e = ev at h
  cases h with
  | dial => cases hev
  | register => cases hev
  | reg => cases hev
  | cs => cases hev
  | @cp n' e' l ends' hl hst =>
    refine ⟨?_, rfl⟩
    have : ends'.cs = l.ends.cs := by
      generalize hev : (Sum.inl e' : Conn.Ev (ocppj F o₁ .cp) ⊕ Conn.Ev (ocppj F o₂ .cs)) = ev at hst
      cases hst <;> cases hev
      rfl
    exact alive_set hl (by rw [this])

theorem not_alive_step {e : Ev F o₁ o₂} (h : ¬ w.alive) (hs : Step csURL w e w') : e.ofCs = false ∧ ¬ w'.alive := by
  cases hs with
  | dial hal => exact absurd hal h
  | register hal => exact absurd hal h
  | reg hal => exact absurd hal h
  | cs hal => exact absurd hal h
  | @cp n e l ends' hl hst =>
    exact ⟨rfl, fun hw => h ((C68_chargePoint_crash (.cp (csURL := csURL) hl hst)).1.1 hw)⟩

/-- **C68** But the connections of a central system share its process: once one of them crashed it, the central system does nothing
any more: no handler call, no frame read or written, no connection accepted, no listener called, on any connection. -/
theorem C68_crash_is_final (h : ¬ w.alive) (hr : Run csURL w tr' w') : (∀ e ∈ tr', e.ofCs = false) ∧ ¬ w'.alive := by
  induction hr with
  | nil => exact ⟨by simp, h⟩
  | @snoc tr e w1 w2 hr hs ih =>
    obtain ⟨h1, h2⟩ := not_alive_step ih.2 hs
    refine ⟨?_, h2⟩
    intro e' he'
    rw [List.mem_append, List.mem_singleton] at he'
    rcases he' with he' | rfl
    · exact ih.1 e' he'
    · exact h1

/-- **C68** What crashes it: on one of the connections, a text with a crashing value (C12), a CallResult to a DataTransfer that is
not answered yet (C19), or a `Send` of a SendLocalList with an entry without expiry date (C08); the handler does not. -/
theorem C68_crash_cause (h : Exec csURL tr w) (ht : ∀ n, Typed (csEvents n tr)) (hc : ¬ w.alive) :
    ∃ n tr₀ e, csEvents n tr = tr₀ ++ [e] ∧
      ((∃ (k : Nat) (t : Text) (j : JVal), e = .dispatch k ∧ Conn.Ev.read (S := ocppj F o₂ .cs) k t ∈ tr₀ ∧ Json.JsonText j (normalise t) ∧
          InRange j ∧ Crashing j) ∨
       (∃ (k : Nat) (t : Text) (id : String) (p : Payload) (i : Nat) (q : Req), e = .dispatch k ∧
          Conn.Ev.read (S := ocppj F o₂ .cs) k t ∈ tr₀ ∧ receive t = .ok (some (.result id p)) ∧
          Conn.Ev.send (S := ocppj F o₂ .cs) i id q ∈ tr₀ ∧ q.type.action = "DataTransfer".toList ∧
          .regSent i ∈ tr₀ ∧ ∀ a, .finish i a ∉ tr₀) ∨
       (∃ (i : Nat) (id : String) (r : Req), e = Conn.Ev.send (S := ocppj F o₂ .cs) i id r ∧ r.type = .csreqSendLocalList ∧
          ∃ v entries u, r.val = .struct [v, .slice entries, u] ∧ ∃ x ∈ entries, ExpiryMissing x)) := by
  simp only [St.alive, not_forall, Bool.not_eq_false] at hc
  obtain ⟨l, hl, hcr⟩ := hc
  obtain ⟨n, hn⟩ := List.mem_iff_getElem?.1 hl
  have hx := (h.inv.ends n l hn).ends.2.1
  rw [atCs_onLink] at hx
  obtain ⟨tr₀, e, h1, h2⟩ := C12_crash_only hx (ht n) hcr
  refine ⟨n, tr₀, e, h1, ?_⟩
  rcases h2 with h2 | h2 | h2 | ⟨h2, -⟩
  · exact .inl h2
  · exact .inr (.inl h2)
  · exact .inr (.inr h2)
  · cases h2

/-! ### The bookkeeping follows the connections -/

theorem Exec.cutOff (h : Exec csURL tr w) {n : Nat} {l : Link F o₁ o₂} (hl : w.links[n]? = some l) : l.ends.cs.closed = true ↔ CutOff tr n := by
  have hx := (h.inv.ends n l hl).ends.2.1
  rw [atCs_onLink] at hx
  exact C30_closed_iff hx

/-- **C69** The channel that `WaitDisconnect(id)` returns is closed exactly when there was no connection of `id` at the call, or the
latest registered of them is cut off: closed locally, by a failed read, or by a panic of the handler. -/
theorem C69_waitDisconnect (h : Exec csURL tr w) (hr : Run csURL w tr' w') (id : String) :
    w'.reg.discClosed (w.reg.waitDisconnect id) = true ↔ ¬ Registered tr id ∨ ∃ n k, Latest tr n k id ∧ CutOff (tr ++ tr') n := by
  obtain ⟨h1, h2⟩ := h.conns id
  have hx := h.append hr
  unfold Registry.St.waitDisconnect
  cases hg : w.reg.conns.get id with
  | none => simp [Registry.St.discClosed, h2.1 hg]
  | some k =>
    obtain ⟨h3, n, h4⟩ := (h1 k).1 hg
    obtain ⟨hd, hmax⟩ := h4
    obtain ⟨l, c, hl, hlk, hc, -⟩ := hx.inv.accepted n k id (List.mem_append_left _ hd)
    have : w'.reg.discClosed (some k) = true ↔ CutOff (tr ++ tr') n := by
      obtain ⟨c', a1, a2, -⟩ := hx.inv.regd n k l hl hlk
      rw [hc] at a1; cases a1
      rw [← hx.cutOff hl, ← a2]
      simp [Registry.St.discClosed, hc]
    rw [this]
    constructor
    · intro hcut; exact .inr ⟨n, k, ⟨hd, hmax⟩, hcut⟩
    · rintro (h5 | ⟨m, j, ⟨hj, hm⟩, hcut⟩)
      · exact absurd h3 h5
      · have e : j = k := Nat.le_antisymm (hmax m j hj) (hm n k hd)
        subst e
        rw [(h.accepted_unique hd hj).2 ⟨rfl, rfl⟩]; exact hcut

/-- The registry's part of a continuation. -/
theorem Run.reg (hr : Run csURL w tr' w') :
    ∃ trR, Registry.Run w.reg trR w'.reg ∧ ∀ k id, Registry.Ev.handshake k id ∈ trR ↔ ∃ n, Accepted tr' n k id := by
  induction hr with
  | nil => exact ⟨[], .nil, by simp [Accepted]⟩
  | @snoc tr e w1 w2 hr hs ih =>
    obtain ⟨trR, h1, h2⟩ := ih
    cases hs with
    | dial _ _ =>
      refine ⟨_, h1, ?_⟩
      intro n id'
      simp [Accepted, h2]
    | @register n l id reg' _ _ _ _ hreg =>
      refine ⟨_, h1.snoc hreg, ?_⟩
      intro k id'
      simp only [Accepted, List.mem_append, List.mem_singleton, h2, Registry.Ev.handshake.injEq, Ev.register.injEq]
      constructor
      · rintro (⟨i, hi⟩ | ⟨rfl, rfl⟩)
        · exact ⟨i, .inl hi⟩
        · exact ⟨n, .inr ⟨rfl, rfl, rfl⟩⟩
      · rintro ⟨i, hi | ⟨rfl, rfl, rfl⟩⟩
        · exact .inl ⟨i, hi⟩
        · exact .inr ⟨rfl, rfl⟩
    | @reg e _ _ hreg h3 h4 _ =>
      refine ⟨_, h1.snoc hreg, ?_⟩
      intro n id'
      have := h3 n id'
      simp [Accepted, h2, Ne.symm this]
    | cp _ _ =>
      refine ⟨_, h1, ?_⟩
      intro n id'
      simp [Accepted, h2]
    | @cs n k e l c ends' _ hl hk hc hst _ =>
      rcases noteClosed_step w1.reg k ends'.cs.closed with h3 | h3
      · refine ⟨trR, by rw [h3]; exact h1, ?_⟩
        intro n id'
        simp [Accepted, h2]
      · refine ⟨_, h1.snoc h3, ?_⟩
        intro n id'
        simp [Accepted, h2]

/-- **C69** The channel that a call of `WaitConnect(id)` returns is closed exactly when `id` was registered at the call or has been registered
since. -/
theorem C69_waitConnect {w₁ : St F o₁ o₂} (h : Exec csURL tr w) (id : String) (c : Nat) (hw : Step csURL w (.reg (.waitConnect id c)) w₁)
    (hr : Run csURL w₁ tr' w') :
    w'.reg.chanClosed[c]? = some true ↔ Registered tr id ∨ ∃ n k, Accepted tr' n k id := by
  obtain ⟨trR, hR, hR1, -, hR3⟩ := h.inv.reg
  obtain ⟨trR', hR', hR1'⟩ := hr.reg
  have hst : Registry.Step w.reg (.waitConnect id c) w₁.reg := by
    generalize hev : Ev.reg (F := F) (o₁ := o₁) (o₂ := o₂) (.waitConnect id c) = ev at hw
    cases hw <;> cases hev
    assumption
  rw [Registry.C36_waitConnect hR hst hR']
  have e1 : Registry.Registered trR id ↔ Registered tr id := by
    rw [← not_iff_not, ← Registry.conns_none hR, (h.conns id).2]
  rw [e1]
  simp only [Registry.Made, hR1']
  rw [exists_comm]

/-- **C69** When the central system has come to rest: every connection made has been registered; a charge point is registered exactly if
one of its connections is not cut off; the connection listener was called exactly once for every connection, and the disconnection
listener exactly once for every connection that was cut off and not for the others. -/
theorem C69_rest (h : Exec csURL tr w) (ha : w.alive) (hq : Quiet csURL w) :
    (∀ n identity, Dialled tr n identity → ∃ k id, Accepted tr n k id) ∧
    (∀ id, Registered tr id ↔ ∃ n k, Accepted tr n k id ∧ ¬ CutOff tr n) ∧
    (∀ n k id, Accepted tr n k id →
      (regEvents tr).count (.connected k id) = 1 ∧
      (CutOff tr n → (regEvents tr).count (.disconnected k id) = 1) ∧
      (¬ CutOff tr n → (regEvents tr).count (.disconnected k id) = 0)) := by
  obtain ⟨trR, hR, hR1, hR2, hR3⟩ := h.inv.reg
  have hall : ∀ n identity, Dialled tr n identity → ∃ k id, Accepted tr n k id := by
    intro n identity hd
    obtain ⟨l, hl, -⟩ := h.inv.dialled n identity hd
    cases hr : l.reg with
    | some k =>
      obtain ⟨c, -, -, h3, -⟩ := h.inv.regd n k l hl hr
      exact ⟨k, c.cp, h3⟩
    | none =>
      obtain ⟨-, id, hid⟩ := h.inv.named n l hl
      exact (hq _ _ (.register ha hl hr hid (.handshake _))).elim
  -- steps of the registry that the bookkeeping takes are steps of the whole system
  have hserv : ∀ (n k : Nat) l c, w.links[n]? = some l → l.reg = some k → w.reg.table[k]? = some c → c.phase = .serving → c.closed = true →
      l.ends.cs.loop = .exited := by
    intro n k l c hl hk hc hp hcl
    have hnc : l.ends.cs.crashed = false := ha l (List.mem_of_getElem? hl)
    have hclo : l.ends.cs.closed = true := by
      obtain ⟨c', h1, h2, -⟩ := h.inv.regd n k l hl hk
      rw [hc] at h1; cases h1
      exact h2.symm.trans hcl
    have no : ∀ e s', Conn.Step .cs l.ends.cs e s' → ofLoop e = true → (∀ k f, e ≠ .read k f) → False := by
      intro e s' hst hol hnr
      have := hq _ _ (.cs ha hl hk hc (.cs hst (.other hnr)) (fun _ => hp))
      simp only [hol] at this
      cases this
    cases hloop : l.ends.cs.loop with
    | exited => rfl
    | top => exact (no _ _ (.spawn hnc hloop) rfl (by simp)).elim
    | sel k => exact (no _ _ (.seeClosed hnc hloop hclo) rfl (by simp)).elim
    | handling id r => exact (no _ _ (.handlerRet none none hnc hloop) rfl (by simp)).elim
    | answering id resp err =>
      cases hpan : ((ocppj F o₂ .cs).encReply id resp err).isPanic with
      | false => exact (no _ _ (.answerFail hnc hloop hpan) rfl (by simp)).elim
      | true => exact (no _ _ (.answerPanicCs hnc rfl hloop hpan) rfl (by simp)).elim
  have hQ : Registry.Quiet w.reg := by
    intro e s' hst
    by_cases hw : (∀ n id, e ≠ .handshake n id) ∧ ∀ n, e ≠ .drop n
    · have hstep : Step csURL w (.reg e) { w with reg := s' } := by
        refine .reg ha hst hw.1 hw.2 ?_
        rintro k id rfl
        generalize hev : Registry.Ev.leave k id = ev at hst
        cases hst <;> cases hev
        rename_i c hp hcl hc
        obtain ⟨n, l, hl, hk⟩ := h.inv.owner k c hc
        exact ⟨n, l, hl, hk, hserv n k l c hl hk hc hp hcl⟩
      have := hq _ _ hstep
      cases e <;> simp at this ⊢
    · cases e <;> simp at hw ⊢
  obtain ⟨h1, h2⟩ := Registry.C38_listeners_exactly_once hR hQ
  have hcount : ∀ e, own e = true → trR.count e = (regEvents tr).count e := by
    intro e he
    rw [← hR3, List.count_filter he]
  have hdrop : ∀ n k id, Accepted tr n k id → (Registry.Ev.drop k ∈ trR ↔ CutOff tr n) := by
    intro n k id hd
    obtain ⟨l, c, hl, hk, hc, -⟩ := h.inv.accepted n k id hd
    rw [hR2 k, ← h.cutOff hl]
    constructor
    · rintro ⟨m, l', h3, h4, h5⟩
      obtain rfl := h.inv.inj n m k l l' hl h3 hk h4
      rw [hl] at h3; cases h3; exact h5
    · intro h4; exact ⟨n, l, hl, hk, h4⟩
  refine ⟨hall, fun id => ?_, fun n k id hd => ?_⟩
  · have e1 : Registry.Registered trR id ↔ Registered tr id := by
      rw [← not_iff_not, ← Registry.conns_none hR, (h.conns id).2]
    rw [← e1, h2 id]
    simp only [Registry.Made, hR1, Registry.Closed]
    constructor
    · rintro ⟨k, ⟨n, hi⟩, h3⟩; exact ⟨n, k, hi, fun hc => h3 ((hdrop n k id hi).2 hc)⟩
    · rintro ⟨n, k, hi, h3⟩; exact ⟨k, ⟨n, hi⟩, fun hc => h3 ((hdrop n k id hi).1 hc)⟩
  · obtain ⟨h3, h4⟩ := h1 k id ((hR1 k id).2 ⟨n, hd⟩)
    rw [hcount _ rfl] at h3 h4
    refine ⟨h3, ?_, ?_⟩
    · intro hc; rw [h4, if_pos ((hdrop n k id hd).2 hc)]
    · intro hc; rw [h4, if_neg (fun hh => hc ((hdrop n k id hd).1 hh))]

/-- **C69** The handler is called, and replies are written, only for a charge point that is registered at that moment: on a connection
that is registered under this id, whose connection listener has been started, and with which the central system has not finished. -/
theorem C69_serving (h : Exec csURL tr w) {n : Nat} {id : String} {e : Conn.Ev (ocppj F o₂ .cs)} (hs : Step csURL w (.cs n id e) w')
    (he : ofLoop e = true) :
    Registered tr id ∧ ∃ k, Accepted tr n k id ∧ ¬ Ended tr n ∧ Ev.reg (.notify k id) ∈ tr ∧ Ev.reg (.leave k id) ∉ tr := by
  obtain ⟨trR, hR, hR1, hR2, hR3⟩ := h.inv.reg
  have hown : ∀ e, own e = true → (e ∈ trR ↔ Ev.reg e ∈ tr) := by
    intro e he
    rw [← mem_regEvents, ← hR3, List.mem_filter, and_iff_left he]
  generalize hev : Ev.cs (o₁ := o₁) n id e = ev at hs
  cases hs <;> cases hev
  rename_i k l c ends' ha hk hc hl hst hp
  replace hp := hp he
  obtain ⟨c', h1, -, h3, -⟩ := h.inv.regd n k l hl hk
  rw [hc] at h1; cases h1
  have hne : ¬ Ended tr n := by
    rintro ⟨j, id', h4, h5⟩
    obtain ⟨rfl, -⟩ := (h.accepted_unique h3 h4).1 rfl
    obtain ⟨d, h6, h7⟩ := (hR.hist.cleaned k).1 ((hown _ rfl).2 h5)
    rw [hc] at h6; cases h6
    rw [hp] at h7; cases h7
  refine ⟨⟨n, k, h3, hne⟩, k, h3, hne, (hown _ rfl).1 ((hR.hist.notif k _).2 ⟨c, hc, rfl, by rw [hp]; exact Nat.le_refl _⟩), ?_⟩
  intro hl'
  obtain ⟨d, h6, -, h7⟩ := (hR.hist.left k _).1 ((hown _ rfl).2 hl')
  rw [hc] at h6; cases h6
  rw [hp] at h7
  simp [Registry.Phase.ord] at h7

/-! ### Histories -/

/-- Events of one connection as events of the whole system. -/
def lift (n : Nat) (id : String) (t : List (Conn.Ev (ocppj F o₁ .cp) ⊕ Conn.Ev (ocppj F o₂ .cs))) : List (Ev F o₁ o₂) :=
  t.map fun
    | .inl e => .cp n e
    | .inr e => .cs n id e

theorem sys_not_crashed {x y : Sys F o₁ o₂} {e} (h : Sys.Step x e y) (hy : y.cs.crashed = false) : x.cs.crashed = false := by
  cases h with
  | cp _ _ => exact hy
  | cs h _ => exact step_not_crashed h

/-- What can happen on a connection alone can happen on a fresh connection of the whole system. -/
theorem lift_run {n k : Nat} {identity : Text} {c : Registry.CState} {t : List (Conn.Ev (ocppj F o₁ .cp) ⊕ Conn.Ev (ocppj F o₂ .cs))} {x : Sys F o₁ o₂}
    (ha : w.alive) (hl : w.links[n]? = some ⟨identity, Sys.init F o₁ o₂, some k⟩) (hc : w.reg.table[k]? = some c) (hp : c.phase = .serving)
    (ht : Sys.Exec t x) (hx : x.cs.crashed = false) :
    ∃ reg' d, Run csURL w (lift n c.cp t) ⟨reg', w.links.set n ⟨identity, x, some k⟩⟩ ∧ reg'.table[k]? = some d ∧ d.cp = c.cp ∧ d.phase = .serving := by
  induction ht with
  | nil =>
    refine ⟨w.reg, c, ?_, hc, rfl, hp⟩
    have : w.links.set n ⟨identity, Sys.init F o₁ o₂, some k⟩ = w.links := by
      rw [List.getElem?_eq_some_iff] at hl
      obtain ⟨h1, h2⟩ := hl
      rw [← h2]; simp
    rw [this]; exact .nil
  | @snoc t e x y ht hs ih =>
    have hxc := sys_not_crashed hs hx
    obtain ⟨reg', d, h1, h2, h3, h4⟩ := ih hxc
    have hlt := (List.getElem?_eq_some_iff.1 hl).1
    have hal : (⟨reg', w.links.set n ⟨identity, x, some k⟩⟩ : St F o₁ o₂).alive := by
      intro k hk
      rcases List.mem_or_eq_of_mem_set hk with h | rfl
      · exact ha k h
      · exact hxc
    have hg : (w.links.set n ⟨identity, x, some k⟩)[n]? = some ⟨identity, x, some k⟩ := by simp [hlt]
    have happ : lift n c.cp (t ++ [e]) = lift n c.cp t ++ lift n c.cp [e] := by simp [lift]
    rw [happ]
    rcases e with e | e
    · refine ⟨reg', d, ?_, h2, h3, h4⟩
      have := Run.snoc h1 (.cp (csURL := csURL) hg hs)
      simp only [List.set_set] at this
      exact this
    · have := Run.snoc h1 (.cs (csURL := csURL) hal hg rfl h2 hs (fun _ => h4))
      simp only [List.set_set] at this
      rw [h3] at this
      obtain ⟨d', hd'⟩ : ∃ d', (noteClosed reg' k y.cs.closed).table[k]? = some d' :=
        ⟨_, List.getElem?_eq_getElem (by rw [noteClosed_table]; exact (List.getElem?_eq_some_iff.1 h2).1)⟩
      obtain ⟨d2, h5, h6, -, h7⟩ := noteClosed_get _ _ _ _ _ hd'
      rw [h2] at h5; cases h5
      exact ⟨_, d', this, hd', h6.trans h3, h7.trans h4⟩

theorem step_alive_reg {e : Registry.Ev} {reg' : Registry.St} (ha : w.alive) (h : Registry.Step w.reg e reg')
    (he : own e = true) (hl : ∀ n id, e ≠ .leave n id) : Step csURL w (.reg e) { w with reg := reg' } :=
  .reg ha h (own_iff.1 he).1 (own_iff.1 he).2 (fun n id h => absurd h (hl n id))

theorem Exec.dialAt {identity id : Text} {n : Nat} (h : Exec csURL tr w) (ha : w.alive) (hid : Http.registeredAs csURL identity = some id)
    (hn : w.links.length = n) :
    Exec csURL (tr ++ [.dial n identity]) ⟨w.reg, w.links ++ [⟨identity, Sys.init F o₁ o₂, none⟩]⟩ := by
  subst hn; exact h.snoc (.dial ha hid)

theorem Exec.registerAt {id : Text} {n k : Nat} {l : Link F o₁ o₂} (h : Exec csURL tr w) (ha : w.alive) (hl : w.links[n]? = some l)
    (hr : l.reg = none) (hid : Http.registeredAs csURL l.identity = some id) (hk : w.reg.table.length = k) :
    Exec csURL (tr ++ [.register n k (String.ofList id)]) ⟨w.reg.register (String.ofList id), w.links.set n { l with reg := some k }⟩ := by
  subst hk; exact h.snoc (.register ha hl hr hid (.handshake _))

theorem alive_mk {reg reg' : Registry.St} {ls : List (Link F o₁ o₂)} (h : (⟨reg, ls⟩ : St F o₁ o₂).alive) : (⟨reg', ls⟩ : St F o₁ o₂).alive := h

theorem alive_init (ls : List (Text × Option Nat)) (reg : Registry.St) :
    (⟨reg, ls.map fun x => ⟨x.1, Sys.init F o₁ o₂, x.2⟩⟩ : St F o₁ o₂).alive := by
  intro l hl
  simp only [List.mem_map] at hl
  obtain ⟨x, -, rfl⟩ := hl
  rfl

/-- **C67** Such histories exist: two charge points with plain and distinct identities dial the same central system, which registers the
second first; `GetServiceOf` gives its own connection for each; and whatever can happen on a connection alone, such as the round
trips of C57, can then happen on the second. -/
theorem C67_possible (host : Text) (hh : Http.PlainHost host) (a b : Text) (ha : Http.PlainSegment a) (hb : Http.PlainSegment b) (hne : a ≠ b)
    (t : List (Conn.Ev (ocppj F o₁ .cp) ⊕ Conn.Ev (ocppj F o₂ .cs))) (x : Sys F o₁ o₂) (ht : Sys.Exec t x) (hx : x.cs.crashed = false) :
    ∃ (tr tr' : List (Ev F o₁ o₂)) (w w' : St F o₁ o₂), Exec host tr w ∧ w.alive ∧
      Dialled tr 0 a ∧ Dialled tr 1 b ∧ Accepted tr 1 0 (String.ofList b) ∧ Accepted tr 0 1 (String.ofList a) ∧
      w.reg.getServiceOf (String.ofList a) "V16" "" = .ok (.json 1) ∧ w.reg.getServiceOf (String.ofList b) "V16" "" = .ok (.json 0) ∧
      Run host w tr' w' ∧ w'.alive ∧ onLink 1 (tr ++ tr') = t := by
  have hra := (Http.C41_identity host hh [] (by simp) a ha).2
  have hrb := (Http.C41_identity host hh [] (by simp) b hb).2
  have hne' : String.ofList a ≠ String.ofList b := fun h => hne (String.ofList_injective h)
  have r0 := Exec.nil (F := F) (o₁ := o₁) (o₂ := o₂) (csURL := host)
  have r1 := r0.dialAt (n := 0) (alive_init [] _) hra rfl
  have r2 := r1.dialAt (n := 1) (alive_init [(a, none)] _) hrb rfl
  have r3 := r2.registerAt (n := 1) (k := 0) (l := ⟨b, Sys.init F o₁ o₂, none⟩) (alive_init [(a, none), (b, none)] _) rfl rfl hrb rfl
  have t1 : (Registry.St.register Registry.init (String.ofList b)).table = [⟨String.ofList b, .registered, false, false, false⟩] := register_table _ _
  have r4 := r3.registerAt (n := 0) (k := 1) (l := ⟨a, Sys.init F o₁ o₂, none⟩) (alive_init [(a, none), (b, some 0)] _) rfl rfl hra (congrArg List.length t1)
  have t2 : (Registry.St.register (Registry.St.register Registry.init (String.ofList b)) (String.ofList a)).table =
      [⟨String.ofList b, .registered, false, false, false⟩, ⟨String.ofList a, .registered, false, false, false⟩] := by
    rw [register_table, t1]; rfl
  have st3 := Registry.Step.notify (n := 0) (s := Registry.St.register (Registry.St.register Registry.init (String.ofList b)) (String.ofList a))
    (c := ⟨String.ofList b, .registered, false, false, false⟩) (by rw [t2]; rfl) rfl
  have r5 := r4.snoc (step_alive_reg (alive_init [(a, some 1), (b, some 0)] _) st3 rfl (by simp))
  obtain ⟨reg3, r5, ht3⟩ : ∃ reg3, Exec host [.dial 0 a, .dial 1 b, .register 1 0 (String.ofList b), .register 0 1 (String.ofList a),
        .reg (.notify 0 (String.ofList b))]
      (⟨reg3, [⟨a, Sys.init F o₁ o₂, some 1⟩, ⟨b, Sys.init F o₁ o₂, some 0⟩]⟩ : St F o₁ o₂) ∧
      reg3.table[0]? = some ⟨String.ofList b, .serving, false, false, false⟩ := by
    exact ⟨_, r5, by simp [t2]⟩
  have al3 : (⟨reg3, [⟨a, Sys.init F o₁ o₂, some 1⟩, ⟨b, Sys.init F o₁ o₂, some 0⟩]⟩ : St F o₁ o₂).alive := alive_init [(a, some 1), (b, some 0)] _
  obtain ⟨reg', d, hrun, -⟩ := lift_run (csURL := host) (n := 1) (k := 0) (identity := b) al3 rfl ht3 rfl ht hx
  refine ⟨_, _, _, _, r5, al3, ?_, ?_, ?_, ?_, ?_, ?_, hrun, ?_, ?_⟩
  · simp [Dialled]
  · simp [Dialled]
  · simp [Accepted]
  · simp [Accepted]
  · exact ((C67_service r5 _ _).1 1).2 (by simp [Registered, Latest, Accepted, Ended, hne', Ne.symm hne', hne, Ne.symm hne])
  · exact ((C67_service r5 _ _).1 0).2 (by simp [Registered, Latest, Accepted, Ended, hne', Ne.symm hne', hne, Ne.symm hne])
  · intro l hl
    simp at hl; rcases hl with rfl | rfl
    · rfl
    · exact hx
  · rw [onLink_append]
    have : ∀ t : List (Conn.Ev (ocppj F o₁ .cp) ⊕ Conn.Ev (ocppj F o₂ .cs)), onLink 1 (lift 1 (String.ofList b) t) = t := by
      intro t
      induction t with
      | nil => rfl
      | cons e t ih => 
        have : lift 1 (String.ofList b) (e :: t) = lift 1 (String.ofList b) [e] ++ lift 1 (String.ofList b) t := by simp [lift]
        rw [this, onLink_append, ih]
        rcases e with e | e <;> simp [lift, onLink]
    rw [this]
    simp [onLink]

/-- The hypotheses about host and identities hold of ordinary ones. -/
example : Http.PlainHost "cs.example:12811".toList ∧ Http.PlainSegment "CP-1".toList ∧ Http.PlainSegment "CP-2".toList ∧ "CP-1".toList ≠ "CP-2".toList := by
  refine ⟨?_, ⟨by decide, ?_, by decide, by decide⟩, ⟨by decide, ?_, by decide, by decide⟩, by decide⟩
  · unfold Http.PlainHost; decide
  · intro c hc; unfold Http.Unreserved; revert c; decide
  · intro c hc; unfold Http.Unreserved; revert c; decide

/-- **C68** It happens, at any time: one `Send` of a SendLocalList with an entry without expiry date, on any connection, stops the
central system for all charge points. -/
theorem C68_possible (h : Exec csURL tr w) (ha : w.alive) (n k : Nat) (id : String) (hd : Accepted tr n k id)
    (mid : String) (hmid : ∀ i r, Conn.Ev.send (S := ocppj F o₂ .cs) i mid r ∉ csEvents n tr) (r : Req) (hr : HasTy r.type.ty r.val)
    (ht : r.type = .csreqSendLocalList) (hb : ∃ v entries u, r.val = .struct [v, .slice entries, u] ∧ ∃ x ∈ entries, ExpiryMissing x) :
    ∃ i w', Step csURL w (.cs n id (.send (S := ocppj F o₂ .cs) i mid r)) w' ∧ ¬ w'.alive := by
  obtain ⟨l, c, hl, hk, hc, rfl⟩ := h.inv.accepted n k id hd
  have hpan : (marshal F r.type.ty r.val).isPanic = true := (C08_panic_iff F (.req r.type) r.val hr).2 ⟨by rw [ht], hb⟩
  obtain ⟨m, hm⟩ : ∃ m, encCall F mid r = .panic m := by
    cases hx : marshal F r.type.ty r.val with
    | ok t => rw [hx] at hpan; cases hpan
    | err e => rw [hx] at hpan; cases hpan
    | panic e => exact ⟨e, (C10_unsendable F mid r).2 e hx⟩
  have hfresh : ∀ x ∈ l.ends.cs.senders, x.id ≠ mid := by
    intro x hx he
    have hx' := (h.inv.ends n l hl).ends.2.1
    rw [atCs_onLink] at hx'
    obtain ⟨i, hi⟩ := List.mem_iff_getElem?.1 hx
    exact hmid i x.req (he ▸ List.singleton_sublist.1 (Conn.Exec.sends hx' i x hi).1)
  have hst := Conn.Step.sendPanic (S := ocppj F o₂ .cs) (side := .cs) (s := l.ends.cs) (id := mid) (r := r) (m := m)
    (ha l (List.mem_of_getElem? hl)) hfresh hm
  refine ⟨_, _, .cs ha hl hk hc (.cs hst (.other (by simp))) (by simp [ofLoop]), ?_⟩
  intro hal
  have := hal _ (List.mem_iff_getElem?.2 ⟨n, by simp [(List.getElem?_eq_some_iff.1 hl).1]; rfl⟩)
  cases this

/-- A SendLocalList of this kind. -/
example : ∃ r : Req, HasTy r.type.ty r.val ∧ r.type = .csreqSendLocalList ∧
    ∃ v entries u, r.val = .struct [v, .slice entries, u] ∧ ∃ x ∈ entries, ExpiryMissing x := by
  refine ⟨⟨.csreqSendLocalList, .struct [.int 1, .slice [.ptr (.struct [.str [], .ptr (.struct [.nil, .str [], .str []])])], .str []]⟩, ?_, rfl,
    .int 1, _, .str [], rfl, .ptr (.struct [.str [], .ptr (.struct [.nil, .str [], .str []])]), by simp, .str [], .str [], .str [], rfl⟩
  simp [ReqType.ty, csreq.SendLocalList, csreq.LocalAuthorizationListItems, csreq.IdTagInfo, HasTy, HasTys]

/-- **C69** Rest is reached: a charge point has dialled, the listener has been called and the serving loop waits for a frame. -/
theorem C69_rest_reached (identity id : Text) (hid : Http.registeredAs csURL identity = some id) :
    ∃ (tr : List (Ev F o₁ o₂)) (w : St F o₁ o₂), Exec csURL tr w ∧ w.alive ∧ Quiet csURL w ∧ Dialled tr 0 identity ∧
      Accepted tr 0 0 (String.ofList id) := by
  have r0 := (Exec.nil (F := F) (o₁ := o₁) (o₂ := o₂) (csURL := csURL)).dialAt (n := 0) (alive_init [] _) hid rfl
  have r1 := r0.registerAt (n := 0) (k := 0) (l := ⟨identity, Sys.init F o₁ o₂, none⟩) (alive_init [(identity, none)] _) rfl rfl hid rfl
  have t1 : (Registry.St.register Registry.init (String.ofList id)).table = [⟨String.ofList id, .registered, false, false, false⟩] := register_table _ _
  generalize hreg : Registry.St.register (init F o₁ o₂).reg (String.ofList id) = reg1 at r1
  have t1 : reg1.table = [⟨String.ofList id, .registered, false, false, false⟩] := by rw [← hreg]; exact t1
  have al1 : ∀ reg, (⟨reg, [⟨identity, Sys.init F o₁ o₂, some 0⟩]⟩ : St F o₁ o₂).alive := fun reg => alive_init [(identity, some 0)] reg
  have r2 := r1.snoc (step_alive_reg (al1 _) (Registry.Step.notify (n := 0) (s := reg1) (by rw [t1]; rfl) rfl) rfl (by simp))
  have r3 := r2.snoc (step_alive_reg (al1 _) (Registry.Step.connected (n := 0) (c := ⟨String.ofList id, .serving, false, false, false⟩)
    (by simp [t1]) (by simp) rfl) rfl (by simp))
  simp only [t1, List.set_cons_zero] at r3
  have r4 := r3.snoc (.cs (n := 0) (k := 0) (l := ⟨identity, Sys.init F o₁ o₂, some 0⟩) (c := ⟨String.ofList id, .serving, false, true, false⟩) (al1 _) rfl rfl (by simp)
    (.cs (Conn.Step.spawn rfl rfl) (.other (by simp))) (fun _ => rfl))
  refine ⟨_, _, r4, ?_, ?_, by simp [Dialled], by simp [Accepted]⟩
  · intro l hl; simp [init] at hl; subst hl; rfl
  · intro e w' hs
    generalize hW : (St.mk _ _ : St F o₁ o₂) = W at hs
    have hlinks : ∀ (n : Nat) l, W.links[n]? = some l → n = 0 ∧ l.reg = some 0 ∧ l.ends.cs.loop = .sel 0 ∧ l.ends.cs.closed = false ∧ l.ends.cs.readers = [.reading] := by
      rw [← hW]
      intro n l hl
      rcases n with _ | n
      · simp [init] at hl; subst hl; simp [Sys.init, Conn.init]
      · simp [init] at hl
    have htab : ∀ (n : Nat) c, W.reg.table[n]? = some c → n = 0 ∧ c = ⟨String.ofList id, .serving, false, true, false⟩ := by
      rw [← hW]
      intro n c hc
      rcases n with _ | n
      · simp [noteClosed, Sys.init, Conn.init] at hc; exact ⟨rfl, hc.symm⟩
      · simp [noteClosed, Sys.init, Conn.init] at hc
    cases hs with
    | dial => trivial
    | cp => trivial
    | register _ hl hr => obtain ⟨-, h, -⟩ := hlinks _ _ hl; rw [hr] at h; cases h
    | @reg e reg' hal hst h1 h2 h3 =>
      cases hst with
      | handshake => exact absurd rfl (h1 _ _)
      | drop => exact absurd rfl (h2 _)
      | waitConnect => trivial
      | notify hc hp => obtain ⟨-, rfl⟩ := htab _ _ hc; cases hp
      | connected hc hp hu => obtain ⟨-, rfl⟩ := htab _ _ hc; cases hu
      | disconnected hc hp hu => obtain ⟨-, rfl⟩ := htab _ _ hc; rcases hp with hp | hp <;> cases hp
      | leave hc hp hcl => obtain ⟨-, rfl⟩ := htab _ _ hc; cases hcl
      | cleanup hc hp => obtain ⟨-, rfl⟩ := htab _ _ hc; cases hp
    | @cs n k e l c ends' hal hl hk hc hst hloop =>
      obtain ⟨rfl, -, hsel, hclo, hrd⟩ := hlinks _ _ hl
      have key : ∀ s', Conn.Step .cs l.ends.cs e s' → ofLoop e = false := by
        intro s' hst
        cases hst with
        | spawn _ h => rw [hsel] at h; cases h
        | @take k _ _ _ _ h =>
          rw [hrd] at h
          rcases k with _ | k <;> simp at h
        | handlerRet _ _ _ h => rw [hsel] at h; cases h
        | answerOk _ h => rw [hsel] at h; cases h
        | answerFail _ h => rw [hsel] at h; cases h
        | handlerPanicCs _ _ h => rw [hsel] at h; cases h
        | handlerPanicCp _ h => cases h
        | answerPanicCs _ _ h => rw [hsel] at h; cases h
        | answerPanicCp _ h => cases h
        | @result k _ _ _ h =>
          rw [hrd] at h
          rcases k with _ | k <;> simp at h
        | seeClosed _ _ h => rw [hclo] at h; cases h
        | ctxDone _ h => cases h
        | _ => rfl
      generalize hev : (Sum.inr e : Conn.Ev (ocppj F o₁ .cp) ⊕ Conn.Ev (ocppj F o₂ .cs)) = ev at hst
      cases hst with
      | cp => cases hev
      | cs h _ => cases hev; exact key _ h

end Verif.World
