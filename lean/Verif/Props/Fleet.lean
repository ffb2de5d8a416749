import Verif.Lemmas.Fleet
/-!
# A central system and charge points that reconnect

Properties C79 to C82.
-/
set_option linter.unusedSimpArgs false
namespace Verif.Fleet
open Codec Ocppj World

variable {F : FloatFmt} {o₁ o₂ : Order} {csURL : Text} {ids : List Text} {tr tr' : List (Ev F o₁ o₂)} {s s' : St F o₁ o₂}

theorem worldEvents_append (tr tr' : List (Ev F o₁ o₂)) : worldEvents (tr ++ tr') = worldEvents tr ++ worldEvents tr' := by
  simp [worldEvents]

theorem connsOf_append (i : Nat) (tr tr' : List (Ev F o₁ o₂)) : connsOf i (tr ++ tr') = connsOf i tr ++ connsOf i tr' := by
  simp [connsOf]

theorem ownEvents_append (i : Nat) (tr tr' : List (Ev F o₁ o₂)) : ownEvents i (tr ++ tr') = ownEvents i tr ++ ownEvents i tr' := by
  simp [ownEvents]

theorem Exec.append (h : Exec csURL ids tr s) (hr : Run csURL s tr' s') : Exec csURL ids (tr ++ tr') s' := by
  induction hr with
  | nil => simpa using h
  | snoc _ hs ih => rw [← List.append_assoc]; exact .snoc ih hs

/-- The central system's part of a continuation. -/
theorem Step.world {e : Ev F o₁ o₂} (hs : Step csURL s e s') : World.Run csURL s.world (worldEvents [e]) s'.world := by
  cases hs with
  | dialled _ _ hw _ => exact .snoc (tr := []) .nil hw
  | halfDialled _ _ hw _ => exact .snoc (tr := []) .nil hw
  | self => exact .nil
  | on _ _ _ hw _ _ => exact .snoc (tr := []) .nil hw
  | cs _ hw => exact .snoc (tr := []) .nil hw

theorem _root_.Verif.World.Run.append' {w w' w'' : World.St F o₁ o₂} {t t' : List (World.Ev F o₁ o₂)} (h : World.Run csURL w t w')
    (h' : World.Run csURL w' t' w'') : World.Run csURL w (t ++ t') w'' := by
  induction h' with
  | nil => simpa using h
  | snoc _ hs ih => rw [← List.append_assoc]; exact .snoc ih hs

theorem Run.world (hr : Run csURL s tr' s') : World.Run csURL s.world (worldEvents tr') s'.world := by
  induction hr with
  | nil => exact .nil
  | snoc _ hs ih => rw [worldEvents_snoc]; exact ih.append' hs.world

theorem Step.on_inv {i k n : Nat} {e : Conn.Ev (ocppj F o₁ .cp)} (hs : Step csURL s (.on i k n e) s') :
    ∃ c w' st', s.cps[i]? = some c ∧ c.alive s.world ∧ c.links[k]? = some n ∧ World.Step csURL s.world (.cp n e) w' ∧
      (ofLoop e = true → c.st.conn = some k ∧ (c.st.phase = .select ∨ c.st.phase = .handling)) ∧ Faced k e c.st st' ∧
      s' = ⟨w', s.cps.set i { c with st := st' }⟩ := by
  generalize hev : Ev.on (o₂ := o₂) i k n e = ev at hs
  cases hs with
  | on h1 h2 h3 h4 h5 h6 => cases hev; exact ⟨_, _, _, h1, h2, h3, h4, h5, h6, rfl⟩
  | _ => cases hev

/-- A charge point's events on a connection are on one of its own. -/
theorem Exec.onOwn (h : Exec csURL ids tr s) {i k n : Nat} {e : Conn.Ev (ocppj F o₁ .cp)} (he : Ev.on i k n e ∈ tr) : (connsOf i tr)[k]? = some n := by
  induction h with
  | nil => cases he
  | @snoc tr e' s s' hx hs ih =>
    rw [connsOf_snoc]
    rw [List.mem_append, List.mem_singleton] at he
    rcases he with he | rfl
    · have := ih he
      rw [List.getElem?_append_left (lt_of_get this)]; exact this
    · obtain ⟨c, w', st', hc, -, hk, -⟩ := hs.on_inv
      rw [(hx.inv.links _ _ hc)] at hk
      rw [List.getElem?_append_left (lt_of_get hk)]; exact hk

theorem Exec.owner (h : Exec csURL ids tr s) {i k n : Nat} (hk : (connsOf i tr)[k]? = some n) :
    ∃ c, s.cps[i]? = some c ∧ c.links[k]? = some n := by
  cases hc : s.cps[i]? with
  | none =>
    rw [h.inv.none i (List.getElem?_eq_none_iff.1 hc)] at hk
    simp at hk
  | some c => exact ⟨c, rfl, by rw [h.inv.links i c hc]; exact hk⟩

theorem Exec.identityOf (h : Exec csURL ids tr s) {i : Nat} {c : Cp} (hc : s.cps[i]? = some c) : ids[i]? = some c.identity := by
  rw [← h.inv.ids, List.getElem?_map, hc]; rfl

/-- A connection belongs to one charge point. -/
theorem Exec.own_unique (h : Exec csURL ids tr s) {i j k m n : Nat} (h1 : (connsOf i tr)[k]? = some n) (h2 : (connsOf j tr)[m]? = some n) : i = j ∧ k = m := by
  obtain ⟨c, hc, hk⟩ := h.owner h1
  obtain ⟨d, hd, hm⟩ := h.owner h2
  exact h.inv.inj i j k m n c d hc hd hk hm

theorem mem_cp {n : Nat} {e : Conn.Ev (ocppj F o₁ .cp)} : World.Ev.cp n e ∈ worldEvents tr ↔ (∃ i k, Ev.on i k n e ∈ tr) ∨ Ev.cs (.cp n e) ∈ tr := by
  simp only [worldEvents, List.mem_filterMap]
  constructor
  · rintro ⟨e', h1, h2⟩
    cases e' <;> simp only [Option.some.injEq, reduceCtorEq, World.Ev.cp.injEq] at h2
    · obtain ⟨rfl, rfl⟩ := h2; exact .inl ⟨_, _, h1⟩
    · subst h2; exact .inr h1
  · rintro (⟨i, k, h⟩ | h)
    · exact ⟨_, h, rfl⟩
    · exact ⟨_, h, rfl⟩

theorem Exec.central (h : Exec csURL ids tr s) {e : World.Ev F o₁ o₂} (he : Ev.cs e ∈ tr) : atCentral e = true := by
  induction h with
  | nil => cases he
  | @snoc tr e' s s' hx hs ih =>
    rw [List.mem_append, List.mem_singleton] at he
    rcases he with he | rfl
    · exact ih he
    · generalize hev : Ev.cs e = ev at hs
      cases hs <;> cases hev
      assumption

theorem Exec.mem_cp (h : Exec csURL ids tr s) {n : Nat} {e : Conn.Ev (ocppj F o₁ .cp)} : World.Ev.cp n e ∈ worldEvents tr ↔ ∃ i k, Ev.on i k n e ∈ tr := by
  rw [Fleet.mem_cp]
  constructor
  · rintro (h1 | h1)
    · exact h1
    · have := h.central h1; cases this
  · exact .inl

theorem Exec.mem_central (_ : Exec csURL ids tr s) {e : World.Ev F o₁ o₂} (he : atCentral e = true) : e ∈ worldEvents tr ↔ Ev.cs e ∈ tr := by
  simp only [worldEvents, List.mem_filterMap]
  constructor
  · rintro ⟨e', h1, h2⟩
    cases e' <;> simp only [Option.some.injEq, reduceCtorEq] at h2 <;> subst h2
    · cases he
    · cases he
    · cases he
    · exact h1
  · intro h1; exact ⟨_, h1, rfl⟩

/-- A connection of a charge point was dialled by it. -/
theorem Exec.connDialled (h : Exec csURL ids tr s) {i k n : Nat} (hk : (connsOf i tr)[k]? = some n) :
    ∃ identity, ids[i]? = some identity ∧ Dialled (worldEvents tr) n identity := by
  obtain ⟨c, hc, hk⟩ := h.owner hk
  obtain ⟨l, h1, h2, -⟩ := h.inv.link i k n c hc hk
  exact ⟨c.identity, h.identityOf hc, h2 ▸ (h.inv.world.inv.named n l h1).1⟩

/-! ### C79: a charge point's Send and handler, over all its connections -/

/-- **C79** Whatever a central system with its connections does in the company of reconnecting charge points, it does according to C67 to
C69, and every charge point behaves according to C43 to C46: the history of each is one of theirs. -/
theorem C79_parts (h : Exec csURL ids tr s) :
    World.Exec csURL (worldEvents tr) s.world ∧
    ∀ (i : Nat) identity, ids[i]? = some identity → ∃ c, s.cps[i]? = some c ∧ c.identity = identity ∧ ChargePoint.Exec (ownEvents i tr) c.st := by
  refine ⟨h.inv.world, fun i identity hi => ?_⟩
  rw [← h.inv.ids, List.getElem?_map] at hi
  cases hc : s.cps[i]? with
  | none => rw [hc] at hi; cases hi
  | some c =>
    rw [hc] at hi
    exact ⟨c, rfl, Option.some.inj hi, h.inv.own i c hc⟩

/-- **C79** When a charge point's `Send` returns a response, the central system's handler was called exactly once for it, with the id that
the charge point's identity and the URL give, and the response is what that call returned; whichever of its connections it used. -/
theorem C79_send (h : Exec csURL ids tr s) {i k n j : Nat} {r : Resp} (hf : Ev.on i k n (.finish (S := ocppj F o₁ .cp) j (.resp r)) ∈ tr)
    (hp : Proper (cpEvents n (worldEvents tr))) (hs : Proper (csEvents n (worldEvents tr))) :
    ∃ identity id mid q resp x r₀ r', ids[i]? = some identity ∧ Http.registeredAs csURL identity = some (String.toList id) ∧
      Ev.on i k n (.send (S := ocppj F o₁ .cp) j mid q) ∈ tr ∧ HandledOnce o₂ (csEvents n (worldEvents tr)) mid q (some resp) none ∧ Returns q resp r ∧
      Ev.cs (.cs n id (.take (S := ocppj F o₂ .cs) x mid r₀ (some (some r')))) ∈ tr ∧ Arrives F o₂ q r' := by
  obtain ⟨identity, hi, hd⟩ := h.connDialled (h.onOwn hf)
  obtain ⟨a, id, mid, q, resp, x, r₀, r', h1, h2, h3, h4, h5, h6, h7⟩ := C67_response h.inv.world n identity hd hp hs j r (h.mem_cp.2 ⟨i, k, hf⟩)
  obtain ⟨i', k', h3⟩ := h.mem_cp.1 h3
  obtain ⟨rfl, rfl⟩ := h.own_unique (h.onOwn hf) (h.onOwn h3)
  exact ⟨identity, id, mid, q, resp, x, r₀, r', hi, h2, h3, h4, h5, (h.mem_central rfl).1 h6, h7⟩

/-- **C79** When a `Send` through `GetServiceOf(id, V16)` returns a response, the handler of a charge point whose identity and the URL give
`id` was called exactly once for it, and the response is what that call returned. -/
theorem C79_reach (h : Exec csURL ids tr s) (id url : String) (n k : Nat) (hg : s.world.reg.getServiceOf id "V16" url = .ok (.json k))
    (ha : Accepted (worldEvents tr) n k id) (hr : Run csURL s tr' s') (hp : Proper (cpEvents n (worldEvents (tr ++ tr'))))
    (hs : Proper (csEvents n (worldEvents (tr ++ tr')))) (j : Nat) (r : Resp)
    (hf : Ev.cs (.cs n id (.finish (S := ocppj F o₂ .cs) j (.resp r))) ∈ tr ++ tr') :
    ∃ i m identity mid q resp x r₀ r', ids[i]? = some identity ∧ Http.registeredAs csURL identity = some id.toList ∧ (connsOf i (tr ++ tr'))[m]? = some n ∧
      Ev.cs (.cs n id (.send (S := ocppj F o₂ .cs) j mid q)) ∈ tr ++ tr' ∧
      HandledOnce o₁ (cpEvents n (worldEvents (tr ++ tr'))) mid q (some resp) none ∧ Returns q resp r ∧
      Ev.on i m n (.take (S := ocppj F o₁ .cp) x mid r₀ (some (some r'))) ∈ tr ++ tr' ∧ Arrives F o₁ q r' := by
  have hx := h.append hr
  have hf' : Conn.Ev.finish (S := ocppj F o₂ .cs) j (.resp r) ∈ csEvents n (worldEvents tr ++ worldEvents tr') := by
    rw [← worldEvents_append]; exact mem_csEvents.2 ⟨id, (hx.mem_central rfl).2 hf⟩
  rw [worldEvents_append] at hp hs
  obtain ⟨identity, mid, q, resp, h1, h2, h3, h4, h5, h6⟩ := C67_addressed h.inv.world id url n k hg ha hr.world hp hs j r hf'
  have h5' := h5
  obtain ⟨⟨r', h7, h8⟩, -⟩ := h5'
  have hin : ((mid, some r') : String × Option Req) ∈ handled (cpEvents n (worldEvents tr ++ worldEvents tr')) :=
    (List.mem_filter.1 (h7 ▸ List.mem_singleton.2 rfl)).1
  obtain ⟨x, r₀, hk⟩ := mem_handled hin
  rw [← worldEvents_append] at hk h4 h5
  obtain ⟨i, m, hon⟩ := hx.mem_cp.1 (mem_cpEvents.1 hk)
  have hown := hx.onOwn hon
  obtain ⟨identity', hi, hd'⟩ := hx.connDialled hown
  obtain rfl : identity = identity' := hx.inv.world.dialled_unique (by rw [worldEvents_append]; exact List.mem_append_left _ h2) hd'
  obtain ⟨id', h9⟩ := mem_csEvents.1 h4
  obtain ⟨k', h10⟩ := hx.inv.world.csId h9
  obtain ⟨-, rfl⟩ := (hx.inv.world.accepted_unique h10 (by rw [worldEvents_append]; exact List.mem_append_left _ ha)).1 rfl
  exact ⟨i, m, identity, mid, q, resp, x, r₀, r', hi, h3, hown, (hx.mem_central rfl).1 h9, h5, h6, hon, h8⟩

/-- A step seen by charge point `i`. -/
theorem Step.own {e : Ev F o₁ o₂} (hs : Step csURL s e s') {i : Nat} {c : Cp} (hc : s.cps[i]? = some c) :
    ∃ c', s'.cps[i]? = some c' ∧ ChargePoint.Run c.st (ownEvents i [e]) c'.st := by
  have one : ∀ {st st' : ChargePoint.St} {f}, ChargePoint.Step st f st' → ChargePoint.Run st [f] st' := fun h => .snoc (tr := []) .nil h
  cases hs with
  | @dialled j d w' st' hd _ _ hst =>
    by_cases hji : j = i
    · subst hji
      rw [hc] at hd; cases hd
      refine ⟨_, by simp [lt_of_get hc]; rfl, ?_⟩
      simpa [ownEvents] using one hst
    · refine ⟨c, by simp only; rw [List.getElem?_set_ne hji]; exact hc, ?_⟩
      simpa [ownEvents, hji] using .nil
  | @halfDialled j d w' st' hd _ _ hst =>
    by_cases hji : j = i
    · subst hji
      rw [hc] at hd; cases hd
      refine ⟨_, by simp [lt_of_get hc]; rfl, ?_⟩
      simpa [ownEvents] using one hst
    · refine ⟨c, by simp only; rw [List.getElem?_set_ne hji]; exact hc, ?_⟩
      simpa [ownEvents, hji] using .nil
  | @self j d e st' hd _ _ hst =>
    by_cases hji : j = i
    · subst hji
      rw [hc] at hd; cases hd
      refine ⟨_, by simp [lt_of_get hc]; rfl, ?_⟩
      simpa [ownEvents] using one hst
    · refine ⟨c, by simp only; rw [List.getElem?_set_ne hji]; exact hc, ?_⟩
      simpa [ownEvents, hji] using .nil
  | @on j k n d w' st' e hd _ hk _ _ hf =>
    by_cases hji : j = i
    · subst hji
      rw [hc] at hd; cases hd
      refine ⟨_, by simp [lt_of_get hc]; rfl, ?_⟩
      cases hf with
      | silent h1 h2 => subst h2; simpa [ownEvents, h1] using .nil
      | step h1 h2 => simpa [ownEvents, h1] using one h2
    · refine ⟨c, by simp only; rw [List.getElem?_set_ne hji]; exact hc, ?_⟩
      simpa [ownEvents, hji] using .nil
  | cs => exact ⟨c, hc, by simpa [ownEvents] using .nil⟩

theorem Run.own (hr : Run csURL s tr' s') {i : Nat} {c : Cp} (hc : s.cps[i]? = some c) :
    ∃ c', s'.cps[i]? = some c' ∧ ChargePoint.Run c.st (ownEvents i tr') c'.st := by
  induction hr with
  | nil => exact ⟨c, hc, .nil⟩
  | snoc _ hs ih =>
    obtain ⟨c', h1, h2⟩ := ih
    obtain ⟨c'', h3, h4⟩ := hs.own h1
    exact ⟨c'', h3, by rw [ownEvents_snoc]; exact h2.append h4⟩

/-- While the charge point handles a request it does not take one, and stays with the connection. -/
theorem handling_until {i k : Nat} {c : Cp} (hr : Run csURL s tr' s') (hc : s.cps[i]? = some c) (hp : c.st.phase = .handling) (hk : c.st.conn = some k)
    (hn : ∀ n mid resp err f, Ev.on i k n (.answer (S := ocppj F o₁ .cp) mid resp err f) ∉ tr') :
    ∃ c', s'.cps[i]? = some c' ∧ c'.st.phase = .handling ∧ c'.st.conn = some k := by
  induction hr with
  | nil => exact ⟨c, hc, hp, hk⟩
  | @snoc t e s1 s2 _ hs ih =>
    obtain ⟨c1, h1, h2, h3⟩ := ih (fun n mid resp err f hm => hn n mid resp err f (List.mem_append_left _ hm))
    have hq : ∀ {f : ChargePoint.Ev} {st'}, ChargePoint.Step c1.st f st' → f ≠ .handled → st'.phase = .handling ∧ st'.conn = some k := by
      intro f st' hst hf
      cases hst <;> simp_all
    cases hs with
    | @dialled j d w' st' hd _ _ hst =>
      by_cases hji : j = i
      · subst hji
        rw [h1] at hd; cases hd
        exact ⟨_, by simp [lt_of_get h1]; rfl, hq hst (by simp)⟩
      · exact ⟨c1, by simp only; rw [List.getElem?_set_ne hji]; exact h1, h2, h3⟩
    | @halfDialled j d w' st' hd _ _ hst =>
      by_cases hji : j = i
      · subst hji
        rw [h1] at hd; cases hd
        exact ⟨_, by simp [lt_of_get h1]; rfl, hq hst (by simp)⟩
      · exact ⟨c1, by simp only; rw [List.getElem?_set_ne hji]; exact h1, h2, h3⟩
    | @self j d e st' hd _ hl hst =>
      by_cases hji : j = i
      · subst hji
        rw [h1] at hd; cases hd
        exact ⟨_, by simp [lt_of_get h1]; rfl, hq hst (by rintro rfl; cases hl)⟩
      · exact ⟨c1, by simp only; rw [List.getElem?_set_ne hji]; exact h1, h2, h3⟩
    | @on j k' n d w' st' e hd _ hk _ hloop hf =>
      by_cases hji : j = i
      · subst hji
        rw [h1] at hd; cases hd
        refine ⟨_, by simp [lt_of_get h1]; rfl, ?_⟩
        cases hf with
        | silent _ h5 => subst h5; exact ⟨h2, h3⟩
        | @step f h4 h5 =>
          refine hq h5 ?_
          rintro rfl
          cases e <;> simp [face] at h4
          have := (hloop rfl).1
          rw [h3] at this; cases this
          exact hn _ _ _ _ _ (List.mem_append_right _ (List.mem_singleton.2 rfl))
      · exact ⟨c1, by simp only; rw [List.getElem?_set_ne hji]; exact h1, h2, h3⟩
    | cs => exact ⟨c1, h1, h2, h3⟩

theorem Run.split {t t' : List (Ev F o₁ o₂)} {e : Ev F o₁ o₂} (h : Run csURL s (t ++ e :: t') s') :
    ∃ s1 s2, Run csURL s t s1 ∧ Step csURL s1 e s2 ∧ Run csURL s2 t' s' := by
  generalize hx : t ++ e :: t' = x at h
  induction h generalizing t' with
  | nil => simp at hx
  | @snoc tr e1 s1 s2 hr hs ih =>
    rcases List.eq_nil_or_concat t' with rfl | ⟨t'', e2, rfl⟩
    · obtain ⟨rfl, h2⟩ := List.append_inj' (s₁ := t) (t₁ := [e]) (s₂ := tr) (t₂ := [e1]) hx rfl
      cases h2
      exact ⟨s1, s2, hr, hs, .nil⟩
    · obtain ⟨rfl, h2⟩ := List.append_inj' (s₁ := t ++ e :: t'') (t₁ := [e2]) (s₂ := tr) (t₂ := [e1]) (by simpa using hx) rfl
      cases h2
      obtain ⟨a, b, h3, h4, h5⟩ := ih rfl
      exact ⟨a, b, h3, h4, by rw [List.concat_eq_append]; exact h5.snoc hs⟩

theorem Exec.run (h : Exec csURL ids tr s) : Run csURL (init F o₁ o₂ ids) tr s := by
  induction h with
  | nil => exact .nil
  | snoc _ hs ih => exact .snoc ih hs

theorem Run.exec (h : Run csURL (init F o₁ o₂ ids) tr s) : Exec csURL ids tr s := by
  have := Exec.append (.nil (csURL := csURL) (ids := ids)) h
  simpa using this

/-- The message whose handler call or reply is in progress. -/
def pend {S : Sem} : Conn.Loop S → Option String
  | .handling id _ => some id
  | .answering id _ _ => some id
  | _ => none

theorem pend_step {S : Sem} {a a' : Conn.St S} {e : Conn.Ev S} {mid : String} (h : Conn.Step .cp a e a') (hp : pend a.loop = some mid)
    (hn : ∀ resp err f, e ≠ .answer mid resp err f) : a'.crashed = true ∨ pend a'.loop = some mid := by
  cases h with
  | result _ h2 _ => rw [h2] at hp; cases hp
  | handlerPanicCs _ h => cases h
  | answerPanicCs _ h => cases h
  | handlerPanicCp => exact .inl rfl
  | answerPanicCp => exact .inl rfl
  | dispatchPanic => exact .inl rfl
  | sendPanic => exact .inl rfl
  | spawn _ h => rw [h] at hp; cases hp
  | take _ h _ => obtain ⟨_, h⟩ := h; rw [h] at hp; cases hp
  | handlerRet _ _ _ h => rw [h] at hp; exact .inr hp
  | answerOk _ h => rw [h] at hp; cases hp; exact absurd rfl (hn _ _ _)
  | answerFail _ h => rw [h] at hp; cases hp; exact absurd rfl (hn _ _ _)
  | seeClosed _ h h2 => rw [h] at hp; cases hp
  | ctxDone _ _ h => rw [h] at hp; cases hp
  | _ => exact .inr hp

/-- The end of connection `n` at the charge point has this call in progress, or has crashed. -/
def Pending (w : World.St F o₁ o₂) (n : Nat) (mid : String) : Prop :=
  ∃ l, w.links[n]? = some l ∧ (l.ends.cp.crashed = true ∨ pend l.ends.cp.loop = some mid)

theorem pending_until {n : Nat} {mid : String} (hr : Run csURL s tr' s') (hp : Pending s.world n mid)
    (hn : ∀ j k resp err f, Ev.on j k n (.answer (S := ocppj F o₁ .cp) mid resp err f) ∉ tr') : Pending s'.world n mid := by
  induction hr with
  | nil => exact hp
  | @snoc t e s1 s2 _ hs ih =>
    obtain ⟨l, hl, hq⟩ := ih (fun j k resp err f hm => hn j k resp err f (List.mem_append_left _ hm))
    cases hs with
    | dialled _ _ hw _ => exact ⟨l, by simp only [(dial_world hw).2]; exact get_left hl, hq⟩
    | halfDialled _ _ hw _ => exact ⟨l, by simp only [(dial_world hw).2]; exact get_left hl, hq⟩
    | self => exact ⟨l, hl, hq⟩
    | @on j k m d w' st' e hd _ hk hw hloop hf =>
      obtain ⟨l0, a', h1, h2, l', h3, -, -, h4, -⟩ := cp_world hw
      by_cases hmn : m = n
      · subst hmn
        obtain rfl : l = l0 := Option.some.inj (hl.symm.trans h1)
        refine ⟨l', by simp [h3, lt_of_get hl], ?_⟩
        rw [h4]
        rcases hq with hq | hq
        · rw [Conn.step_not_crashed h2] at hq; cases hq
        · refine pend_step h2 hq ?_
          rintro resp err f rfl
          exact hn _ _ _ _ _ (List.mem_append_right _ (List.mem_singleton.2 rfl))
      · exact ⟨l, by simp only [h3]; rw [List.getElem?_set_ne hmn]; exact hl, hq⟩
    | cs ha hw =>
      obtain ⟨l', h1, -, h2⟩ := (cs_world hw ha).2 n l hl
      exact ⟨l', h1, by rw [h2]; exact hq⟩

/-- **C79** A charge point handles one request at a time, over all its connections: between two requests that it takes, whichever
connections they came on, it has attempted the reply to the first. -/
theorem C79_one_at_a_time {t₁ t₂ t₃ : List (Ev F o₁ o₂)} {i k k' n n' x x' : Nat} {mid mid' : String} {r r' : Req} {q q'}
    (h : Exec csURL ids (t₁ ++ Ev.on i k n (.take (S := ocppj F o₁ .cp) x mid r q) :: (t₂ ++ Ev.on i k' n' (.take (S := ocppj F o₁ .cp) x' mid' r' q') :: t₃)) s) :
    ∃ resp err f, Ev.on i k n (.answer (S := ocppj F o₁ .cp) mid resp err f) ∈ t₂ := by
  by_contra hcon
  have hcon' : ∀ j m resp err f, Ev.on j m n (.answer (S := ocppj F o₁ .cp) mid resp err f) ∉ t₂ := by
    intro j m resp err f hm
    have e1 := h.onOwn (i := i) (k := k) (n := n) (e := .take (S := ocppj F o₁ .cp) x mid r q) (by simp)
    have e2 := h.onOwn (i := j) (k := m) (n := n) (e := .answer (S := ocppj F o₁ .cp) mid resp err f) (by simp [hm])
    obtain ⟨rfl, rfl⟩ := h.own_unique e1 e2
    exact hcon ⟨resp, err, f, hm⟩
  obtain ⟨s1, s2, hr0, hs, hr⟩ := h.run.split
  obtain ⟨s3, s4, hr2, hs2, -⟩ := hr.split
  have hx3 : Exec csURL ids (t₁ ++ [_] ++ t₂) s3 := (Exec.snoc hr0.exec hs).append hr2
  obtain ⟨c, w', st', hc, hal, hk, hw, hloop, hf, rfl⟩ := hs.on_inv
  have hst : ChargePoint.Step c.st (.handle k) st' := by
    cases hf with
    | silent h1 _ => cases h1
    | step h1 h2 => cases h1; exact h2
  have h3 : st'.phase = .handling ∧ st'.conn = some k := by cases hst; exact ⟨rfl, by assumption⟩
  have hpend : Pending (F := F) (o₁ := o₁) (o₂ := o₂) w' n mid := by
    obtain ⟨l0, a', h1, h2, l', h4, -, -, h5, -⟩ := cp_world hw
    refine ⟨l', by simp [h4, lt_of_get h1], ?_⟩
    rw [h5]
    generalize hev : Conn.Ev.take (S := ocppj F o₁ .cp) x mid r q = ev at h2
    cases h2 <;> cases hev
    right
    simp only [Conn.afterTake]
    split <;> rfl
  obtain ⟨l, hl, hp⟩ := pending_until hr2 hpend hcon'
  obtain ⟨c2, w2, st2, hc2, hal2, hk2, hw2, hloop2, hf2, rfl⟩ := hs2.on_inv
  -- nothing but the answer takes the charge point out of the handler
  by_cases hany : ∀ m mid resp err f, Ev.on i k m (.answer (S := ocppj F o₁ .cp) mid resp err f) ∉ t₂
  · obtain ⟨c', h4, h5, -⟩ := handling_until (i := i) (k := k) hr2 (c := { c with st := st' }) (by simp [lt_of_get hc]) h3.1 h3.2 hany
    rw [h4] at hc2; cases hc2
    cases hf2 with
    | silent h1 _ => cases h1
    | step h1 h2 => cases h1; cases h2; simp_all
  · push Not at hany
    obtain ⟨m, mid'', resp, err, f, hm⟩ := hany
    have e1 := h.onOwn (i := i) (k := k) (n := n) (e := .take (S := ocppj F o₁ .cp) x mid r q) (by simp)
    have e2 := h.onOwn (i := i) (k := k) (n := m) (e := .answer (S := ocppj F o₁ .cp) mid'' resp err f) (by simp [hm])
    rw [e1] at e2; cases e2
    -- the first answer on this connection is the one to the pending call
    obtain ⟨u, v, rfl⟩ := List.append_of_mem hm
    obtain ⟨s5, s6, hr5, hs5, -⟩ := hr2.split
    obtain ⟨l5, hl5, hp5⟩ := pending_until hr5 hpend (fun j k resp err f hm' => hcon' j k resp err f (List.mem_append_left _ hm'))
    obtain ⟨c5, w5, st5, hc5, hal5, hk5, hw5, -⟩ := hs5.on_inv
    obtain ⟨l0, a', h1, h2, -⟩ := cp_world hw5
    rw [hl5] at h1; cases h1
    rcases hp5 with hp5 | hp5
    · rw [Conn.step_not_crashed h2] at hp5; cases hp5
    · have hlp : pend l5.ends.cp.loop = some mid'' := by
        generalize hev : Conn.Ev.answer (S := ocppj F o₁ .cp) mid'' resp err f = ev at h2
        cases h2 <;> cases hev <;> simp_all [pend]
      rw [hp5] at hlp; cases hlp
      exact hcon' _ _ _ _ _ hm

/-- **C79** A charge point takes requests only from the connection that it made last, and its other connections are then closed; a `Send`
goes to the connection that it made last, or else to a closed one. -/
theorem C79_latest (h : Exec csURL ids tr s) {i k n : Nat} {e : Conn.Ev (ocppj F o₁ .cp)} (hs : Step csURL s (.on i k n e) s') :
    ((∃ x mid r q, e = .take x mid r q) → (connsOf i tr).getLast? = some n ∧
      ∀ m ∈ connsOf i tr, m ≠ n → ∀ l, s.world.links[m]? = some l → l.ends.cp.closed = true) ∧
    ((∃ x mid r, e = .send x mid r) → (connsOf i tr).getLast? = some n ∨ ∀ l, s.world.links[n]? = some l → l.ends.cp.closed = true) := by
  obtain ⟨c, w', st', hc, hal, hk, hw, hloop, hf, rfl⟩ := hs.on_inv
  have hcnt := h.inv.cnt i c hc
  have hown := h.inv.own i c hc
  have hlinks := h.inv.links i c hc
  have last : ∀ m : Nat, c.st.conns.length = m + 1 → ∀ n : Nat, c.links[m]? = some n → (connsOf i tr).getLast? = some n := by
    intro m h1 n h2
    rw [← hlinks, List.getLast?_eq_getElem?, ← hcnt, h1]; exact h2
  have closedAt : ∀ (m n : Nat), c.links[m]? = some n → c.st.connClosed m = true → ∀ l, s.world.links[n]? = some l → l.ends.cp.closed = true := by
    intro m n h1 h2 l hl
    obtain ⟨l', h3, -, h4⟩ := h.inv.link i m n c hc h1
    rw [hl] at h3; cases h3
    simpa [ChargePoint.St.connClosed, h4] using h2
  constructor
  · rintro ⟨x, mid, r, q, rfl⟩
    have hst : ChargePoint.Step c.st (.handle k) st' := by
      cases hf with
      | silent h1 _ => cases h1
      | step h1 h2 => cases h1; exact h2
    have hup : ChargePoint.up (ownEvents i tr) = true := by
      rw [hown.inv.up]; cases hst; simp_all [ChargePoint.Phase.isUp]
    obtain ⟨h1, -, h3⟩ := ChargePoint.C43_uses_new_connection hown hst rfl
    have hl := (ChargePoint.dialled_last hown.inv k).1 (h1 hup)
    refine ⟨last k hl n hk, ?_⟩
    intro m hm hmn
    rw [← hlinks] at hm
    obtain ⟨j, hj⟩ := List.mem_iff_getElem?.1 hm
    refine closedAt j m hj (h3 j ?_ ?_)
    · rw [ChargePoint.dialled_mem hown.inv, hcnt]; exact lt_of_get hj
    · rw [h1 hup]
      rintro ⟨⟩
      rw [hk] at hj; cases hj; exact hmn rfl
  · rintro ⟨x, mid, r, rfl⟩
    have hst : ChargePoint.Step c.st (.send k) st' := by
      cases hf with
      | silent h1 _ => cases h1
      | step h1 h2 => cases h1; exact h2
    obtain ⟨h1, h2, -⟩ := ChargePoint.C43_uses_new_connection hown hst rfl
    have : (ChargePoint.dialled (ownEvents i tr)).getLast? = some k ∨ c.st.connClosed k = true := by
      cases hu : ChargePoint.up (ownEvents i tr) with
      | true => exact .inl (h1 hu)
      | false => exact h2 hu
    rcases this with h4 | h4
    · exact .inl (last k ((ChargePoint.dialled_last hown.inv k).1 h4) n hk)
    · exact .inr (closedAt k n hk h4)

/-! ### C80: which connection `GetServiceOf` gives for a charge point that reconnects -/

theorem numbered_lt {w : World.St F o₁ o₂} {t t' : List (World.Ev F o₁ o₂)} (h : World.Exec csURL (t ++ t') w) {m j n k : Nat} {id id' : String}
    (h1 : Accepted t m j id) (h2 : Accepted t' n k id') : j < k := by
  have hm : ∀ {tr : List (World.Ev F o₁ o₂)} {n k id}, Accepted tr n k id → k ∈ (registrations tr).map (fun x => x.2.1) := by
    intro tr n k id h
    exact List.mem_map.2 ⟨(n, k, id), List.mem_filterMap.2 ⟨_, h, rfl⟩, rfl⟩
  have h3 := (C67_numbered h).1
  have happ : registrations (t ++ t') = registrations t ++ registrations t' := by simp [registrations]
  have h4 : ((registrations (t ++ t')).map (fun x => x.2.1)).Pairwise (· < ·) := by rw [h3]; exact List.pairwise_lt_range
  rw [happ, List.map_append] at h4
  exact (List.pairwise_append.1 h4).2.2 j (hm h1) k (hm h2)

theorem mem_dial {n : Nat} {identity : Text} (h : Exec csURL ids tr s) (hd : Dialled (worldEvents tr) n identity) :
    ∃ i, (∃ k, Ev.dialled i k n identity ∈ tr) ∨ Ev.halfDialled i n identity ∈ tr := by
  simp only [Dialled, worldEvents, List.mem_filterMap] at hd
  obtain ⟨e, h1, h2⟩ := hd
  cases e <;> simp only [Option.some.injEq, reduceCtorEq, World.Ev.dial.injEq] at h2
  · obtain ⟨rfl, rfl⟩ := h2; exact ⟨_, .inl ⟨_, h1⟩⟩
  · obtain ⟨rfl, rfl⟩ := h2; exact ⟨_, .inr h1⟩
  · subst h2; have := h.central h1; cases this

theorem Exec.dialIdentity (h : Exec csURL ids tr s) {i k n : Nat} {identity : Text} (he : Ev.dialled i k n identity ∈ tr ∨ Ev.halfDialled i n identity ∈ tr) :
    ids[i]? = some identity := by
  induction h with
  | nil => simp at he
  | @snoc tr e s s' hx hs ih =>
    simp only [List.mem_append, List.mem_singleton] at he
    have hold : Ev.dialled i k n identity ∈ tr ∨ Ev.halfDialled i n identity ∈ tr → ids[i]? = some identity := ih
    rcases he with (he | rfl) | (he | rfl)
    · exact hold (.inl he)
    · generalize hev : Ev.dialled (F := F) (o₁ := o₁) (o₂ := o₂) i k n identity = ev at hs
      cases hs with
      | dialled hc => cases hev; exact hx.identityOf hc
      | _ => cases hev
    · exact hold (.inr he)
    · generalize hev : Ev.halfDialled (F := F) (o₁ := o₁) (o₂ := o₂) i n identity = ev at hs
      cases hs with
      | halfDialled hc => cases hev; exact hx.identityOf hc
      | _ => cases hev

/-- Charge point `i` dials, whether or not it gets the answer. -/
def Ev.dialOf (i : Nat) : Ev F o₁ o₂ → Prop
  | .dialled j _ _ _ => j = i
  | .halfDialled j _ _ => j = i
  | _ => False

/-- **C80** If the central system had registered all connections that a charge point made before it dialled the last one, and no other charge
point's identity gives the same id, then `GetServiceOf` gives that last connection from its registration on, for as long as the central
system has any connection of the charge point. -/
theorem C80_current {t₁ t₂ : List (Ev F o₁ o₂)} {i k n r : Nat} {identity : Text} {id url : String}
    (h : Exec csURL ids (t₁ ++ Ev.dialled i k n identity :: t₂) s) (hlast : ∀ e ∈ t₂, ¬ e.dialOf i)
    (honly : ∀ j identity', ids[j]? = some identity' → Http.registeredAs csURL identity' = some id.toList → j = i)
    (hreg : ∀ m, Dialled (worldEvents t₁) m identity → ∃ a id', Accepted (worldEvents t₁) m a id')
    (ha : Accepted (worldEvents (t₁ ++ Ev.dialled i k n identity :: t₂)) n r id) :
    (s.world.reg.getServiceOf id "V16" url = .ok (.json r) ↔ Registered (worldEvents (t₁ ++ Ev.dialled i k n identity :: t₂)) id) ∧
    (¬ Ended (worldEvents (t₁ ++ Ev.dialled i k n identity :: t₂)) n → s.world.reg.getServiceOf id "V16" url = .ok (.json r)) := by
  have hW := h.inv.world
  have hsplit : worldEvents (t₁ ++ Ev.dialled i k n identity :: t₂) = worldEvents t₁ ++ worldEvents (Ev.dialled i k n identity :: t₂) := worldEvents_append _ _
  obtain ⟨s1, s2, hr1, hs1, -⟩ := h.run.split
  have hx1 := hr1.exec
  -- connection `n` is not there before it is made
  have hnew : ∀ a id', ¬ Accepted (worldEvents t₁) n a id' := by
    intro a id' hacc
    obtain ⟨l, c, hl, -⟩ := hx1.inv.world.inv.accepted _ _ _ hacc
    have hn : n = s1.world.links.length := by
      generalize hev : Ev.dialled (F := F) (o₁ := o₁) (o₂ := o₂) i k n identity = ev at hs1
      cases hs1 <;> cases hev
      rfl
    have := lt_of_get hl
    omega
  have hlat : Latest (worldEvents (t₁ ++ Ev.dialled i k n identity :: t₂)) n r id := by
    refine ⟨ha, fun m j hm => ?_⟩
    by_cases hmn : m = n
    · subst hmn
      exact ((hW.accepted_unique hm ha).1 rfl).1.le
    · obtain ⟨identity', hd, hid⟩ := hW.acceptedAs hm
      obtain ⟨i', hd'⟩ := mem_dial h hd
      have hi' : ids[i']? = some identity' := by
        rcases hd' with ⟨k', hd'⟩ | hd'
        · exact h.dialIdentity (.inl hd')
        · exact h.dialIdentity (k := 0) (.inr hd')
      obtain rfl := honly i' identity' hi' hid
      have hi : ids[i']? = some identity := h.dialIdentity (i := i') (k := k) (n := n) (.inl (by simp))
      rw [hi] at hi'; cases hi'
      have hd1 : Dialled (worldEvents t₁) m identity := by
        simp only [List.mem_append, List.mem_cons] at hd'
        rcases hd' with ⟨k', h1 | h1 | h1⟩ | h1 | h1 | h1
        · exact List.mem_filterMap.2 ⟨_, h1, rfl⟩
        · cases h1; exact absurd rfl hmn
        · exact absurd rfl (hlast _ h1)
        · exact List.mem_filterMap.2 ⟨_, h1, rfl⟩
        · cases h1
        · exact absurd rfl (hlast _ h1)
      obtain ⟨a, id', hacc⟩ := hreg m hd1
      have hacc' : Accepted (worldEvents (t₁ ++ Ev.dialled i' k n identity :: t₂)) m a id' := by
        rw [hsplit]; exact List.mem_append_left _ hacc
      obtain ⟨rfl, rfl⟩ := (hW.accepted_unique hm hacc').1 rfl
      rw [hsplit] at ha hW
      rcases List.mem_append.1 ha with h5 | h5
      · exact absurd h5 (hnew _ _)
      · exact (numbered_lt hW hacc h5).le
  have key := (C67_service hW id url).1 r
  refine ⟨key.trans ⟨fun hh => hh.1, fun hh => ⟨hh, n, hlat⟩⟩, fun hne => key.2 ⟨⟨n, r, ha, hne⟩, n, hlat⟩⟩

/-- **C81** Otherwise it may not: once the central system registered another connection under the id after the one that the charge point
serves, `GetServiceOf` gives the charge point's connection never again. -/
theorem C81_overtaken {t₁ t₂ : List (Ev F o₁ o₂)} (h : Exec csURL ids (t₁ ++ t₂) s) {n m k j : Nat} {id url : String}
    (h1 : Accepted (worldEvents t₁) n k id) (h2 : Accepted (worldEvents t₂) m j id) (hr : Run csURL s tr' s') :
    s'.world.reg.getServiceOf id "V16" url ≠ .ok (.json k) := by
  intro hg
  have hx := h.append hr
  have hW := hx.inv.world
  have hlt := numbered_lt (t := worldEvents t₁) (t' := worldEvents t₂) (by rw [← worldEvents_append]; exact h.inv.world) h1 h2
  obtain ⟨-, n', h3, h4⟩ := ((C67_service hW id url).1 k).1 hg
  have := h4 m j (by rw [worldEvents_append, worldEvents_append]; exact List.mem_append_left _ (List.mem_append_right _ h2))
  omega

/-- **C81** What `GetServiceOf` gives stays the same until another connection is registered under the id, or the last one with it is
gone: also when the one it gives is closed and finished with. -/
theorem C81_stays (h : Exec csURL ids tr s) {k : Nat} {id url : String} (hg : s.world.reg.getServiceOf id "V16" url = .ok (.json k))
    (hr : Run csURL s tr' s') (hn : ∀ m j, ¬ Accepted (worldEvents tr') m j id) :
    (Registered (worldEvents (tr ++ tr')) id → s'.world.reg.getServiceOf id "V16" url = .ok (.json k)) ∧
    (¬ Registered (worldEvents (tr ++ tr')) id → ∃ e, s'.world.reg.getServiceOf id "V16" url = .err e) := by
  have hx := h.append hr
  obtain ⟨-, n, h3, h4⟩ := ((C67_service h.inv.world id url).1 k).1 hg
  refine ⟨fun hreg => ((C67_service hx.inv.world id url).1 k).2 ⟨hreg, n, ?_, ?_⟩, fun hreg => (C67_service hx.inv.world id url).2.1.2 hreg⟩
  · rw [worldEvents_append]; exact List.mem_append_left _ h3
  · intro m j hm
    rw [worldEvents_append] at hm
    rcases List.mem_append.1 hm with hm | hm
    · exact h4 m j hm
    · exact absurd hm (hn m j)

/-! ### C82: coming back -/

/-- A charge point whose process is up, at a central system that is up. -/
structure Up (s : St F o₁ o₂) (i : Nat) (c : Cp) : Prop where
  get : s.cps[i]? = some c
  alive : c.alive s.world
  central : s.world.alive

/-- A step of the charge point alone. -/
theorem Up.self {i : Nat} {c : Cp} {e : ChargePoint.Ev} {st' : ChargePoint.St} (h : Up s i c) (he : isLocal e = true) (hs : ChargePoint.Step c.st e st') :
    ∃ s', Step csURL s (.self i e) s' ∧ Up s' i { c with st := st' } ∧ s'.world = s.world :=
  ⟨_, .self h.get h.alive he hs, ⟨by simp [lt_of_get h.get], h.alive, h.central⟩, rfl⟩

/-- A step at the charge point's end of a connection that does not crash it. -/
theorem Up.on {i k n : Nat} {c : Cp} {e : Conn.Ev (ocppj F o₁ .cp)} {st' : ChargePoint.St} {l : Link F o₁ o₂} {a' : Conn.St (ocppj F o₁ .cp)}
    (h : Up s i c) (hk : c.links[k]? = some n) (hl : s.world.links[n]? = some l) (ha : Conn.Step .cp l.ends.cp e a') (hcr : a'.crashed = false)
    (hr : ∀ k f, e ≠ .read k f) (hloop : ofLoop e = true → c.st.conn = some k ∧ (c.st.phase = .select ∨ c.st.phase = .handling)) (hf : Faced k e c.st st') :
    ∃ s', Step csURL s (.on i k n e) s' ∧ Up s' i { c with st := st' } ∧
      (∃ l', s'.world.links = s.world.links.set n l' ∧ l'.ends.cp = a' ∧ l'.identity = l.identity ∧ l'.reg = l.reg ∧ l'.ends.cs = l.ends.cs) := by
  refine ⟨_, .on h.get h.alive hk (.cp hl (.cp ha (.other hr))) hloop hf, ⟨by simp [lt_of_get h.get], ?_, ?_⟩, _, rfl, rfl, rfl, rfl, rfl⟩
  · intro m hm l' hl'
    rcases get_set hl' with ⟨-, h2⟩ | ⟨rfl, rfl⟩
    · exact h.alive m hm l' h2
    · exact hcr
  · exact (C68_chargePoint_crash (csURL := csURL) (.cp hl (.cp ha (.other hr)))).1.2 h.central

/-- What the library does, without the user and with a network that lets the dial through, from the point where a charge point has a
connection that turns out to be closed. -/
def comeback (i k n x k' n' r : Nat) (identity : Text) (id : String) : List (Ev F o₁ o₂) :=
  [.self i .setConn, .self i .setService, .self i .announce, .on i k n (.spawn x), .on i k n .seeClosed, .self i .renew,
    .dialled i k' n' identity, .self i .setConn, .self i .setService, .self i .announce, .cs (.register n' r id)]

theorem Run.trans {s1 s2 s3 : St F o₁ o₂} {t t' : List (Ev F o₁ o₂)} (h : Run csURL s1 t s2) (h' : Run csURL s2 t' s3) : Run csURL s1 (t ++ t') s3 := by
  induction h' with
  | nil => simpa using h
  | snoc _ hs ih => rw [← List.append_assoc]; exact .snoc ih hs

theorem Run.cons {s1 s2 s3 : St F o₁ o₂} {e : Ev F o₁ o₂} {t : List (Ev F o₁ o₂)} (h : Step csURL s1 e s2) (h' : Run csURL s2 t s3) : Run csURL s1 (e :: t) s3 :=
  Run.trans (.snoc (tr := []) .nil h) h'

/-- The outcome: it has a new connection, open, up and registered, on which nothing has happened yet, and `GetServiceOf` gives this one;
nobody has crashed. -/
structure Back (csURL : Text) (ids : List Text) (tr : List (Ev F o₁ o₂)) (s : St F o₁ o₂) (i : Nat) (id : String) : Prop where
  exec : Exec csURL ids tr s
  back : ∃ n r, (connsOf i tr).getLast? = some n ∧ Accepted (worldEvents tr) n r id ∧ s.world.reg.getServiceOf id "V16" "" = .ok (.json r) ∧
    ChargePoint.up (ownEvents i tr) = true ∧ (∃ l, s.world.links[n]? = some l ∧ l.ends.cp.closed = false ∧ l.ends.cs.closed = false) ∧
    onLink n (worldEvents tr) = []
  running : s.world.alive ∧ ∀ n ∈ connsOf i tr, ∀ l, s.world.links[n]? = some l → l.ends.cp.crashed = false

/-- The dial goes through and the charge point starts to serve the connection. -/
theorem connect {i : Nat} {c : Cp} {id : Text} (h : Exec csURL ids tr s) (hu : Up s i c) (hp : c.st.phase = .dialing)
    (hid : Http.registeredAs csURL c.identity = some id) :
    ∃ s' c', Run csURL s [.dialled i c.links.length s.world.links.length c.identity, .self i .setConn, .self i .setService, .self i .announce] s' ∧
      Up s' i c' ∧ c'.identity = c.identity ∧ c'.links = c.links ++ [s.world.links.length] ∧ c'.st.phase = .select ∧ c'.st.conn = some c.links.length ∧
      c'.st.service = some c.links.length ∧ s'.world.links = s.world.links ++ [⟨c.identity, Sys.init F o₁ o₂, none⟩] ∧ s'.world.reg = s.world.reg := by
  have hcnt := h.inv.cnt i c hu.get
  have hst := ChargePoint.Step.dialOk hp
  rw [hcnt] at hst
  have s1 := Step.dialled hu.get hu.alive (.dial (csURL := csURL) hu.central hid) hst
  generalize hS1 : (St.mk _ _ : St F o₁ o₂) = S1 at s1
  generalize hc1 : ({ c with st := _, links := _ } : Cp) = c1 at hS1
  have hlinks1 : S1.world.links = s.world.links ++ [⟨c.identity, Sys.init F o₁ o₂, none⟩] := by rw [← hS1]
  have hu1 : Up S1 i c1 := by
    refine ⟨by rw [← hS1]; simp [lt_of_get hu.get], ?_, ?_⟩
    · intro m hm l hl
      rw [hlinks1] at hl
      rcases get_snoc hl with hl | ⟨-, rfl⟩
      · rw [← hc1] at hm
        rcases List.mem_append.1 hm with hm | hm
        · exact hu.alive m hm l hl
        · rw [List.mem_singleton] at hm; have := lt_of_get hl; omega
      · rfl
    · intro l hl
      rw [hlinks1, List.mem_append, List.mem_singleton] at hl
      rcases hl with hl | rfl
      · exact hu.central l hl
      · rfl
  have hph1 : c1.st.phase = .dialled c.links.length := by rw [← hc1]
  obtain ⟨S2, s2, hu2, hw2⟩ := hu1.self (csURL := csURL) (e := .setConn) rfl (.setConn hph1)
  obtain ⟨S3, s3, hu3, hw3⟩ := hu2.self (csURL := csURL) (e := .setService) rfl (.setService rfl)
  obtain ⟨S4, s4, hu4, hw4⟩ := hu3.self (csURL := csURL) (e := .announce) rfl (.announce rfl)
  have hw : S4.world = S1.world := hw4.trans (hw3.trans hw2)
  refine ⟨S4, _, .cons s1 (.cons s2 (.cons s3 (.cons s4 .nil))), hu4, ?_, ?_, rfl, rfl, rfl, by rw [hw]; exact hlinks1, by rw [hw, ← hS1]⟩
  · simp only [← hc1]
  · simp only [← hc1]

/-- The central system registers a connection. -/
theorem Up.register {i n : Nat} {c : Cp} {id : Text} {l : Link F o₁ o₂} (hu : Up s i c) (hl : s.world.links[n]? = some l) (hr : l.reg = none)
    (hid : Http.registeredAs csURL l.identity = some id) :
    ∃ s', Step csURL s (.cs (.register n s.world.reg.table.length (String.ofList id))) s' ∧ Up s' i c ∧
      s'.world.links = s.world.links.set n { l with reg := some s.world.reg.table.length } ∧
      s'.world.reg.table = s.world.reg.table ++ [⟨String.ofList id, .registered, false, false, false⟩] := by
  refine ⟨_, .cs rfl (.register hu.central hl hr hid (.handshake _)), ⟨hu.get, ?_, ?_⟩, rfl, register_table _ _⟩
  · intro m hm l' hl'
    rcases get_set hl' with ⟨-, h2⟩ | ⟨rfl, rfl⟩
    · exact hu.alive m hm l' h2
    · exact hu.alive m hm l hl
  · intro l' hl'
    rcases List.mem_or_eq_of_mem_set hl' with h2 | rfl
    · exact hu.central l' h2
    · exact hu.central l (List.mem_of_getElem? hl)

theorem fromDialing {i : Nat} {c : Cp} {id : Text} (h : Exec csURL ids tr s) (hu : Up s i c) (hp : c.st.phase = .dialing)
    (hid : Http.registeredAs csURL c.identity = some id) :
    ∃ s' r, Run csURL s [.dialled i c.links.length s.world.links.length c.identity, .self i .setConn, .self i .setService, .self i .announce,
        .cs (.register s.world.links.length r (String.ofList id))] s' ∧
      Back csURL ids (tr ++ [.dialled i c.links.length s.world.links.length c.identity, .self i .setConn, .self i .setService, .self i .announce,
        .cs (.register s.world.links.length r (String.ofList id))]) s' i (String.ofList id) := by
  obtain ⟨S4, c4, hrun4, hu4, -, -, -, -, -, hlinks4, hreg4⟩ := connect h hu hp hid
  have hget : S4.world.links[s.world.links.length]? = some ⟨c.identity, Sys.init F o₁ o₂, none⟩ := by
    rw [hlinks4]; simp
  obtain ⟨S5, s5, hu5, hlinks5, -⟩ := hu4.register (csURL := csURL) hget rfl hid
  have hrun := Run.trans hrun4 (.cons s5 .nil)
  have hx := h.append hrun
  refine ⟨_, _, hrun, hx, ?_, hu5.central, fun n hn l hl => hu5.alive n (by rw [hx.inv.links i c4 hu5.get]; exact hn) l hl⟩
  simp only [List.cons_append, List.nil_append] at hx
  have hacc : Accepted (worldEvents (tr ++ [Ev.dialled i c.links.length s.world.links.length c.identity, .self i .setConn, .self i .setService, .self i .announce,
        .cs (.register s.world.links.length S4.world.reg.table.length (String.ofList id))])) s.world.links.length S4.world.reg.table.length (String.ofList id) :=
    (hx.mem_central rfl).2 (by simp)
  refine ⟨s.world.links.length, S4.world.reg.table.length, ?_, hacc, ?_, ?_, ?_, ?_⟩
  · rw [connsOf_append]
    simp [connsOf]
  · refine ((C67_service hx.inv.world _ _).1 _).2 ⟨⟨_, _, hacc, ?_⟩, _, hacc, ?_⟩
    · rintro ⟨k, id', h1, h2⟩
      obtain ⟨rfl, -⟩ := (hx.inv.world.accepted_unique hacc h1).1 rfl
      -- a registration just made is not finished with
      obtain ⟨trR, hR, hR1, hR2, hR3⟩ := h.inv.world.inv.reg
      have h2' : World.Ev.reg (.cleanup S4.world.reg.table.length) ∈ worldEvents tr := by
        rw [worldEvents_append] at h2
        rcases List.mem_append.1 h2 with h2 | h2
        · exact h2
        · simp [worldEvents] at h2
      have h3 : Registry.Ev.cleanup S4.world.reg.table.length ∈ trR := by
        have := mem_regEvents.2 h2'
        rw [← hR3] at this
        exact (List.mem_filter.1 this).1
      obtain ⟨d, h6, -⟩ := (hR.hist.cleaned _).1 h3
      rw [hreg4] at h6
      have := lt_of_get h6
      omega
    · intro m j hm
      have hx' := hx.inv.world
      rw [worldEvents_append] at hx' hm
      rcases List.mem_append.1 hm with hm | hm
      · refine (numbered_lt hx' hm (n := s.world.links.length) (id' := String.ofList id) ?_).le
        simp [worldEvents, Accepted]
      · simp [worldEvents, Accepted] at hm
        omega
  · rw [ownEvents_append]
    simp [ownEvents, ChargePoint.up]
  · refine ⟨⟨c.identity, Sys.init F o₁ o₂, some S4.world.reg.table.length⟩, ?_, rfl, rfl⟩
    rw [hlinks5]
    simp [lt_of_get hget]
  · rw [worldEvents_append, onLink_append, h.inv.world.inv.none _ le_rfl]
    simp [worldEvents, onLink]

/-- The charge point can come to the beginning of `dial` doing some of these. -/
def ToDialing (csURL : Text) (s : St F o₁ o₂) (i : Nat) (c : Cp) (l : List (Ev F o₁ o₂)) : Prop :=
  ∃ t s' c', Run csURL s t s' ∧ Up s' i c' ∧ c'.st.phase = .dialing ∧ c'.identity = c.identity ∧ c'.links = c.links ∧ t.Sublist l

theorem ToDialing.cons {i : Nat} {c c1 : Cp} {s1 : St F o₁ o₂} {e : Ev F o₁ o₂} {l : List (Ev F o₁ o₂)} (h : Step csURL s e s1)
    (h2 : ToDialing csURL s1 i c1 l) (h3 : c1.identity = c.identity) (h4 : c1.links = c.links) : ToDialing csURL s i c (e :: l) := by
  obtain ⟨t, s', c', a1, a2, a3, a4, a5, a6⟩ := h2
  exact ⟨_, s', c', .cons h a1, a2, a3, a4.trans h3, a5.trans h4, a6.cons_cons _⟩

theorem ToDialing.skip {i : Nat} {c : Cp} {e : Ev F o₁ o₂} {l : List (Ev F o₁ o₂)} (h2 : ToDialing csURL s i c l) : ToDialing csURL s i c (e :: l) := by
  obtain ⟨t, s', c', a1, a2, a3, a4, a5, a6⟩ := h2
  exact ⟨t, s', c', a1, a2, a3, a4, a5, a6.cons _⟩

theorem toDialing_lost {i : Nat} {c : Cp} (hu : Up s i c) (hp : c.st.phase = .lost) : ToDialing csURL s i c [.self i .renew] := by
  obtain ⟨s1, h1, hu1, -⟩ := hu.self (csURL := csURL) (e := .renew) rfl (.renew hp)
  exact ToDialing.cons h1 ⟨[], s1, _, .nil, hu1, rfl, rfl, rfl, List.Sublist.refl _⟩ rfl rfl

theorem toDialing_select {i k n : Nat} {c : Cp} (h : Exec csURL ids tr s) (hu : Up s i c) (hp : c.st.phase = .select) (hc : c.st.conn = some k)
    (hk : c.links[k]? = some n) (hcl : c.st.connClosed k = true) : ∃ x, ToDialing csURL s i c [.on i k n (.spawn x), .on i k n .seeClosed, .self i .renew] := by
  obtain ⟨l, hl, -, hlc⟩ := h.inv.link i k n c hu.get hk
  have hcl' : l.ends.cp.closed = true := by simpa [ChargePoint.St.connClosed, hlc] using hcl
  have hcr : l.ends.cp.crashed = false := hu.alive n (List.mem_of_getElem? hk) l hl
  have hloop := h.inv.loop i k n c l hu.get hu.alive hk hl
  simp only [kindOf, hc, hp, if_true] at hloop
  -- seeing the closed connection
  have see : ∀ {s : St F o₁ o₂} {c1 : Cp} {l : Link F o₁ o₂} {j : Nat}, Up s i c1 → c1.st = c.st → c1.links = c.links → c1.identity = c.identity →
      s.world.links[n]? = some l → l.ends.cp.crashed = false → l.ends.cp.loop = .sel j → l.ends.cp.closed = true →
      ToDialing csURL s i c [.on i k n .seeClosed, .self i .renew] := by
    intro s c1 l j hu e1 e2 e3 hl hcr hlp hcl2
    have hst : ChargePoint.Step c1.st .seeClosed { c1.st with phase := .lost } := .seeClosed (by rw [e1]; exact hp) (by rw [e1]; exact hc) (by rw [e1]; exact hcl)
    obtain ⟨s1, h1, hu1, -⟩ := hu.on (csURL := csURL) (k := k) (e := .seeClosed) (by rw [e2]; exact hk) hl (.seeClosed hcr hlp hcl2) hcr (by simp)
      (fun _ => by rw [e1]; exact ⟨hc, .inl hp⟩) (.step rfl hst)
    exact ToDialing.cons h1 (toDialing_lost hu1 rfl) e3 e2
  cases hlp : l.ends.cp.loop with
  | sel j => exact ⟨0, (see hu rfl rfl rfl hl hcr hlp hcl').skip⟩
  | top =>
    obtain ⟨s1, h1, hu1, l', h2, h3, -⟩ := hu.on (csURL := csURL) (k := k) (e := .spawn l.ends.cp.readers.length) (st' := c.st) hk hl
      (.spawn hcr hlp) hcr (by simp) (fun _ => ⟨hc, .inl hp⟩) (.silent rfl rfl)
    refine ⟨_, ToDialing.cons h1 ?_ rfl rfl⟩
    have hl' : s1.world.links[n]? = some l' := by rw [h2]; simp [lt_of_get hl]
    exact see hu1 rfl rfl rfl hl' (by rw [h3]; exact hcr) (by rw [h3]) (by rw [h3]; exact hcl')
  | handling a b => rw [hlp] at hloop; cases hloop
  | answering a b d => rw [hlp] at hloop; cases hloop
  | exited => rw [hlp] at hloop; cases hloop

/-- The last connection and its state. -/
theorem Up.lastConn {i k : Nat} {c : Cp} (h : Exec csURL ids tr s) (hu : Up s i c) (hk : c.st.conns.length = k + 1)
    (hcl : ∀ m ∈ connsOf i tr, ∀ l, s.world.links[m]? = some l → l.ends.cp.closed = true) : ∃ n : Nat, c.links[k]? = some n ∧ c.st.connClosed k = true := by
  have hlt : k < c.links.length := by rw [← h.inv.cnt i c hu.get]; omega
  have hn := List.getElem?_eq_getElem hlt
  obtain ⟨l, hl, -, hlc⟩ := h.inv.link i k _ c hu.get hn
  refine ⟨_, hn, ?_⟩
  have := hcl _ (by rw [← h.inv.links i c hu.get]; exact List.mem_of_getElem? hn) l hl
  simp [ChargePoint.St.connClosed, hlc, this]

/-- **C82** A charge point comes back by itself.  If the central system is up and its process is up, all its connections are closed at its
end, it is not in a handler call and was not stopped, then the library alone gets it, without an action of the user and however often it
did so before, to a new connection that is open at both ends, that it reports as connected, that the central system has registered, and
that `GetServiceOf` gives. -/
theorem C82_comes_back {i : Nat} {identity id : Text} (h : Exec csURL ids tr s) (hi : ids[i]? = some identity) (hid : Http.registeredAs csURL identity = some id)
    (hw : s.world.alive) (hal : ∀ n ∈ connsOf i tr, ∀ l, s.world.links[n]? = some l → l.ends.cp.crashed = false ∧ l.ends.cp.closed = true)
    (hh : ∀ c, s.cps[i]? = some c → c.st.phase ≠ .handling ∧ c.st.phase ≠ .stopped) :
    ∃ k n x k' n' r t s', t.Sublist (comeback i k n x k' n' r identity (String.ofList id)) ∧ Run csURL s t s' ∧ Back csURL ids (tr ++ t) s' i (String.ofList id) := by
  obtain ⟨-, h2⟩ := C79_parts h
  obtain ⟨c, hc, rfl, hown⟩ := h2 i identity hi
  have hinv := hown.inv
  have hlinks := h.inv.links i c hc
  have hu : Up s i c := ⟨hc, fun n hn l hl => (hal n (hlinks ▸ hn) l hl).1, hw⟩
  have hcl : ∀ m ∈ connsOf i tr, ∀ l, s.world.links[m]? = some l → l.ends.cp.closed = true := fun m hm l hl => (hal m hm l hl).2
  obtain ⟨hh1, hh2⟩ := hh c hc
  have fin : ∀ k n x, ToDialing csURL s i c [.self i .setConn, .self i .setService, .self i .announce, .on i k n (.spawn x), .on i k n .seeClosed, .self i .renew] →
      ∃ k n x k' n' r t s', t.Sublist (comeback i k n x k' n' r c.identity (String.ofList id)) ∧ Run csURL s t s' ∧ Back csURL ids (tr ++ t) s' i (String.ofList id) := by
    rintro k n x ⟨t, s', c', a1, a2, a3, a4, a5, a6⟩
    obtain ⟨s'', r, b1, b2⟩ := fromDialing (h.append a1) a2 a3 (by rw [a4]; exact hid)
    rw [a4, List.append_assoc] at b2
    rw [a4] at b1
    exact ⟨k, n, x, _, _, r, _, s'', a6.append (List.Sublist.refl _), a1.trans b1, b2⟩
  cases hp : c.st.phase with
  | handling => exact absurd hp hh1
  | stopped => exact absurd hp hh2
  | dialing => exact fin 0 0 0 ⟨[], s, c, .nil, hu, hp, rfl, rfl, by simp⟩
  | lost => exact fin 0 0 0 (toDialing_lost hu hp).skip.skip.skip.skip.skip
  | select =>
    obtain ⟨k, h3, -, h4⟩ := hinv.cur (.inl (by rw [hp]; rfl))
    obtain ⟨n, h5, h6⟩ := Up.lastConn h hu h4 hcl
    obtain ⟨x, hx⟩ := toDialing_select h hu hp h3 h5 h6
    exact fin k n x hx.skip.skip.skip
  | serviceSet =>
    obtain ⟨k, h3, -, h4⟩ := hinv.cur (.inr hp)
    obtain ⟨n, h5, h6⟩ := Up.lastConn h hu h4 hcl
    obtain ⟨s1, g1, hu1, -⟩ := hu.self (csURL := csURL) (e := .announce) rfl (.announce hp)
    obtain ⟨x, hx⟩ := toDialing_select (h.snoc g1) hu1 rfl h3 h5 h6
    exact fin k n x (hx.cons g1 rfl rfl).skip.skip
  | connSet =>
    obtain ⟨k, h3, h4⟩ := hinv.cset hp
    obtain ⟨n, h5, h6⟩ := Up.lastConn h hu h4 hcl
    obtain ⟨s1, g1, hu1, -⟩ := hu.self (csURL := csURL) (e := .setService) rfl (.setService hp)
    obtain ⟨s2, g2, hu2, -⟩ := hu1.self (csURL := csURL) (e := .announce) rfl (.announce rfl)
    obtain ⟨x, hx⟩ := toDialing_select ((h.snoc g1).snoc g2) hu2 rfl h3 h5 h6
    exact fin k n x ((hx.cons g2 rfl rfl).cons g1 rfl rfl).skip
  | dialled k =>
    have h4 := hinv.dl k hp
    obtain ⟨n, h5, h6⟩ := Up.lastConn h hu h4 hcl
    obtain ⟨s1, g1, hu1, -⟩ := hu.self (csURL := csURL) (e := .setConn) rfl (.setConn hp)
    obtain ⟨s2, g2, hu2, -⟩ := hu1.self (csURL := csURL) (e := .setService) rfl (.setService rfl)
    obtain ⟨s3, g3, hu3, -⟩ := hu2.self (csURL := csURL) (e := .announce) rfl (.announce rfl)
    obtain ⟨x, hx⟩ := toDialing_select (((h.snoc g1).snoc g2).snoc g3) hu3 rfl rfl h5 h6
    exact fin k n x (((hx.cons g3 rfl rfl).cons g2 rfl rfl).cons g1 rfl rfl)

/-! ### Histories -/

theorem up_init {i : Nat} {identity : Text} (hi : ids[i]? = some identity) : Up (init F o₁ o₂ ids) i ⟨identity, ChargePoint.init, []⟩ := by
  refine ⟨by simp [init, hi], ?_, ?_⟩
  · intro n hn; simp at hn
  · intro l hl; simp [init, World.init] at hl

/-- A step of the central system's bookkeeping. -/
theorem Up.reg {i : Nat} {c : Cp} {e : Registry.Ev} {reg' : Registry.St} (hu : Up s i c) (h : Registry.Step s.world.reg e reg') (he : own e = true)
    (hl : ∀ k id, e = .leave k id → ∃ (n : Nat) (l : Link F o₁ o₂), s.world.links[n]? = some l ∧ l.reg = some k ∧ l.ends.cs.loop = .exited) :
    ∃ s', Step csURL s (.cs (.reg e)) s' ∧ Up s' i c ∧ s'.world.links = s.world.links ∧ s'.world.reg = reg' :=
  ⟨_, .cs rfl (.reg hu.central h (own_iff.1 he).1 (own_iff.1 he).2 hl), ⟨hu.get, hu.alive, hu.central⟩, rfl, rfl⟩

/-- A step at the central system's end of a connection. -/
theorem Up.csOn {i n k : Nat} {c : Cp} {l : Link F o₁ o₂} {d : Registry.CState} {e : Conn.Ev (ocppj F o₂ .cs)} {x : Sys F o₁ o₂} (hu : Up s i c)
    (hl : s.world.links[n]? = some l) (hk : l.reg = some k) (hd : s.world.reg.table[k]? = some d) (hs : Sys.Step l.ends (.inr e) x)
    (hcr : x.cs.crashed = false) (hp : ofLoop e = true → d.phase = .serving) :
    ∃ s', Step csURL s (.cs (.cs n d.cp e)) s' ∧ Up s' i c ∧ s'.world.links = s.world.links.set n { l with ends := x } ∧
      s'.world.reg = noteClosed s.world.reg k x.cs.closed := by
  have hcp : x.cp = l.ends.cp := by
    generalize hev : (Sum.inr e : Conn.Ev (ocppj F o₁ .cp) ⊕ Conn.Ev (ocppj F o₂ .cs)) = ev at hs
    cases hs <;> cases hev
    rfl
  refine ⟨_, .cs rfl (.cs hu.central hl hk hd hs hp), ⟨hu.get, ?_, ?_⟩, rfl, rfl⟩
  · intro m hm l' hl'
    rcases get_set hl' with ⟨-, h2⟩ | ⟨rfl, rfl⟩
    · exact hu.alive m hm l' h2
    · simp only [hcp]; exact hu.alive m hm l hl
  · intro l' hl'
    rcases List.mem_or_eq_of_mem_set hl' with h2 | rfl
    · exact hu.central l' h2
    · exact hcr

/-- **C81** It happens: a charge point loses its connection and dials again before the central system has registered the first connection,
which it does after the second.  From then on `GetServiceOf` gives the first connection, which is closed and finished with, although the
charge point is connected: its second connection is open at both ends, and the central system serves it. -/
theorem C81_stale_possible (F : FloatFmt) (o₁ o₂ : Order) (csURL : Text) (identity id : Text) (hid : Http.registeredAs csURL identity = some id) :
    ∃ (tr : List (Ev F o₁ o₂)) (s : St F o₁ o₂), Exec csURL [identity] tr s ∧ s.world.alive ∧ connsOf 0 tr = [0, 1] ∧
      ChargePoint.up (ownEvents 0 tr) = true ∧
      (∃ l, s.world.links[1]? = some l ∧ l.ends.cp.closed = false ∧ l.ends.cs.closed = false ∧ l.ends.cp.crashed = false) ∧
      Accepted (worldEvents tr) 1 0 (String.ofList id) ∧ ¬ Ended (worldEvents tr) 1 ∧
      Accepted (worldEvents tr) 0 1 (String.ofList id) ∧ Ended (worldEvents tr) 0 ∧
      s.world.reg.getServiceOf (String.ofList id) "V16" "" = .ok (.json 1) := by
  -- the first connection
  have h0 := Exec.nil (F := F) (o₁ := o₁) (o₂ := o₂) (csURL := csURL) (ids := [identity])
  obtain ⟨s1, c1, r1, u1, i1, k1, p1, n1, v1, l1, g1⟩ := connect h0 (up_init (i := 0) rfl) rfl hid
  have h1 := h0.append r1
  have e0 : (init F o₁ o₂ [identity]).world.links = [] := rfl
  have eR : (init F o₁ o₂ [identity]).world.reg.table = [] := rfl
  simp only [e0, List.nil_append, List.length_nil] at k1 l1 n1 v1 h1
  -- it is lost, which the charge point notices
  obtain ⟨s2, t2, u2, m2, l2, a2, b2, d2, w2⟩ := u1.on (csURL := csURL) (k := 0) (n := 0) (e := .close) (st' := { c1.st with conns := c1.st.conns.set 0 true })
    (by rw [k1]; rfl) (by rw [l1]; rfl) (.close rfl) rfl (by simp) (by simp [ofLoop])
    (.step rfl (.drop (by have := h1.inv.cnt 0 c1 u1.get; rw [k1] at this; simp [this])))
  have h2 := h1.snoc t2
  have q2 : s2.world.links[0]? = some m2 := by rw [l2, l1]; rfl
  obtain ⟨s3, t3, u3, m3, l3, a3, b3, d3, w3⟩ := u2.on (csURL := csURL) (k := 0) (n := 0) (e := .spawn 0) (st' := { c1.st with conns := c1.st.conns.set 0 true })
    (by rw [k1]; rfl) q2 (by rw [a2]; exact .spawn rfl rfl) rfl (by simp) (fun _ => ⟨n1, .inl p1⟩) (.silent rfl rfl)
  have h3 := h2.snoc t3
  have q3 : s3.world.links[0]? = some m3 := by rw [l3, l2, l1]; rfl
  have hcl : ({ c1.st with conns := c1.st.conns.set 0 true } : ChargePoint.St).connClosed 0 = true := by
    have := h1.inv.cnt 0 c1 u1.get
    rw [k1] at this
    simp [ChargePoint.St.connClosed, this]
  obtain ⟨s4, t4, u4, m4, l4, a4, b4, d4, w4⟩ := u3.on (csURL := csURL) (k := 0) (n := 0) (e := .seeClosed)
    (by rw [k1]; rfl) q3 (by rw [a3]; exact .seeClosed rfl rfl rfl) rfl (by simp) (fun _ => ⟨n1, .inl p1⟩) (.step rfl (.seeClosed p1 n1 hcl))
  have h4 := h3.snoc t4
  have L4 : s4.world.links = [m4] := by rw [l4, l3, l2, l1]; rfl
  obtain ⟨s5, t5, u5, w5⟩ := u4.self (csURL := csURL) (e := .renew) rfl (.renew rfl)
  have h5 := h4.snoc t5
  have G5 : s5.world.reg = Registry.init := by
    rw [w5]
    have rg : ∀ {s s' : St F o₁ o₂} {k n e}, Step csURL s (.on 0 k n e) s' → s'.world.reg = s.world.reg := by
      intro s s' k n e hs
      obtain ⟨c, w', st', -, -, -, hw, -, -, rfl⟩ := hs.on_inv
      exact (C68_chargePoint_crash hw).2
    rw [rg t4, rg t3, rg t2, g1]; rfl
  have L5 : s5.world.links = [m4] := by rw [w5]; exact L4
  -- the second connection
  obtain ⟨s6, c6, r6, u6, i6, k6, p6, n6, v6, l6, g6⟩ := connect h5 u5 rfl (by rw [i1]; exact hid)
  have h6 := h5.append r6
  simp only [k1, L5, List.length_singleton, List.singleton_append, i1] at k6 l6 n6 h6
  have I4 : m4.identity = identity := by rw [b4, b3, b2]
  have R4 : m4.reg = none := by rw [d4, d3, d2]
  have C4 : m4.ends.cs = Conn.init _ := by rw [w4, w3, w2]; rfl
  -- registered in the other order
  have T6 : s6.world.reg.table = [] := by rw [g6, G5]; rfl
  obtain ⟨s7, t7, u7, l7, g7⟩ := u6.register (csURL := csURL) (n := 1) (by rw [l6]; rfl) rfl hid
  have h7 := h6.snoc t7
  rw [T6] at g7 l7 h7
  simp only [l6, List.nil_append, List.length_nil] at l7 g7 h7
  have L7 : s7.world.links = [m4, ⟨identity, Sys.init F o₁ o₂, some 0⟩] := l7
  obtain ⟨s8, t8, u8, l8, g8⟩ := u7.register (csURL := csURL) (n := 0) (l := m4) (by rw [L7]; rfl) R4 (by rw [I4]; exact hid)
  have h8 := h7.snoc t8
  rw [g7] at g8 l8 h8
  simp only [L7, List.singleton_append, List.length_singleton] at l8 g8 h8
  have L8 : s8.world.links = [{ m4 with reg := some 1 }, ⟨identity, Sys.init F o₁ o₂, some 0⟩] := l8
  -- the central system serves the first one and notices that it is gone
  obtain ⟨s9, t9, u9, l9, g9⟩ := u8.reg (csURL := csURL) (Registry.Step.notify (n := 1) (c := ⟨String.ofList id, .registered, false, false, false⟩) (by rw [g8]; rfl) rfl) rfl (by simp)
  have h9 := h8.snoc t9
  have T9 : s9.world.reg.table = [⟨String.ofList id, .registered, false, false, false⟩, ⟨String.ofList id, .serving, false, false, false⟩] := by
    rw [g9]; simp [g8]
  obtain ⟨sA, tA, uA, lA, gA⟩ := u9.csOn (csURL := csURL) (n := 0) (k := 1) (l := { m4 with reg := some 1 }) (d := ⟨String.ofList id, .serving, false, false, false⟩)
    (e := .spawn 0) (by rw [l9, L8]; rfl) rfl (by rw [T9]; rfl)
    (.cs (s' := { Conn.init _ with loop := .sel 0, readers := [.reading] }) (by rw [C4]; exact .spawn rfl rfl) (.other (by simp))) rfl (fun _ => rfl)
  have hA := h9.snoc tA
  have TA : sA.world.reg.table = s9.world.reg.table := by rw [gA]; rfl
  obtain ⟨sB, tB, uB, lB, gB⟩ := uA.csOn (csURL := csURL) (n := 0) (k := 1) (d := ⟨String.ofList id, .serving, false, false, false⟩)
    (e := .readErr 0 .closeErr) (by rw [lA, l9, L8]; rfl) rfl (by rw [TA, T9]; rfl)
    (.cs (.readErr rfl rfl (by simp)) (.other (by simp))) rfl (fun _ => rfl)
  have hB := hA.snoc tB
  have TB : sB.world.reg.table = [⟨String.ofList id, .registered, false, false, false⟩, ⟨String.ofList id, .serving, true, false, false⟩] := by
    rw [gB]; simp [noteClosed, TA, T9]
  obtain ⟨sC, tC, uC, lC, gC⟩ := uB.csOn (csURL := csURL) (n := 0) (k := 1) (d := ⟨String.ofList id, .serving, true, false, false⟩)
    (e := .seeClosed) (by rw [lB, lA, l9, L8]; rfl) rfl (by rw [TB]; rfl)
    (.cs (.seeClosed rfl rfl rfl) (.other (by simp))) rfl (fun _ => rfl)
  have hC := hB.snoc tC
  have TC : sC.world.reg.table = [⟨String.ofList id, .registered, false, false, false⟩, ⟨String.ofList id, .serving, true, false, false⟩] := by
    rw [gC]; simp [noteClosed, TB, Conn.St.setReader]
  obtain ⟨sD, tD, uD, lD, gD⟩ := uC.reg (csURL := csURL) (Registry.Step.leave (n := 1) (c := ⟨String.ofList id, .serving, true, false, false⟩) (by rw [TC]; rfl) rfl rfl) rfl
    (fun k id he => by cases he; exact ⟨0, _, by rw [lC, lB, lA, l9, L8]; rfl, rfl, rfl⟩)
  have hD := hC.snoc tD
  have TD : sD.world.reg.table[1]? = some ⟨String.ofList id, .leaving, true, false, false⟩ := by
    rw [gD]; simp [TC]
  obtain ⟨sE, tE, uE, lE, gE⟩ := uD.reg (csURL := csURL) (Registry.Step.cleanup (n := 1) TD rfl) rfl (by simp)
  have hE := hD.snoc tE
  refine ⟨_, sE, hE, uE.central, ?_, ?_, ⟨⟨identity, Sys.init F o₁ o₂, some 0⟩, by rw [lE, lD, lC, lB, lA, l9, L8]; rfl, rfl, rfl, rfl⟩, ?_, ?_, ?_, ?_, ?_⟩
  · simp [connsOf]
  · simp [ownEvents, ChargePoint.up, face]
  · simp [Accepted, worldEvents]
  · simp [Ended, Accepted, worldEvents]
  · simp [Accepted, worldEvents]
  · simp [Ended, Accepted, worldEvents]
  · refine ((C67_service hE.inv.world _ _).1 1).2 ⟨⟨1, 0, ?_, ?_⟩, 0, ?_, ?_⟩
    · simp [Accepted, worldEvents]
    · simp [Ended, Accepted, worldEvents]
    · simp [Accepted, worldEvents]
    · simp [Accepted, worldEvents]; omega

/-- Events of one connection, with the charge point that made it. -/
def lift (i k n : Nat) (id : String) (t : List (Conn.Ev (ocppj F o₁ .cp) ⊕ Conn.Ev (ocppj F o₂ .cs))) : List (Ev F o₁ o₂) :=
  t.map fun
    | .inl e => .on i k n e
    | .inr e => .cs (.cs n id e)

theorem lift_run {i k n r : Nat} {identity : Text} {c : Cp} {d : Registry.CState} {t : List (Conn.Ev (ocppj F o₁ .cp) ⊕ Conn.Ev (ocppj F o₂ .cs))}
    {x : Sys F o₁ o₂} (h : Exec csURL ids tr s) (hu : Up s i c) (hk : c.links[k]? = some n) (hp : c.st.phase = .select) (hc : c.st.conn = some k)
    (hsv : c.st.service = some k) (hl : s.world.links[n]? = some ⟨identity, Sys.init F o₁ o₂, some r⟩) (hd : s.world.reg.table[r]? = some d)
    (hds : d.phase = .serving) (ht : Sys.Exec t x) (hx : x.cs.crashed = false) (hx' : x.cp.crashed = false)
    (hno : ∀ e ∈ t, e ≠ .inl .seeClosed ∧ e ≠ .inl .ctxDone) :
    ∃ s' c' d', Run csURL s (lift i k n d.cp t) s' ∧ Up s' i c' ∧ c'.links = c.links ∧ (c'.st.phase = .select ∨ c'.st.phase = .handling) ∧ c'.st.conn = some k ∧
      c'.st.service = some k ∧ s'.world.links[n]? = some ⟨identity, x, some r⟩ ∧ s'.world.reg.table[r]? = some d' ∧ d'.cp = d.cp ∧ d'.phase = .serving := by
  induction ht with
  | nil => exact ⟨s, c, d, .nil, hu, rfl, .inl hp, hc, hsv, hl, hd, rfl, hds⟩
  | @snoc t e x y ht hs ih =>
    have hxc := sys_not_crashed hs hx
    have hxp : x.cp.crashed = false := by
      cases hs with
      | cp h _ => exact Conn.step_not_crashed h
      | cs _ _ => exact hx'
    obtain ⟨s1, c1, d1, r1, u1, k1, p1, n1, v1, l1, t1, e1, f1⟩ := ih hxc hxp (fun e he => hno e (List.mem_append_left _ he))
    have happ : lift i k n d.cp (t ++ [e]) = lift i k n d.cp t ++ lift i k n d.cp [e] := by simp [lift]
    have h1 := h.append r1
    have hcnt := h1.inv.cnt i c1 u1.get
    rw [happ]
    rcases e with e | e
    · have hne := hno (.inl e) (by simp)
      simp only [ne_eq, Sum.inl.injEq] at hne
      generalize hev : (Sum.inl e : Conn.Ev (ocppj F o₁ .cp) ⊕ Conn.Ev (ocppj F o₂ .cs)) = ev at hs
      cases hs <;> cases hev
      rename_i a' lq ha hq
      have hloop := h1.inv.loop i k n c1 _ u1.get u1.alive (by rw [k1]; exact hk) l1
      have hmv := cp_loop ha hx'
      have hlt : k < c1.st.conns.length := by rw [hcnt, k1]; exact lt_of_get hk
      simp only [kindOf, n1, if_true] at hloop
      -- the charge point can go along
      have hface : ∃ st', Faced k e c1.st st' ∧ (st'.phase = .select ∨ st'.phase = .handling) ∧ st'.conn = some k ∧ st'.service = some k := by
        have sel : ∀ j, x.cp.loop = .sel j → c1.st.phase = .select := by
          intro j hj
          rcases p1 with p1 | p1
          · exact p1
          · rw [hj, p1] at hloop; cases hloop
        cases e with
        | take => obtain ⟨⟨j, hj⟩, -⟩ := hmv; exact ⟨_, .step rfl (.handle (sel j hj) n1), .inr rfl, n1, v1⟩
        | answer =>
          have : c1.st.phase = .handling := by
            rcases p1 with p1 | p1
            · have hb := hmv.1; rw [hloop, p1] at hb; cases hb
            · exact p1
          exact ⟨_, .step rfl (.handled this), .inl rfl, n1, v1⟩
        | result => obtain ⟨⟨j, hj⟩, -⟩ := hmv; exact ⟨_, .step rfl (.read (sel j hj)), .inl (sel j hj), n1, v1⟩
        | seeClosed => exact absurd rfl hne.1
        | ctxDone => exact absurd rfl hne.2
        | close => exact ⟨_, .step rfl (.drop hlt), p1, n1, v1⟩
        | readErr => exact ⟨_, .step rfl (.drop hlt), p1, n1, v1⟩
        | send => exact ⟨_, .step rfl (.send v1), p1, n1, v1⟩
        | _ => exact ⟨_, .silent rfl rfl, p1, n1, v1⟩
      obtain ⟨st', hf, p2, n2, v2⟩ := hface
      have hst : Sys.Step x (.inl e) _ := .cp ha hq
      have hw := World.Step.cp (csURL := csURL) l1 hst
      refine ⟨_, { c1 with st := st' }, d1, r1.snoc (.on u1.get u1.alive (by rw [k1]; exact hk) hw (fun _ => ⟨n1, p1⟩) hf), ⟨?_, ?_, ?_⟩, k1, p2, n2, v2, ?_, t1, e1, f1⟩
      · simp [lt_of_get u1.get]
      · intro m hm l' hl'
        rcases get_set hl' with ⟨-, h2⟩ | ⟨rfl, rfl⟩
        · exact u1.alive m hm l' h2
        · exact hx'
      · exact (C68_chargePoint_crash hw).1.2 u1.central
      · simp [lt_of_get l1]
    · obtain ⟨s2, g1, u2, g2, g3⟩ := u1.csOn (csURL := csURL) l1 rfl t1 hs hx (fun _ => f1)
      rw [e1] at g1
      obtain ⟨d2, hd2⟩ : ∃ d2, (noteClosed s1.world.reg r y.cs.closed).table[r]? = some d2 :=
        ⟨_, List.getElem?_eq_getElem (by rw [noteClosed_table]; exact lt_of_get t1)⟩
      obtain ⟨d3, h5, h6, -, h7⟩ := noteClosed_get _ _ _ _ _ hd2
      rw [t1] at h5; cases h5
      refine ⟨s2, c1, d2, r1.snoc g1, u2, k1, p1, n1, v1, ?_, by rw [g3]; exact hd2, h6.trans e1, h7.trans f1⟩
      rw [g2]; simp [lt_of_get l1]

/-- **C79** Such histories exist: a charge point connects and is registered, and then whatever can happen on a connection alone without the
charge point leaving it, such as the round trips of C57, can happen on this one. -/
theorem C79_possible (F : FloatFmt) (o₁ o₂ : Order) (csURL : Text) (ids : List Text) (i : Nat) (identity id : Text) (hi : ids[i]? = some identity)
    (hid : Http.registeredAs csURL identity = some id) (t : List (Conn.Ev (ocppj F o₁ .cp) ⊕ Conn.Ev (ocppj F o₂ .cs))) (x : Sys F o₁ o₂)
    (ht : Sys.Exec t x) (hx : x.cs.crashed = false) (hx' : x.cp.crashed = false) (hno : ∀ e ∈ t, e ≠ .inl .seeClosed ∧ e ≠ .inl .ctxDone) :
    ∃ (tr tr' : List (Ev F o₁ o₂)) (s s' : St F o₁ o₂), Exec csURL ids tr s ∧ connsOf i tr = [0] ∧ Accepted (worldEvents tr) 0 0 (String.ofList id) ∧
      s.world.reg.getServiceOf (String.ofList id) "V16" "" = .ok (.json 0) ∧ Run csURL s tr' s' ∧ onLink 0 (worldEvents (tr ++ tr')) = t := by
  have h0 := Exec.nil (F := F) (o₁ := o₁) (o₂ := o₂) (csURL := csURL) (ids := ids)
  obtain ⟨s1, c1, r1, u1, i1, k1, p1, n1, v1, l1, g1⟩ := connect h0 (up_init hi) rfl hid
  have h1 := h0.append r1
  have e0 : (init F o₁ o₂ ids).world.links = [] := rfl
  simp only [e0, List.nil_append, List.length_nil] at k1 l1 n1 v1 h1
  obtain ⟨s2, t2, u2, l2, g2⟩ := u1.register (csURL := csURL) (n := 0) (by rw [l1]; rfl) rfl hid
  have h2 := h1.snoc t2
  have T1 : s1.world.reg.table = [] := by rw [g1]; rfl
  rw [T1] at g2 l2 h2
  simp only [l1, List.nil_append, List.length_nil] at l2 g2 h2
  obtain ⟨s3, t3, u3, l3, g3⟩ := u2.reg (csURL := csURL) (Registry.Step.notify (n := 0) (c := ⟨String.ofList id, .registered, false, false, false⟩) (by rw [g2]; rfl) rfl) rfl (by simp)
  have h3 := h2.snoc t3
  obtain ⟨s4, c4, d4, r4, -⟩ := lift_run (k := 0) (n := 0) (r := 0) (d := ⟨String.ofList id, .serving, false, false, false⟩) (identity := identity) h3 u3
    (by rw [k1]; rfl) p1 n1 v1 (by rw [l3, l2]; rfl) (by rw [g3]; simp [g2]) rfl ht hx hx' hno
  refine ⟨_, _, s3, s4, h3, ?_, ?_, ?_, r4, ?_⟩
  · simp [connsOf]
  · simp [Accepted, worldEvents]
  · exact ((C67_service h3.inv.world _ _).1 0).2 ⟨⟨0, 0, by simp [Accepted, worldEvents], by simp [Ended, Accepted, worldEvents]⟩, 0,
      by simp [Accepted, worldEvents], by simp [Accepted, worldEvents]⟩
  · rw [worldEvents_append, onLink_append]
    have : ∀ t : List (Conn.Ev (ocppj F o₁ .cp) ⊕ Conn.Ev (ocppj F o₂ .cs)), onLink 0 (worldEvents (lift i 0 0 (String.ofList id) t)) = t := by
      intro t
      induction t with
      | nil => rfl
      | cons e t ih =>
        have : lift i 0 0 (String.ofList id) (e :: t) = lift i 0 0 (String.ofList id) [e] ++ lift i 0 0 (String.ofList id) t := by simp [lift]
        rw [this, worldEvents_append, onLink_append, ih]
        rcases e with e | e <;> simp [lift, onLink, worldEvents]
    rw [this]
    simp [onLink, worldEvents]

/-- C82 applies at the very beginning, and what it gives meets the hypotheses of C80: the first connection is the last one. -/
example (identity id : Text) (hid : Http.registeredAs csURL identity = some id) :
    ∃ (tr : List (Ev F o₁ o₂)) (s : St F o₁ o₂), Back csURL [identity] tr s 0 (String.ofList id) := by
  obtain ⟨_, _, _, _, _, _, t, s', -, -, h⟩ := C82_comes_back (F := F) (o₁ := o₁) (o₂ := o₂) (i := 0) (identity := identity) (ids := [identity]) .nil rfl hid
    (by intro l hl; simp [init, World.init] at hl) (by simp [connsOf]) (by intro c hc; simp [init] at hc; subst hc; simp [ChargePoint.init])
  exact ⟨_, s', h⟩

end Verif.Fleet
