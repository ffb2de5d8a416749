import Verif.Lemmas.Restart
import Verif.Props.Fleet
/-!
# A central system that is started again

Property C102.
-/
set_option linter.unusedSimpArgs false
namespace Verif.Restart
open Codec Ocppj World Fleet

variable {F : FloatFmt} {o₁ o₂ : Order} {csURL : Text} {ids : List Text} {tr tr' : List (Ev F o₁ o₂)} {s s' : St F o₁ o₂}

theorem Exec.append (h : Exec csURL ids tr s) (hr : Run csURL s tr' s') : Exec csURL ids (tr ++ tr') s' := by
  induction hr with
  | nil => simpa using h
  | snoc _ hs ih => rw [← List.append_assoc]; exact .snoc ih hs

theorem Run.trans {s1 s2 s3 : St F o₁ o₂} {t t' : List (Ev F o₁ o₂)} (h : Run csURL s1 t s2) (h' : Run csURL s2 t' s3) : Run csURL s1 (t ++ t') s3 := by
  induction h' with
  | nil => simpa using h
  | snoc _ hs ih => rw [← List.append_assoc]; exact .snoc ih hs

theorem Run.cons {s1 s2 s3 : St F o₁ o₂} {e : Ev F o₁ o₂} {t : List (Ev F o₁ o₂)} (h : Step csURL s1 e s2) (h' : Run csURL s2 t s3) : Run csURL s1 (e :: t) s3 :=
  Run.trans (.snoc (tr := []) .nil h) h'

theorem Exec.split (h : Exec csURL ids tr s) : ∀ {t₁ t₂}, tr = t₁ ++ t₂ → ∃ s₁, Exec csURL ids t₁ s₁ ∧ Run csURL s₁ t₂ s := by
  induction h with
  | nil =>
    intro t₁ t₂ he
    obtain ⟨rfl, rfl⟩ := List.append_eq_nil_iff.1 he.symm
    exact ⟨_, .nil, .nil⟩
  | @snoc tr e s s' hx hs ih =>
    intro t₁ t₂ he
    rcases List.eq_nil_or_concat t₂ with rfl | ⟨t, e', rfl⟩
    · rw [List.append_nil] at he; subst he; exact ⟨_, hx.snoc hs, .nil⟩
    · rw [List.concat_eq_append, ← List.append_assoc] at he
      obtain ⟨he1, he2⟩ := List.append_inj' he rfl
      cases he2
      obtain ⟨s₁, h1, h2⟩ := ih he1
      exact ⟨s₁, h1, by rw [List.concat_eq_append]; exact h2.snoc hs⟩

theorem run_one {t : List (Ev F o₁ o₂)} {e : Ev F o₁ o₂} (h : Run csURL s t s') (ht : t = [e]) : Step csURL s e s' := by
  cases h with
  | nil => cases ht
  | @snoc t' e' s₁ _ h4 h5 =>
    cases t' with
    | cons a b => simp at ht
    | nil =>
      simp at ht; subst ht
      have : ∀ {t s₁}, Run csURL s t s₁ → t = [] → s₁ = s := by
        intro t s₁ h ht
        cases h with
        | nil => rfl
        | snoc => simp at ht
      rw [this h4 rfl] at h5; exact h5

theorem Exec.cut {t₁ t₂ : List (Ev F o₁ o₂)} {e : Ev F o₁ o₂} (h : Exec csURL ids (t₁ ++ e :: t₂) s) :
    ∃ s₁ s₂, Exec csURL ids t₁ s₁ ∧ Step csURL s₁ e s₂ ∧ Exec csURL ids (t₁ ++ [e]) s₂ := by
  obtain ⟨s₂, h1, -⟩ := h.split (t₁ := t₁ ++ [e]) (t₂ := t₂) (by simp)
  obtain ⟨s₁, h2, h3⟩ := h1.split (t₁ := t₁) (t₂ := [e]) rfl
  refine ⟨s₁, s₂, h2, ?_, h1⟩
  exact run_one h3 rfl

theorem mem_central {p : Nat} {e : World.Ev F o₁ o₂} (he : atCentral e = true) : e ∈ procEvents p tr ↔ Ev.cs p e ∈ tr := by
  simp only [procEvents, List.mem_filterMap]
  constructor
  · rintro ⟨e', h1, h2⟩
    cases e' <;> simp only [Option.some.injEq, reduceCtorEq, Option.ite_none_right_eq_some] at h2
    · obtain ⟨-, rfl⟩ := h2; cases he
    · obtain ⟨-, rfl⟩ := h2; cases he
    · obtain ⟨-, rfl⟩ := h2; cases he
    · obtain ⟨rfl, rfl⟩ := h2; exact h1
  · intro h1; exact ⟨_, h1, by simp⟩

theorem Exec.central (h : Exec csURL ids tr s) {p : Nat} {e : World.Ev F o₁ o₂} (he : Ev.cs p e ∈ tr) : atCentral e = true := by
  obtain ⟨t₁, t₂, rfl⟩ := List.append_of_mem he
  obtain ⟨s₁, s₂, -, hs, -⟩ := h.cut
  generalize hev : Ev.cs p e = ev at hs
  cases hs <;> cases hev
  assumption

theorem Exec.mem_cp (h : Exec csURL ids tr s) {p n : Nat} {e : Conn.Ev (ocppj F o₁ .cp)} : World.Ev.cp n e ∈ procEvents p tr ↔ ∃ i k, Ev.on i k p n e ∈ tr := by
  constructor
  · intro hm
    obtain ⟨e', h1, h2⟩ := List.mem_filterMap.1 hm
    cases e' <;> simp only [Option.some.injEq, reduceCtorEq, Option.ite_none_right_eq_some, and_false, World.Ev.cp.injEq] at h2
    · obtain ⟨rfl, rfl, rfl⟩ := h2; exact ⟨_, _, h1⟩
    · obtain ⟨rfl, rfl⟩ := h2; cases h.central h1
  · rintro ⟨i, k, h1⟩; exact List.mem_filterMap.2 ⟨_, h1, by simp⟩

theorem Exec.mem_dial (h : Exec csURL ids tr s) {p n : Nat} {identity : Text} : World.Ev.dial n identity ∈ procEvents p tr ↔
    ∃ i, (∃ k, Ev.dialled i k p n identity ∈ tr) ∨ Ev.halfDialled i p n identity ∈ tr := by
  constructor
  · intro hm
    obtain ⟨e', h1, h2⟩ := List.mem_filterMap.1 hm
    cases e' <;> simp only [Option.some.injEq, reduceCtorEq, Option.ite_none_right_eq_some, and_false, World.Ev.dial.injEq] at h2
    · obtain ⟨rfl, rfl, rfl⟩ := h2; exact ⟨_, .inl ⟨_, h1⟩⟩
    · obtain ⟨rfl, rfl, rfl⟩ := h2; exact ⟨_, .inr h1⟩
    · obtain ⟨rfl, rfl⟩ := h2; cases h.central h1
  · rintro ⟨i, ⟨k, h1⟩ | h1⟩
    · exact List.mem_filterMap.2 ⟨_, h1, by simp⟩
    · exact List.mem_filterMap.2 ⟨_, h1, by simp⟩

theorem Exec.identityOf (h : Exec csURL ids tr s) {i : Nat} {c : Cp} (hc : s.cps[i]? = some c) : ids[i]? = some c.identity := by
  rw [← h.inv.cps.ids, List.getElem?_map, hc]; rfl

theorem Exec.dialIdentity (h : Exec csURL ids tr s) {i p n : Nat} {identity : Text}
    (hd : (∃ k, Ev.dialled i k p n identity ∈ tr) ∨ Ev.halfDialled i p n identity ∈ tr) : ids[i]? = some identity := by
  rcases hd with ⟨k, hd⟩ | hd
  · obtain ⟨t₁, t₂, rfl⟩ := List.append_of_mem hd
    obtain ⟨s₁, s₂, h1, hs, -⟩ := h.cut
    generalize hev : Ev.dialled (F := F) (o₁ := o₁) (o₂ := o₂) i k p n identity = ev at hs
    cases hs <;> cases hev
    exact h1.identityOf ‹_›
  · obtain ⟨t₁, t₂, rfl⟩ := List.append_of_mem hd
    obtain ⟨s₁, s₂, h1, hs, -⟩ := h.cut
    generalize hev : Ev.halfDialled (F := F) (o₁ := o₁) (o₂ := o₂) i p n identity = ev at hs
    cases hs <;> cases hev
    exact h1.identityOf ‹_›

/-- A charge point's events on a connection are on one of its own. -/
theorem Exec.onOwn (h : Exec csURL ids tr s) {i k p n : Nat} {e : Conn.Ev (ocppj F o₁ .cp)} (he : Ev.on i k p n e ∈ tr) : (connsOf i tr)[k]? = some (p, n) := by
  obtain ⟨t₁, t₂, rfl⟩ := List.append_of_mem he
  obtain ⟨s₁, s₂, h1, hs, -⟩ := h.cut
  suffices hk' : (connsOf i t₁)[k]? = some (p, n) by
    rw [connsOf_append, List.getElem?_append_left (lt_of_get hk')]; exact hk'
  generalize hev : Ev.on (o₂ := o₂) i k p n e = ev at hs
  cases hs <;> cases hev
  rename_i c w w' st' _ _ _ _ _ _ _
  have hc : s₁.cps[i]? = some c := by assumption
  rw [← h1.inv.cps.links i c hc]; assumption

theorem Exec.owner (h : Exec csURL ids tr s) {i k : Nat} {x : Nat × Nat} (hk : (connsOf i tr)[k]? = some x) :
    ∃ c, s.cps[i]? = some c ∧ c.links[k]? = some x := by
  cases hc : s.cps[i]? with
  | none =>
    rw [h.inv.cps.none i (List.getElem?_eq_none_iff.1 hc)] at hk
    simp at hk
  | some c => exact ⟨c, rfl, by rw [h.inv.cps.links i c hc]; exact hk⟩

/-- A connection belongs to one charge point. -/
theorem Exec.own_unique (h : Exec csURL ids tr s) {i j k m : Nat} {x : Nat × Nat} (h1 : (connsOf i tr)[k]? = some x) (h2 : (connsOf j tr)[m]? = some x) : i = j ∧ k = m := by
  obtain ⟨c, hc, hk⟩ := h.owner h1
  obtain ⟨d, hd, hm⟩ := h.owner h2
  exact h.inv.cps.inj i j k m x c d hc hd hk hm

/-- A connection of a charge point was dialled by it, at the process that it was made to. -/
theorem Exec.connDialled (h : Exec csURL ids tr s) {i k p n : Nat} (hk : (connsOf i tr)[k]? = some (p, n)) :
    ∃ identity w, ids[i]? = some identity ∧ s.procs[p]? = some w ∧ Dialled (procEvents p tr) n identity := by
  obtain ⟨c, hc, hk⟩ := h.owner hk
  obtain ⟨l, h1, h2, -⟩ := h.inv.cps.link i k (p, n) c hc hk
  cases hp : s.procs[p]? with
  | none => simp [St.link, hp] at h1
  | some w =>
    rw [link_get hp] at h1
    exact ⟨c.identity, w, h.identityOf hc, rfl, h2 ▸ ((h.inv.procs p w hp).inv.named n l h1).1⟩

/-! ### C102 -/

/-- **C102** Whatever happens with a central system that is started again, each of its processes, with the connections made to it, behaves
according to C67 to C69, from the beginning, and every charge point according to C43 to C46, over all its connections to whichever process. -/
theorem C102_parts (h : Exec csURL ids tr s) :
    (∀ (p : Nat) w, s.procs[p]? = some w → World.Exec csURL (procEvents p tr) w) ∧ s.procs.length = started tr ∧
    ∀ (i : Nat) identity, ids[i]? = some identity → ∃ c, s.cps[i]? = some c ∧ c.identity = identity ∧ ChargePoint.Exec (ownEvents i tr) c.st := by
  refine ⟨h.inv.procs, h.inv.count, fun i identity hi => ?_⟩
  rw [← h.inv.cps.ids, List.getElem?_map] at hi
  cases hc : s.cps[i]? with
  | none => rw [hc] at hi; cases hi
  | some c =>
    rw [hc] at hi
    exact ⟨c, rfl, Option.some.inj hi, h.inv.cps.own i c hc⟩

/-- The process of the central system that an event needs to be running. -/
def Ev.needs : Ev F o₁ o₂ → Option Nat
  | .dialled _ _ p _ _ => some p
  | .halfDialled _ p _ _ => some p
  | .cs p _ => some p
  | _ => none

/-- **C102** Once process `p` started, those before it accept no connection, call no handler and do nothing else. -/
theorem C102_ended {t₁ t₂ : List (Ev F o₁ o₂)} {p : Nat} (h : Exec csURL ids (t₁ ++ Ev.restart p :: t₂) s) :
    p = started t₁ ∧ (∀ e ∈ t₁, ∀ q, e.needs = some q → q < p) ∧ (∀ e ∈ t₂, ∀ q, e.needs = some q → p ≤ q) := by
  obtain ⟨s₁, s₂, h1, hs, -⟩ := h.cut
  have hp : p = s₁.procs.length := by
    generalize hev : Ev.restart (F := F) (o₁ := o₁) (o₂ := o₂) p = ev at hs
    cases hs <;> cases hev
    rfl
  have run : ∀ {a : List (Ev F o₁ o₂)} {s s' : St F o₁ o₂} {e : Ev F o₁ o₂} {q : Nat}, Exec csURL ids a s → Step csURL s e s' → e.needs = some q → q + 1 = started a := by
    intro a s s' e q ha hst hq
    rw [← ha.inv.count]
    cases hst <;> simp [Ev.needs] at hq <;> subst hq <;> assumption
  rw [h1.inv.count] at hp
  refine ⟨hp, ?_, ?_⟩
  · intro e he q hq
    obtain ⟨a, b, rfl⟩ := List.append_of_mem he
    obtain ⟨s₃, s₄, h3, h4, -⟩ := h1.cut
    have := run h3 h4 hq
    rw [hp, started_append]; omega
  · intro e he q hq
    obtain ⟨a, b, rfl⟩ := List.append_of_mem he
    have h' : Exec csURL ids ((t₁ ++ Ev.restart p :: a) ++ e :: b) s := by simpa using h
    obtain ⟨s₃, s₄, h3, h4, -⟩ := h'.cut
    have := run h3 h4 hq
    rw [started_append] at this
    have h5 : started (Ev.restart p :: a) = started a + 1 := by simp [started, Nat.add_assoc]
    have h6 : 1 ≤ started a := by simp [started]
    omega

/-- **C102** When a charge point's `Send` returns a response, the process of the central system that the connection was made to called its
handler exactly once for it, with the id that the charge point's identity and the URL give, and the response is what that call returned.
It did so before it ended, if it did end. -/
theorem C102_send (h : Exec csURL ids tr s) {i k p n j : Nat} {r : Resp} (hf : Ev.on i k p n (.finish (S := ocppj F o₁ .cp) j (.resp r)) ∈ tr)
    (hp : Proper (cpEvents n (procEvents p tr))) (hs : Proper (csEvents n (procEvents p tr))) :
    ∃ identity id mid q resp x r₀ r', ids[i]? = some identity ∧ Http.registeredAs csURL identity = some (String.toList id) ∧
      Ev.on i k p n (.send (S := ocppj F o₁ .cp) j mid q) ∈ tr ∧ HandledOnce o₂ (csEvents n (procEvents p tr)) mid q (some resp) none ∧ Returns q resp r ∧
      Ev.cs p (.cs n id (.take (S := ocppj F o₂ .cs) x mid r₀ (some (some r')))) ∈ tr ∧ Arrives F o₂ q r' ∧
      ∀ t₁ p' t₂, tr = t₁ ++ Ev.restart p' :: t₂ → p < p' → Ev.cs p (.cs n id (.take (S := ocppj F o₂ .cs) x mid r₀ (some (some r')))) ∈ t₁ := by
  obtain ⟨identity, w, hi, hw, hd⟩ := h.connDialled (h.onOwn hf)
  obtain ⟨a, id, mid, q, resp, x, r₀, r', h1, h2, h3, h4, h5, h6, h7⟩ := C67_response (h.inv.procs p w hw) n identity hd hp hs j r (h.mem_cp.2 ⟨i, k, hf⟩)
  obtain ⟨i', k', h3⟩ := h.mem_cp.1 h3
  obtain ⟨rfl, rfl⟩ := h.own_unique (h.onOwn hf) (h.onOwn h3)
  have h6' := (mem_central rfl).1 h6
  refine ⟨identity, id, mid, q, resp, x, r₀, r', hi, h2, h3, h4, h5, h6', h7, ?_⟩
  rintro t₁ p' t₂ rfl hlt
  obtain ⟨-, -, h8⟩ := C102_ended h
  rw [List.mem_append, List.mem_cons] at h6'
  rcases h6' with h6' | h6' | h6'
  · exact h6'
  · cases h6'
  · exact absurd (h8 _ h6' p rfl) (by omega)

/-- **C102** What a handler of the central system is called for was sent by a charge point on the same connection, to the same process: a
request is never handled by a process other than the one it was sent to. -/
theorem C102_caller (h : Exec csURL ids tr s) {p n x : Nat} {id mid : String} {r : Req} {q' : Option Req}
    (hc : Ev.cs p (.cs n id (.take (S := ocppj F o₂ .cs) x mid r (some q'))) ∈ tr)
    (hp : Proper (cpEvents n (procEvents p tr))) (hs : Proper (csEvents n (procEvents p tr))) :
    ∃ i k identity j q r', ids[i]? = some identity ∧ Http.registeredAs csURL identity = some (String.toList id) ∧
      Ev.on i k p n (.send (S := ocppj F o₁ .cp) j mid q) ∈ tr ∧ q' = some r' ∧ Arrives F o₂ q r' ∧
      (handled (csEvents n (procEvents p tr))).filter (fun x => x.1 = mid) = [(mid, some r')] := by
  have hlt : p < s.procs.length := by
    by_contra hcon
    have hm := (mem_central rfl).2 hc
    rw [h.inv.fresh p (by omega)] at hm
    cases hm
  have hw := h.inv.procs p _ (List.getElem?_eq_getElem hlt)
  obtain ⟨identity, j, q, r', h1, h2, h3, h4, h5, h6⟩ := C67_caller hw n x id mid r q' ((mem_central rfl).2 hc) hp hs
  obtain ⟨i, k, h3⟩ := h.mem_cp.1 h3
  obtain ⟨identity', w, hi, -, hd⟩ := h.connDialled (h.onOwn h3)
  obtain rfl := hw.dialled_unique h1 hd
  exact ⟨i, k, identity, j, q, r', hi, h2, h3, h4, h5, h6⟩

/-- **C102** A new process knows nobody: `GetServiceOf` fails for every id. -/
theorem C102_forgets {p : Nat} (h : Exec csURL ids (tr ++ [Ev.restart p]) s) :
    ∃ w, s.procs[p]? = some w ∧ p + 1 = s.procs.length ∧ ∀ id url, ∃ e, w.reg.getServiceOf id "V16" url = .err e := by
  obtain ⟨hp, -⟩ := C102_ended (t₂ := []) h
  have hc := h.inv.count
  have hst : started (tr ++ [Ev.restart p]) = started tr + 1 := by rw [started_append]; rfl
  rw [hst, ← hp] at hc
  have hget := List.getElem?_eq_getElem (l := s.procs) (i := p) (by omega)
  refine ⟨_, hget, hc.symm, fun id url => ?_⟩
  have hw := h.inv.procs p _ hget
  obtain ⟨s₁, s₂, h1, hs, -⟩ := h.cut (t₂ := [])
  have he : procEvents p (tr ++ [Ev.restart p]) = [] := by
    rw [procEvents_append, h1.inv.fresh p (by rw [h1.inv.count]; omega)]; rfl
  rw [he] at hw
  refine ((C67_service hw id url).2.1).2 ?_
  rintro ⟨n, k, ha, -⟩
  cases ha

/-- **C102** It gives a charge point's connection only after the charge point has dialled this process and this process has registered it. -/
theorem C102_again {t₁ t₂ : List (Ev F o₁ o₂)} {p k : Nat} {w : World.St F o₁ o₂} {id url : String} (h : Exec csURL ids (t₁ ++ Ev.restart p :: t₂) s)
    (hw : s.procs[p]? = some w) (hg : w.reg.getServiceOf id "V16" url = .ok (.json k)) :
    ∃ i n identity, ids[i]? = some identity ∧ Http.registeredAs csURL identity = some id.toList ∧ Ev.cs p (.register n k id) ∈ t₂ ∧
      ((∃ m, Ev.dialled i m p n identity ∈ t₂) ∨ Ev.halfDialled i p n identity ∈ t₂) := by
  obtain ⟨hp, h1, -⟩ := C102_ended h
  have hx := h.inv.procs p w hw
  obtain ⟨-, n, ha, -⟩ := ((C67_service hx id url).1 k).1 hg
  obtain ⟨identity, hd, hid⟩ := hx.acceptedAs ha
  obtain ⟨i, hi⟩ := h.mem_dial.1 hd
  have late : ∀ e : Ev F o₁ o₂, e.needs = some p → e ∈ t₁ ++ Ev.restart p :: t₂ → e ∈ t₂ := by
    intro e he hm
    rw [List.mem_append, List.mem_cons] at hm
    rcases hm with hm | rfl | hm
    · exact absurd (h1 e hm p he) (by omega)
    · cases he
    · exact hm
  refine ⟨i, n, identity, h.dialIdentity hi, hid, late _ rfl ((mem_central rfl).1 ha), ?_⟩
  rcases hi with ⟨m, hi⟩ | hi
  · exact .inl ⟨m, late _ rfl hi⟩
  · exact .inr (late _ rfl hi)

/-- A step as one process and its connections see it. -/
theorem Step.proc {e : Ev F o₁ o₂} (hs : Step csURL s e s') {p : Nat} {w : World.St F o₁ o₂} (hw : s.procs[p]? = some w) :
    ∃ w', s'.procs[p]? = some w' ∧ World.Run csURL w (procEvents p [e]) w' := by
  have go : ∀ {q : Nat} {v v' : World.St F o₁ o₂} {f : World.Ev F o₁ o₂}, s.procs[q]? = some v → World.Step csURL v f v' →
      procEvents p [e] = (if q = p then [f] else []) → ∃ w', (s.procs.set q v')[p]? = some w' ∧ World.Run csURL w (procEvents p [e]) w' := by
    intro q v v' f hv hst he
    by_cases hq : q = p
    · subst hq
      rw [hw] at hv; cases hv
      refine ⟨v', by simp [lt_of_get hw], ?_⟩
      rw [he, if_pos rfl]; exact .snoc (tr := []) .nil hst
    · refine ⟨w, by rw [List.getElem?_set_ne hq]; exact hw, ?_⟩
      rw [he, if_neg hq]; exact .nil
  cases hs with
  | @dialled i q c v v' st' _ _ hv _ hst _ => exact go hv hst (by by_cases h : q = p <;> simp [procEvents, h])
  | @halfDialled i q c v v' st' _ _ hv _ hst _ => exact go hv hst (by by_cases h : q = p <;> simp [procEvents, h])
  | self => exact ⟨w, hw, .nil⟩
  | @on i k q n c v v' st' e _ _ _ hv hst _ _ => exact go hv hst (by by_cases h : q = p <;> simp [procEvents, h])
  | @cs q e v v' hv _ _ hst => exact go hv hst (by by_cases h : q = p <;> simp [procEvents, h])
  | restart => exact ⟨w, get_left hw, .nil⟩

theorem Run.proc (hr : Run csURL s tr' s') {p : Nat} {w : World.St F o₁ o₂} (hw : s.procs[p]? = some w) :
    ∃ w', s'.procs[p]? = some w' ∧ World.Run csURL w (procEvents p tr') w' := by
  induction hr with
  | nil => exact ⟨w, hw, .nil⟩
  | snoc _ hs ih =>
    obtain ⟨w1, h1, h2⟩ := ih
    obtain ⟨w2, h3, h4⟩ := hs.proc h1
    exact ⟨w2, h3, by rw [procEvents_append]; exact h2.append' h4⟩

/-- **C102** When a `Send` through `GetServiceOf(id, V16)` of a process returns a response, the handler of a charge point whose identity and
the URL give `id` was called exactly once for it, on a connection that it made to this process, and the response is what that call returned. -/
theorem C102_reach (h : Exec csURL ids tr s) {p : Nat} {w : World.St F o₁ o₂} (hw : s.procs[p]? = some w) (id url : String) (n k : Nat)
    (hg : w.reg.getServiceOf id "V16" url = .ok (.json k)) (ha : Accepted (procEvents p tr) n k id) (hr : Run csURL s tr' s')
    (hp : Proper (cpEvents n (procEvents p (tr ++ tr')))) (hs : Proper (csEvents n (procEvents p (tr ++ tr')))) (j : Nat) (r : Resp)
    (hf : Ev.cs p (.cs n id (.finish (S := ocppj F o₂ .cs) j (.resp r))) ∈ tr ++ tr') :
    ∃ i m identity mid q resp x r₀ r', ids[i]? = some identity ∧ Http.registeredAs csURL identity = some id.toList ∧ (connsOf i (tr ++ tr'))[m]? = some (p, n) ∧
      Ev.cs p (.cs n id (.send (S := ocppj F o₂ .cs) j mid q)) ∈ tr ++ tr' ∧
      HandledOnce o₁ (cpEvents n (procEvents p (tr ++ tr'))) mid q (some resp) none ∧ Returns q resp r ∧
      Ev.on i m p n (.take (S := ocppj F o₁ .cp) x mid r₀ (some (some r'))) ∈ tr ++ tr' ∧ Arrives F o₁ q r' := by
  have hx := h.append hr
  obtain ⟨w', hw', hrun⟩ := hr.proc hw
  have hW := h.inv.procs p w hw
  have hW' := hx.inv.procs p w' hw'
  have hf' : Conn.Ev.finish (S := ocppj F o₂ .cs) j (.resp r) ∈ csEvents n (procEvents p tr ++ procEvents p tr') := by
    rw [← procEvents_append]; exact mem_csEvents.2 ⟨id, (mem_central rfl).2 hf⟩
  rw [procEvents_append] at hp hs
  obtain ⟨identity, mid, q, resp, h1, h2, h3, h4, h5, h6⟩ := C67_addressed hW id url n k hg ha hrun hp hs j r hf'
  have h5' := h5
  obtain ⟨⟨r', h7, h8⟩, -⟩ := h5'
  have hin : ((mid, some r') : String × Option Req) ∈ handled (cpEvents n (procEvents p tr ++ procEvents p tr')) :=
    (List.mem_filter.1 (h7 ▸ List.mem_singleton.2 rfl)).1
  obtain ⟨x, r₀, hk⟩ := mem_handled hin
  rw [← procEvents_append] at hk h4 h5
  obtain ⟨i, m, hon⟩ := hx.mem_cp.1 (mem_cpEvents.1 hk)
  have hown := hx.onOwn hon
  obtain ⟨identity', -, hi, -, hd'⟩ := hx.connDialled hown
  obtain rfl : identity = identity' := hW'.dialled_unique (by rw [procEvents_append]; exact List.mem_append_left _ h2) hd'
  obtain ⟨id', h9⟩ := mem_csEvents.1 h4
  obtain ⟨k', h10⟩ := hW'.csId h9
  obtain ⟨-, rfl⟩ := (hW'.accepted_unique h10 (by rw [procEvents_append]; exact List.mem_append_left _ ha)).1 rfl
  exact ⟨i, m, identity, mid, q, resp, x, r₀, r', hi, h3, hown, (mem_central rfl).1 h9, h5, h6, hon, h8⟩

/-! ### Coming back to a new process -/

/-- A charge point whose process is up, at a central system whose process `p` is running. -/
structure Up (s : St F o₁ o₂) (i : Nat) (c : Cp) (p : Nat) : Prop where
  get : s.cps[i]? = some c
  alive : c.alive s
  last : p + 1 = s.procs.length
  central : ∀ w, s.procs[p]? = some w → w.alive

theorem Up.proc {i p : Nat} {c : Cp} (h : Up s i c p) : ∃ w, s.procs[p]? = some w ∧ w.alive :=
  ⟨_, List.getElem?_eq_getElem (by have := h.last; omega), h.central _ (List.getElem?_eq_getElem (by have := h.last; omega))⟩

/-- A step of the charge point alone. -/
theorem Up.self {i p : Nat} {c : Cp} {e : ChargePoint.Ev} {st' : ChargePoint.St} (h : Up s i c p) (he : isLocal e = true) (hs : ChargePoint.Step c.st e st') :
    ∃ s', Step csURL s (.self i e) s' ∧ Up s' i { c with st := st' } p ∧ s'.procs = s.procs :=
  ⟨_, .self h.get h.alive he hs, ⟨by simp [lt_of_get h.get], h.alive, h.last, h.central⟩, rfl⟩

/-- A step at the charge point's end of a connection, to any process, that does not crash it. -/
theorem Up.on {i k p q n : Nat} {c : Cp} {e : Conn.Ev (ocppj F o₁ .cp)} {st' : ChargePoint.St} {l : Link F o₁ o₂} {a' : Conn.St (ocppj F o₁ .cp)}
    (h : Up s i c p) (hk : c.links[k]? = some (q, n)) (hl : s.link (q, n) = some l) (ha : Conn.Step .cp l.ends.cp e a') (hcr : a'.crashed = false)
    (hr : ∀ k f, e ≠ .read k f) (hloop : ofLoop e = true → c.st.conn = some k ∧ (c.st.phase = .select ∨ c.st.phase = .handling)) (hf : Faced k e c.st st') :
    ∃ s', Step csURL s (.on i k q n e) s' ∧ Up s' i { c with st := st' } p ∧ s'.procs.length = s.procs.length ∧
      (∃ l', s'.link (q, n) = some l' ∧ l'.ends.cp = a' ∧ l'.identity = l.identity) := by
  cases hq : s.procs[q]? with
  | none => simp [St.link, hq] at hl
  | some w =>
    rw [link_get hq] at hl
    have hst := World.Step.cp (csURL := csURL) hl (.cp ha (.other hr))
    refine ⟨_, .on h.get h.alive hk hq hst hloop hf, ⟨by simp [lt_of_get h.get], ?_, by simpa using h.last, ?_⟩, by simp, ?_⟩
    · rintro ⟨y, m⟩ hm l' hl'
      rw [link_set hq] at hl'
      by_cases hy : y = q
      · subst hy
        simp only [if_true] at hl'
        rcases get_set hl' with ⟨-, h2⟩ | ⟨rfl, rfl⟩
        · exact h.alive (y, m) hm l' (by rw [link_get hq]; exact h2)
        · exact hcr
      · simp only [hy, if_false] at hl'
        exact h.alive (y, m) hm l' hl'
    · intro v hv
      rcases get_set hv with ⟨-, h2⟩ | ⟨rfl, rfl⟩
      · exact h.central v h2
      · exact (C68_chargePoint_crash hst).1.2 (h.central w hq)
    · rw [link_set hq]
      simp only [if_true]
      exact ⟨_, List.getElem?_set_self (lt_of_get hl), rfl, rfl⟩

/-- What the library does, without the user and with a network that lets the dial through, from the point where a charge point has a
connection that turns out to be closed: the connection was to process `q`, the running process is `p`. -/
def comeback (i k q n x p k' n' r : Nat) (identity : Text) (id : String) : List (Ev F o₁ o₂) :=
  [.self i .setConn, .self i .setService, .self i .announce, .on i k q n (.spawn x), .on i k q n .seeClosed, .self i .renew,
    .dialled i k' p n' identity, .self i .setConn, .self i .setService, .self i .announce, .cs p (.register n' r id)]

/-- The outcome: it has a new connection, to process `p`, open, up and registered, on which nothing has happened yet, and `GetServiceOf`
gives this one; nobody has crashed. -/
structure Back (csURL : Text) (ids : List Text) (tr : List (Ev F o₁ o₂)) (s : St F o₁ o₂) (i p : Nat) (id : String) : Prop where
  exec : Exec csURL ids tr s
  back : ∃ w n r, s.procs[p]? = some w ∧ p + 1 = s.procs.length ∧ w.alive ∧ (connsOf i tr).getLast? = some (p, n) ∧ Accepted (procEvents p tr) n r id ∧
    w.reg.getServiceOf id "V16" "" = .ok (.json r) ∧ ChargePoint.up (ownEvents i tr) = true ∧
    (∃ l, w.links[n]? = some l ∧ l.ends.cp.closed = false ∧ l.ends.cs.closed = false) ∧ onLink n (procEvents p tr) = []
  running : ∀ x ∈ connsOf i tr, ∀ l, s.link x = some l → l.ends.cp.crashed = false

/-- The dial goes through and the charge point starts to serve the connection. -/
theorem connect {i p : Nat} {c : Cp} {id : Text} {w : World.St F o₁ o₂} (h : Exec csURL ids tr s) (hu : Up s i c p) (hw : s.procs[p]? = some w)
    (hp : c.st.phase = .dialing) (hid : Http.registeredAs csURL c.identity = some id) :
    ∃ s' c' w', Run csURL s [.dialled i c.links.length p w.links.length c.identity, .self i .setConn, .self i .setService, .self i .announce] s' ∧
      Up s' i c' p ∧ c'.identity = c.identity ∧ c'.links = c.links ++ [(p, w.links.length)] ∧ c'.st.phase = .select ∧ c'.st.conn = some c.links.length ∧
      c'.st.service = some c.links.length ∧ s'.procs[p]? = some w' ∧ w'.links = w.links ++ [⟨c.identity, Sys.init F o₁ o₂, none⟩] ∧ w'.reg = w.reg := by
  have hcnt := h.inv.cps.cnt i c hu.get
  have hst := ChargePoint.Step.dialOk hp
  rw [hcnt] at hst
  have hdl := World.Step.dial (csURL := csURL) (hu.central w hw) hid
  have s1 := Step.dialled hu.get hu.alive hw hu.last hdl hst
  generalize hS1 : (St.mk _ _ : St F o₁ o₂) = S1 at s1
  generalize hc1 : ({ c with st := _, links := _ } : Cp) = c1 at hS1
  have hw1 : S1.procs[p]? = some { w with links := w.links ++ [⟨c.identity, Sys.init F o₁ o₂, none⟩] } := by
    rw [← hS1]; simp [lt_of_get hw]
  have hu1 : Up S1 i c1 p := by
    refine ⟨by rw [← hS1]; simp [lt_of_get hu.get], ?_, by rw [← hS1]; simpa using hu.last, ?_⟩
    · rintro ⟨q, m⟩ hm l hl
      rw [← hS1, link_set hw] at hl
      by_cases hq : q = p
      · subst hq
        simp only [if_true] at hl
        rcases get_snoc hl with hl | ⟨-, rfl⟩
        · rw [← hc1] at hm
          rcases List.mem_append.1 hm with hm | hm
          · exact hu.alive (q, m) hm l (by rw [link_get hw]; exact hl)
          · rw [List.mem_singleton] at hm; have := lt_of_get hl; cases hm; omega
        · rfl
      · simp only [hq, if_false] at hl
        rw [← hc1] at hm
        rcases List.mem_append.1 hm with hm | hm
        · exact hu.alive (q, m) hm l hl
        · rw [List.mem_singleton] at hm; cases hm; exact absurd rfl hq
    · intro v hv
      rw [hw1] at hv; cases hv
      intro l hl
      rw [List.mem_append, List.mem_singleton] at hl
      rcases hl with hl | rfl
      · exact hu.central w hw l hl
      · rfl
  have hph1 : c1.st.phase = .dialled c.links.length := by rw [← hc1]
  obtain ⟨S2, s2, hu2, hw2⟩ := hu1.self (csURL := csURL) (e := .setConn) rfl (.setConn hph1)
  obtain ⟨S3, s3, hu3, hw3⟩ := hu2.self (csURL := csURL) (e := .setService) rfl (.setService rfl)
  obtain ⟨S4, s4, hu4, hw4⟩ := hu3.self (csURL := csURL) (e := .announce) rfl (.announce rfl)
  have hpr : S4.procs = S1.procs := hw4.trans (hw3.trans hw2)
  refine ⟨S4, _, { w with links := w.links ++ [⟨c.identity, Sys.init F o₁ o₂, none⟩] }, .cons s1 (.cons s2 (.cons s3 (.cons s4 .nil))), hu4, ?_, ?_, rfl, rfl, rfl, by rw [hpr]; exact hw1, rfl, rfl⟩
  · simp only [← hc1]
  · simp only [← hc1]

/-- The running process registers a connection. -/
theorem Up.register {i p n : Nat} {c : Cp} {id : Text} {w : World.St F o₁ o₂} {l : Link F o₁ o₂} (hu : Up s i c p) (hw : s.procs[p]? = some w)
    (hl : w.links[n]? = some l) (hr : l.reg = none) (hid : Http.registeredAs csURL l.identity = some id) :
    ∃ s' w', Step csURL s (.cs p (.register n w.reg.table.length (String.ofList id))) s' ∧ Up s' i c p ∧ s'.procs[p]? = some w' ∧
      w'.links = w.links.set n { l with reg := some w.reg.table.length } := by
  have hst := World.Step.register (csURL := csURL) (hu.central w hw) hl hr hid (.handshake _)
  refine ⟨_, _, .cs hw hu.last rfl hst, ⟨hu.get, ?_, by simpa using hu.last, ?_⟩, by simp [lt_of_get hw]; rfl, rfl⟩
  · rintro ⟨q, m⟩ hm l' hl'
    rw [link_set (cps := s.cps) hw] at hl'
    by_cases hq : q = p
    · subst hq
      simp only [if_true] at hl'
      rcases get_set hl' with ⟨-, h2⟩ | ⟨rfl, rfl⟩
      · exact hu.alive (q, m) hm l' (by rw [link_get hw]; exact h2)
      · exact hu.alive (q, m) hm l (by rw [link_get hw]; exact hl)
    · simp only [hq, if_false] at hl'
      exact hu.alive (q, m) hm l' hl'
  · intro v hv
    rcases get_set hv with ⟨h1, -⟩ | ⟨-, rfl⟩
    · exact absurd rfl h1
    · intro l' hl'
      rcases List.mem_or_eq_of_mem_set hl' with h2 | rfl
      · exact hu.central w hw l' h2
      · exact hu.central w hw l (List.mem_of_getElem? hl)

theorem fromDialing {i p : Nat} {c : Cp} {id : Text} {w : World.St F o₁ o₂} (h : Exec csURL ids tr s) (hu : Up s i c p) (hw : s.procs[p]? = some w)
    (hp : c.st.phase = .dialing) (hid : Http.registeredAs csURL c.identity = some id) :
    ∃ s' r, Run csURL s [.dialled i c.links.length p w.links.length c.identity, .self i .setConn, .self i .setService, .self i .announce,
        .cs p (.register w.links.length r (String.ofList id))] s' ∧
      Back csURL ids (tr ++ [.dialled i c.links.length p w.links.length c.identity, .self i .setConn, .self i .setService, .self i .announce,
        .cs p (.register w.links.length r (String.ofList id))]) s' i p (String.ofList id) ∧
      ∃ c', Up s' i c' p ∧ c'.st.phase = .select ∧ c'.links = c.links ++ [(p, w.links.length)] := by
  obtain ⟨S4, c4, w4, hrun4, hu4, -, k4, p4, -, -, hw4, hlinks4, hreg4⟩ := connect h hu hw hp hid
  have hget : w4.links[w.links.length]? = some ⟨c.identity, Sys.init F o₁ o₂, none⟩ := by
    rw [hlinks4]; simp
  obtain ⟨S5, w5, s5, hu5, hw5, hlinks5⟩ := hu4.register (csURL := csURL) hw4 hget rfl hid
  have hrun := Run.trans hrun4 (.cons s5 .nil)
  have hx := h.append hrun
  refine ⟨_, _, hrun, ⟨hx, ?_, fun x hn l hl => hu5.alive x (by rw [hx.inv.cps.links i c4 hu5.get]; exact hn) l hl⟩, c4, hu5, p4, k4⟩
  simp only [List.cons_append, List.nil_append] at hx
  have hW := h.inv.procs p w hw
  have hW5 := hx.inv.procs p w5 hw5
  have hacc : Accepted (procEvents p (tr ++ [Ev.dialled i c.links.length p w.links.length c.identity, .self i .setConn, .self i .setService, .self i .announce,
        .cs p (.register w.links.length w4.reg.table.length (String.ofList id))])) w.links.length w4.reg.table.length (String.ofList id) :=
    (mem_central rfl).2 (by simp)
  refine ⟨w5, w.links.length, w4.reg.table.length, hw5, hu5.last, hu5.central w5 hw5, ?_, hacc, ?_, ?_, ?_, ?_⟩
  · rw [connsOf_append]
    simp [connsOf]
  · refine ((C67_service hW5 _ _).1 _).2 ⟨⟨_, _, hacc, ?_⟩, _, hacc, ?_⟩
    · rintro ⟨k, id', h1, h2⟩
      obtain ⟨rfl, -⟩ := (hW5.accepted_unique hacc h1).1 rfl
      -- a registration just made is not finished with
      obtain ⟨trR, hR, hR1, hR2, hR3⟩ := hW.inv.reg
      have h2' : World.Ev.reg (.cleanup w4.reg.table.length) ∈ procEvents p tr := by
        rw [procEvents_append] at h2
        rcases List.mem_append.1 h2 with h2 | h2
        · exact h2
        · simp [procEvents] at h2
      have h3 : Registry.Ev.cleanup w4.reg.table.length ∈ trR := by
        have := mem_regEvents.2 h2'
        rw [← hR3] at this
        exact (List.mem_filter.1 this).1
      obtain ⟨d, h6, -⟩ := (hR.hist.cleaned _).1 h3
      rw [hreg4] at h6
      have := lt_of_get h6
      omega
    · intro m j hm
      have hx' := hW5
      rw [procEvents_append] at hx' hm
      rcases List.mem_append.1 hm with hm | hm
      · refine (numbered_lt hx' hm (n := w.links.length) (id' := String.ofList id) ?_).le
        simp [procEvents, Accepted]
      · simp [procEvents, Accepted] at hm
        omega
  · rw [ownEvents_append]
    simp [ownEvents, ChargePoint.up]
  · refine ⟨⟨c.identity, Sys.init F o₁ o₂, some w4.reg.table.length⟩, ?_, rfl, rfl⟩
    rw [hlinks5]
    simp [lt_of_get hget]
  · rw [procEvents_append, onLink_append, hW.inv.none _ le_rfl]
    simp [procEvents, onLink]

/-- The charge point can come to the beginning of `dial` doing some of these. -/
def ToDialing (csURL : Text) (s : St F o₁ o₂) (i p : Nat) (c : Cp) (l : List (Ev F o₁ o₂)) : Prop :=
  ∃ t s' c', Run csURL s t s' ∧ Up s' i c' p ∧ c'.st.phase = .dialing ∧ c'.identity = c.identity ∧ t.Sublist l

theorem ToDialing.cons {i p : Nat} {c c1 : Cp} {s1 : St F o₁ o₂} {e : Ev F o₁ o₂} {l : List (Ev F o₁ o₂)} (h : Step csURL s e s1)
    (h2 : ToDialing csURL s1 i p c1 l) (h3 : c1.identity = c.identity) : ToDialing csURL s i p c (e :: l) := by
  obtain ⟨t, s', c', a1, a2, a3, a4, a6⟩ := h2
  exact ⟨_, s', c', .cons h a1, a2, a3, a4.trans h3, a6.cons_cons _⟩

theorem ToDialing.skip {i p : Nat} {c : Cp} {e : Ev F o₁ o₂} {l : List (Ev F o₁ o₂)} (h2 : ToDialing csURL s i p c l) : ToDialing csURL s i p c (e :: l) := by
  obtain ⟨t, s', c', a1, a2, a3, a4, a6⟩ := h2
  exact ⟨t, s', c', a1, a2, a3, a4, a6.cons _⟩

theorem toDialing_lost {i p : Nat} {c : Cp} (hu : Up s i c p) (hp : c.st.phase = .lost) : ToDialing csURL s i p c [.self i .renew] := by
  obtain ⟨s1, h1, hu1, -⟩ := hu.self (csURL := csURL) (e := .renew) rfl (.renew hp)
  exact ToDialing.cons h1 ⟨[], s1, _, .nil, hu1, rfl, rfl, List.Sublist.refl _⟩ rfl

theorem toDialing_select {i k p q n : Nat} {c : Cp} (h : Exec csURL ids tr s) (hu : Up s i c p) (hp : c.st.phase = .select) (hc : c.st.conn = some k)
    (hk : c.links[k]? = some (q, n)) (hcl : c.st.connClosed k = true) :
    ∃ x, ToDialing csURL s i p c [.on i k q n (.spawn x), .on i k q n .seeClosed, .self i .renew] := by
  obtain ⟨l, hl, -, hlc⟩ := h.inv.cps.link i k (q, n) c hu.get hk
  have hcl' : l.ends.cp.closed = true := by simpa [ChargePoint.St.connClosed, hlc] using hcl
  have hcr : l.ends.cp.crashed = false := hu.alive (q, n) (List.mem_of_getElem? hk) l hl
  have hloop := h.inv.cps.loop i k (q, n) c l hu.get hu.alive hk hl
  simp only [kindOf, hc, hp, if_true] at hloop
  -- seeing the closed connection
  have see : ∀ {s : St F o₁ o₂} {c1 : Cp} {l : Link F o₁ o₂} {j : Nat}, Up s i c1 p → c1.st = c.st → c1.links = c.links → c1.identity = c.identity →
      s.link (q, n) = some l → l.ends.cp.crashed = false → l.ends.cp.loop = .sel j → l.ends.cp.closed = true →
      ToDialing csURL s i p c [.on i k q n .seeClosed, .self i .renew] := by
    intro s c1 l j hu e1 e2 e3 hl hcr hlp hcl2
    have hst : ChargePoint.Step c1.st .seeClosed { c1.st with phase := .lost } := .seeClosed (by rw [e1]; exact hp) (by rw [e1]; exact hc) (by rw [e1]; exact hcl)
    obtain ⟨s1, h1, hu1, -⟩ := hu.on (csURL := csURL) (k := k) (e := .seeClosed) (by rw [e2]; exact hk) hl (.seeClosed hcr hlp hcl2) hcr (by simp)
      (fun _ => by rw [e1]; exact ⟨hc, .inl hp⟩) (.step rfl hst)
    exact ToDialing.cons h1 (toDialing_lost hu1 rfl) e3
  cases hlp : l.ends.cp.loop with
  | sel j => exact ⟨0, (see hu rfl rfl rfl hl hcr hlp hcl').skip⟩
  | top =>
    obtain ⟨s1, h1, hu1, -, l', h2, h3, -⟩ := hu.on (csURL := csURL) (k := k) (e := .spawn l.ends.cp.readers.length) (st' := c.st) hk hl
      (.spawn hcr hlp) hcr (by simp) (fun _ => ⟨hc, .inl hp⟩) (.silent rfl rfl)
    refine ⟨_, ToDialing.cons h1 ?_ rfl⟩
    exact see hu1 rfl rfl rfl h2 (by rw [h3]; exact hcr) (by rw [h3]) (by rw [h3]; exact hcl')
  | handling a b => rw [hlp] at hloop; cases hloop
  | answering a b d => rw [hlp] at hloop; cases hloop
  | exited => rw [hlp] at hloop; cases hloop

/-- The last connection and its state. -/
theorem Up.lastConn {i k p : Nat} {c : Cp} (h : Exec csURL ids tr s) (hu : Up s i c p) (hk : c.st.conns.length = k + 1)
    (hcl : ∀ x ∈ connsOf i tr, ∀ l, s.link x = some l → l.ends.cp.closed = true) : ∃ q n : Nat, c.links[k]? = some (q, n) ∧ c.st.connClosed k = true := by
  have hlt : k < c.links.length := by rw [← h.inv.cps.cnt i c hu.get]; omega
  have hn := List.getElem?_eq_getElem hlt
  obtain ⟨l, hl, -, hlc⟩ := h.inv.cps.link i k _ c hu.get hn
  refine ⟨c.links[k].1, c.links[k].2, hn, ?_⟩
  have := hcl _ (by rw [← h.inv.cps.links i c hu.get]; exact List.mem_of_getElem? hn) l hl
  simp [ChargePoint.St.connClosed, hlc, this]

/-- **C102** A charge point comes back to the new process by itself.  If a process of the central system is running, whichever it is, the
charge point's process is up, all its connections, to whichever process, are closed at its end, it is not in a handler call and was not
stopped, then the library alone gets it, without an action of the user, to a new connection to the running process that is open at both
ends, that it reports as connected, that the process has registered, and that `GetServiceOf` gives. -/
theorem C102_comes_back {i p : Nat} {identity id : Text} {w : World.St F o₁ o₂} (h : Exec csURL ids tr s) (hi : ids[i]? = some identity)
    (hid : Http.registeredAs csURL identity = some id) (hlast : p + 1 = s.procs.length) (hw : s.procs[p]? = some w) (hwa : w.alive)
    (hal : ∀ x ∈ connsOf i tr, ∀ l, s.link x = some l → l.ends.cp.crashed = false ∧ l.ends.cp.closed = true)
    (hh : ∀ c, s.cps[i]? = some c → c.st.phase ≠ .handling ∧ c.st.phase ≠ .stopped) :
    ∃ k q n x k' n' r t s', t.Sublist (comeback i k q n x p k' n' r identity (String.ofList id)) ∧ Run csURL s t s' ∧
      Back csURL ids (tr ++ t) s' i p (String.ofList id) := by
  obtain ⟨-, -, h2⟩ := C102_parts h
  obtain ⟨c, hc, rfl, hown⟩ := h2 i identity hi
  have hinv := hown.inv
  have hlinks := h.inv.cps.links i c hc
  have hu : Up s i c p := ⟨hc, fun x hn l hl => (hal x (hlinks ▸ hn) l hl).1, hlast, fun v hv => by rw [hw] at hv; cases hv; exact hwa⟩
  have hcl : ∀ x ∈ connsOf i tr, ∀ l, s.link x = some l → l.ends.cp.closed = true := fun m hm l hl => (hal m hm l hl).2
  obtain ⟨hh1, hh2⟩ := hh c hc
  have fin : ∀ k q n x, ToDialing csURL s i p c [.self i .setConn, .self i .setService, .self i .announce, .on i k q n (.spawn x), .on i k q n .seeClosed, .self i .renew] →
      ∃ k q n x k' n' r t s', t.Sublist (comeback i k q n x p k' n' r c.identity (String.ofList id)) ∧ Run csURL s t s' ∧
        Back csURL ids (tr ++ t) s' i p (String.ofList id) := by
    rintro k q n x ⟨t, s', c', a1, a2, a3, a4, a6⟩
    obtain ⟨w', hw', -⟩ := a2.proc
    obtain ⟨s'', r, b1, b2, -⟩ := fromDialing (h.append a1) a2 hw' a3 (by rw [a4]; exact hid)
    rw [a4, List.append_assoc] at b2
    rw [a4] at b1
    exact ⟨k, q, n, x, _, _, r, _, s'', a6.append (List.Sublist.refl _), a1.trans b1, b2⟩
  cases hp : c.st.phase with
  | handling => exact absurd hp hh1
  | stopped => exact absurd hp hh2
  | dialing => exact fin 0 0 0 0 ⟨[], s, c, .nil, hu, hp, rfl, by simp⟩
  | lost => exact fin 0 0 0 0 (toDialing_lost hu hp).skip.skip.skip.skip.skip
  | select =>
    obtain ⟨k, h3, -, h4⟩ := hinv.cur (.inl (by rw [hp]; rfl))
    obtain ⟨q, n, h5, h6⟩ := Up.lastConn h hu h4 hcl
    obtain ⟨x, hx⟩ := toDialing_select h hu hp h3 h5 h6
    exact fin k q n x hx.skip.skip.skip
  | serviceSet =>
    obtain ⟨k, h3, -, h4⟩ := hinv.cur (.inr hp)
    obtain ⟨q, n, h5, h6⟩ := Up.lastConn h hu h4 hcl
    obtain ⟨s1, g1, hu1, -⟩ := hu.self (csURL := csURL) (e := .announce) rfl (.announce hp)
    obtain ⟨x, hx⟩ := toDialing_select (h.snoc g1) hu1 rfl h3 h5 h6
    exact fin k q n x (hx.cons g1 rfl).skip.skip
  | connSet =>
    obtain ⟨k, h3, h4⟩ := hinv.cset hp
    obtain ⟨q, n, h5, h6⟩ := Up.lastConn h hu h4 hcl
    obtain ⟨s1, g1, hu1, -⟩ := hu.self (csURL := csURL) (e := .setService) rfl (.setService hp)
    obtain ⟨s2, g2, hu2, -⟩ := hu1.self (csURL := csURL) (e := .announce) rfl (.announce rfl)
    obtain ⟨x, hx⟩ := toDialing_select ((h.snoc g1).snoc g2) hu2 rfl h3 h5 h6
    exact fin k q n x ((hx.cons g2 rfl).cons g1 rfl).skip
  | dialled k =>
    have h4 := hinv.dl k hp
    obtain ⟨q, n, h5, h6⟩ := Up.lastConn h hu h4 hcl
    obtain ⟨s1, g1, hu1, -⟩ := hu.self (csURL := csURL) (e := .setConn) rfl (.setConn hp)
    obtain ⟨s2, g2, hu2, -⟩ := hu1.self (csURL := csURL) (e := .setService) rfl (.setService rfl)
    obtain ⟨s3, g3, hu3, -⟩ := hu2.self (csURL := csURL) (e := .announce) rfl (.announce rfl)
    obtain ⟨x, hx⟩ := toDialing_select (((h.snoc g1).snoc g2).snoc g3) hu3 rfl rfl h5 h6
    exact fin k q n x (((hx.cons g3 rfl).cons g2 rfl).cons g1 rfl)

/-! ### Such histories exist -/

theorem up_init {i : Nat} {identity : Text} (hi : ids[i]? = some identity) : Up (init F o₁ o₂ ids) i ⟨identity, ChargePoint.init, []⟩ 0 := by
  refine ⟨by simp [init, hi], ?_, rfl, ?_⟩
  · intro n hn; simp at hn
  · intro w hw l hl
    simp [init] at hw; subst hw
    simp [World.init] at hl

/-- The process ends and the next starts. -/
theorem Up.restart {i p : Nat} {c : Cp} (hu : Up s i c p) : ∃ s', Step csURL s (.restart (p + 1)) s' ∧ Up s' i c (p + 1) ∧
    (∀ x l, s.link x = some l → s'.link x = some l) ∧ (∀ (q : Nat) w, s.procs[q]? = some w → s'.procs[q]? = some w) := by
  have hst := Step.restart (csURL := csURL) (s := s)
  rw [← hu.last] at hst
  refine ⟨_, hst, ⟨hu.get, ?_, by simp [hu.last], ?_⟩, ?_, fun q w hw => get_left hw⟩
  · rintro ⟨q, n⟩ hm l hl
    unfold St.link at hl
    cases hq : (s.procs ++ [World.init F o₁ o₂])[q]? with
    | none => simp only [hq] at hl; cases hl
    | some w =>
      simp only [hq] at hl
      rcases get_snoc hq with h1 | ⟨-, rfl⟩
      · exact hu.alive (q, n) hm l (by rw [link_get h1]; exact hl)
      · simp [World.init] at hl
  · intro w hw
    rcases get_snoc hw with h1 | ⟨-, rfl⟩
    · have := lt_of_get h1; have := hu.last; omega
    · intro l hl; simp [World.init] at hl
  · rintro ⟨q, n⟩ l hl
    cases hq : s.procs[q]? with
    | none => simp [St.link, hq] at hl
    | some w =>
      rw [link_get hq] at hl
      rw [link_get (get_left hq)]; exact hl

/-- **C102** It happens: a charge point is connected to the first process and registered; the process ends and the next starts, which does
not know the charge point; the charge point finds its connection closed and comes back to the second process by itself. -/
theorem C102_possible (F : FloatFmt) (o₁ o₂ : Order) (csURL : Text) (identity id : Text) (hid : Http.registeredAs csURL identity = some id) :
    ∃ (t₁ t₂ : List (Ev F o₁ o₂)) (s₁ s₂ s₃ : St F o₁ o₂) (w₂ : World.St F o₁ o₂),
      Back csURL [identity] t₁ s₁ 0 0 (String.ofList id) ∧
      Exec csURL [identity] (t₁ ++ [Ev.restart 1]) s₂ ∧ s₂.procs[1]? = some w₂ ∧ (∃ e, w₂.reg.getServiceOf (String.ofList id) "V16" "" = .err e) ∧
      Back csURL [identity] (t₁ ++ [Ev.restart 1] ++ t₂) s₃ 0 1 (String.ofList id) := by
  -- the first connection
  have h0 := Exec.nil (F := F) (o₁ := o₁) (o₂ := o₂) (csURL := csURL) (ids := [identity])
  obtain ⟨s1, r, r1, b1, c1, u1, p1, k1⟩ := fromDialing (w := World.init F o₁ o₂) h0 (up_init (i := 0) rfl) rfl rfl hid
  have h1 := b1.exec
  -- the process is started again
  obtain ⟨s2, t2, u2, l2, -⟩ := u1.restart (csURL := csURL)
  have h2 := h1.snoc t2
  obtain ⟨w2, hw2, -, hf2⟩ := C102_forgets h2
  -- the connection is lost
  have hk : c1.links[0]? = some (0, 0) := by rw [k1]; rfl
  obtain ⟨l, hl, -⟩ := h2.inv.cps.link 0 0 (0, 0) c1 u2.get hk
  have hcr : l.ends.cp.crashed = false := u2.alive (0, 0) (List.mem_of_getElem? hk) l hl
  have hcnt := h2.inv.cps.cnt 0 c1 u2.get
  obtain ⟨s3, t3, u3, -, l3, a3, b3, -⟩ := u2.on (csURL := csURL) (k := 0) (e := .close) (st' := { c1.st with conns := c1.st.conns.set 0 true })
    hk hl (.close hcr) hcr (by simp) (by simp [ofLoop]) (.step rfl (.drop (by rw [hcnt, k1]; simp)))
  have h3 := h2.snoc t3
  obtain ⟨w3, hw3, ha3⟩ := u3.proc
  obtain ⟨-, -, -, -, -, -, -, t, s4, -, r4, b4⟩ := C102_comes_back h3 (i := 0) rfl hid u3.last hw3 ha3
    (by
      intro x hx l' hl'
      rw [← h3.inv.cps.links 0 _ u3.get] at hx
      obtain rfl : x = (0, 0) := by simpa [k1, World.init] using hx
      refine ⟨u3.alive (0, 0) (by simp [k1, World.init]) l' hl', ?_⟩
      rw [a3] at hl'; cases hl'
      rw [b3])
    (by intro c hc; rw [u3.get] at hc; cases hc; simp [p1])
  rw [List.append_assoc] at b4
  exact ⟨_, _, s1, s2, s4, w2, b1, h2, hw2, hf2 _ _, b4⟩

end Verif.Restart
