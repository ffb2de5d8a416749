import Verif.Props.Restart
/-!
# Charge points that are started again

Property C104.  A charge point's process may end at any moment too, and be started again with the same identity.  In the model of
`Verif.Model.Restart` an identity may stand in the list of charge points as often as its process is started: the entry of a process that
has ended does nothing any more, that of a process which has not started yet has done nothing so far.
-/
set_option linter.unusedSimpArgs false
namespace Verif.Restart
open Codec Ocppj World Fleet

variable {F : FloatFmt} {o₁ o₂ : Order} {csURL : Text} {ids : List Text} {tr tr' : List (Ev F o₁ o₂)} {s s' : St F o₁ o₂}

/-- The charge point process that an event concerns. -/
def Ev.of : Ev F o₁ o₂ → Option Nat
  | .dialled i _ _ _ _ => some i
  | .halfDialled i _ _ _ => some i
  | .self i _ => some i
  | .on i _ _ _ _ => some i
  | .cs _ _ => none
  | .restart _ => none

theorem ownEvents_nil {j : Nat} (h : ∀ e ∈ tr, e.of ≠ some j) : ownEvents j tr = [] := by
  rw [ownEvents, List.filterMap_eq_nil_iff]
  intro e he
  have := h e he
  cases e <;> simp_all [Ev.of]

theorem connsOf_nil {j : Nat} (h : ∀ e ∈ tr, e.of ≠ some j) : connsOf j tr = [] := by
  rw [connsOf, List.filterMap_eq_nil_iff]
  intro e he
  have := h e he
  cases e <;> simp_all [Ev.of]

/-- What a charge point process does when it starts and all goes well, and the central system's process `p` with it. -/
def start (j p n r : Nat) (identity : Text) (id : String) : List (Ev F o₁ o₂) :=
  [.dialled j 0 p n identity, .self j .setConn, .self j .setService, .self j .announce, .cs p (.register n r id)]

/-- **C104 (it can start).** Whatever has happened so far, with whatever processes of the same identity, whatever they left behind
(requests on their way, calls that wait, connections that the central system takes to be alive): a process of a charge point that has done
nothing yet can dial, at once and without anything else having to happen, and is then connected, with a connection of its own that is open
at both ends and on which nothing has happened, that it reports as connected, that the central system registered, and that `GetServiceOf`
gives. -/
theorem C104_starts {j p : Nat} {identity id : Text} {w : World.St F o₁ o₂} (h : Exec csURL ids tr s) (hi : ids[j]? = some identity)
    (hid : Http.registeredAs csURL identity = some id) (hnew : ∀ e ∈ tr, e.of ≠ some j)
    (hlast : p + 1 = s.procs.length) (hw : s.procs[p]? = some w) (hwa : w.alive) :
    ∃ n r s', Run csURL s (start j p n r identity (String.ofList id)) s' ∧
      Back csURL ids (tr ++ start j p n r identity (String.ofList id)) s' j p (String.ofList id) ∧
      connsOf j (tr ++ start j p n r identity (String.ofList id)) = [(p, n)] := by
  obtain ⟨-, -, h2⟩ := C102_parts h
  obtain ⟨c, hc, rfl, hown⟩ := h2 j identity hi
  have hl : c.links = [] := by rw [h.inv.cps.links j c hc, connsOf_nil hnew]
  rw [ownEvents_nil hnew] at hown
  have hst : c.st = ChargePoint.init := by
    generalize hn : ([] : List ChargePoint.Ev) = t at hown
    generalize c.st = q at hown
    cases hown with
    | nil => rfl
    | snoc => simp at hn
  have hu : Up s j c p := ⟨hc, fun x hx => (by rw [hl] at hx; cases hx), hlast, fun v hv => (by rw [hw] at hv; cases hv; exact hwa)⟩
  obtain ⟨s', r, hrun, hb, c', hu', -, hl'⟩ := fromDialing h hu hw (by rw [hst]; rfl) hid
  rw [hl] at hrun hb hl'
  refine ⟨w.links.length, r, s', hrun, hb, ?_⟩
  have := hb.exec.inv.cps.links j c' hu'.get
  rw [hl'] at this
  exact this.symm

/-- **C104 (apart).** A connection belongs to one process: what happens at a charge point's end of it, happens in the process that made it. -/
theorem C104_apart (h : Exec csURL ids tr s) {i j k m p n : Nat} {e e' : Conn.Ev (ocppj F o₁ .cp)} (h1 : Ev.on i k p n e ∈ tr)
    (h2 : Ev.on j m p n e' ∈ tr) : i = j ∧ k = m :=
  h.own_unique (h.onOwn h1) (h.onOwn h2)

/-- **C104 (answers).** A response that a process's `Send` returns answers a request that this very process sent, on the same connection,
on which no other process with the same identity ever does anything; the central system's handler was called exactly once for it. -/
theorem C104_answers (h : Exec csURL ids tr s) {i k p n j : Nat} {r : Resp} (hf : Ev.on i k p n (.finish (S := ocppj F o₁ .cp) j (.resp r)) ∈ tr)
    (hp : Proper (cpEvents n (procEvents p tr))) (hs : Proper (csEvents n (procEvents p tr))) :
    (∃ mid q resp, Ev.on i k p n (.send (S := ocppj F o₁ .cp) j mid q) ∈ tr ∧
      HandledOnce o₂ (csEvents n (procEvents p tr)) mid q (some resp) none ∧ Returns q resp r) ∧
    ∀ i' k' e', Ev.on i' k' p n e' ∈ tr → i' = i := by
  obtain ⟨_, _, mid, q, resp, _, _, _, _, _, h3, h4, h5, _⟩ := C102_send h hf hp hs
  exact ⟨⟨mid, q, resp, h3, h4, h5⟩, fun i' k' e' he => (C104_apart h he hf).1⟩

/-- **C104 (the old connection).** Once the central system has registered, under an identity, the connection of a later process after that
of an earlier one, `GetServiceOf` never gives the earlier one's again. -/
theorem C104_replaced {t₁ t₂ : List (Ev F o₁ o₂)} (h : Exec csURL ids (t₁ ++ t₂) s) {p n m k j : Nat} {id url : String} {w : World.St F o₁ o₂}
    (h1 : Accepted (procEvents p t₁) n k id) (h2 : Accepted (procEvents p t₂) m j id) (hr : Run csURL s tr' s') (hw : s'.procs[p]? = some w) :
    w.reg.getServiceOf id "V16" url ≠ .ok (.json k) := by
  intro hg
  have hx := h.append hr
  have hW := hx.inv.procs p w hw
  have hlt : p < s.procs.length := by
    by_contra hcon
    have := h.inv.fresh p (by omega)
    rw [procEvents_append, List.append_eq_nil_iff] at this
    rw [this.1] at h1; cases h1
  have hs := h.inv.procs p _ (List.getElem?_eq_getElem hlt)
  rw [procEvents_append] at hs
  have hlt := numbered_lt (t := procEvents p t₁) (t' := procEvents p t₂) hs h1 h2
  obtain ⟨-, n', h3, h4⟩ := ((C67_service hW id url).1 k).1 hg
  have := h4 m j (by rw [procEvents_append, procEvents_append]; exact List.mem_append_left _ (List.mem_append_right _ h2))
  omega

/-- **C104 (it happens).** A charge point is connected; its process ends, without the central system noticing; it is started again, and
is connected: `GetServiceOf` gives the new connection. -/
theorem C104_possible (F : FloatFmt) (o₁ o₂ : Order) (csURL : Text) (identity id : Text) (hid : Http.registeredAs csURL identity = some id) :
    ∃ (t₁ t₂ : List (Ev F o₁ o₂)) (s₁ s₂ : St F o₁ o₂), Back csURL [identity, identity] t₁ s₁ 0 0 (String.ofList id) ∧
      Back csURL [identity, identity] (t₁ ++ t₂) s₂ 1 0 (String.ofList id) ∧ (∀ e ∈ t₁, e.of ≠ some 1) ∧ (∀ e ∈ t₂, e.of ≠ some 0) := by
  have h0 := Exec.nil (F := F) (o₁ := o₁) (o₂ := o₂) (csURL := csURL) (ids := [identity, identity])
  obtain ⟨n, r, s1, r1, b1, -⟩ := C104_starts (j := 0) (p := 0) (w := World.init F o₁ o₂) h0 rfl hid (by simp) rfl rfl
    (by intro l hl; simp [World.init] at hl)
  obtain ⟨w, n', r', hw, hlast, hwa, -⟩ := b1.back
  have hnew : ∀ e ∈ (start 0 0 n r identity (String.ofList id) : List (Ev F o₁ o₂)), e.of ≠ some 1 := by
    simp [start, Ev.of]
  obtain ⟨n2, r2, s2, r2', b2, -⟩ := C104_starts (j := 1) b1.exec rfl hid (by simpa using hnew) hlast hw hwa
  exact ⟨_, _, s1, s2, b1, b2, by simpa using hnew, by simp [start, Ev.of]⟩

end Verif.Restart
