import Verif.Lemmas.Fleet
import Verif.Spec.Restart
/-!
# Invariants of a central system that is started again
-/
set_option linter.unusedSimpArgs false
namespace Verif.Restart
open Codec Ocppj World Fleet

variable {F : FloatFmt} {o₁ o₂ : Order} {csURL : Text} {ids : List Text}

theorem procEvents_append (p : Nat) (tr tr' : List (Ev F o₁ o₂)) : procEvents p (tr ++ tr') = procEvents p tr ++ procEvents p tr' := by
  simp [procEvents]

theorem ownEvents_append (i : Nat) (tr tr' : List (Ev F o₁ o₂)) : ownEvents i (tr ++ tr') = ownEvents i tr ++ ownEvents i tr' := by
  simp [ownEvents]

theorem connsOf_append (i : Nat) (tr tr' : List (Ev F o₁ o₂)) : connsOf i (tr ++ tr') = connsOf i tr ++ connsOf i tr' := by
  simp [connsOf]

theorem set_ids {l : List Cp} {i : Nat} {c c' : Cp} (h : l[i]? = some c) (h' : c'.identity = c.identity) : (l.set i c').map Cp.identity = l.map Cp.identity := by
  apply List.ext_getElem?
  intro m
  rw [List.getElem?_map, List.getElem?_map, List.getElem?_set]
  split
  · rename_i e; subst e
    split
    · rw [h]; simp [h']
    · rename_i hlt; simp [List.getElem?_eq_none (Nat.le_of_not_lt hlt)]
  · rfl

/-! ### The charge points, seen against the connections -/

/-- As `Cp.alive`, for any table of connections. -/
def Alive (L : Nat × Nat → Option (Link F o₁ o₂)) (c : Cp) : Prop := ∀ x ∈ c.links, ∀ l, L x = some l → l.ends.cp.crashed = false

/-- What holds of the charge points after every history. -/
structure CInv (L : Nat × Nat → Option (Link F o₁ o₂)) (ids : List Text) (tr : List (Ev F o₁ o₂)) (cps : List Cp) : Prop where
  ids : cps.map Cp.identity = ids
  own : ∀ (i : Nat) c, cps[i]? = some c → ChargePoint.Exec (ownEvents i tr) c.st
  links : ∀ (i : Nat) c, cps[i]? = some c → c.links = connsOf i tr
  none : ∀ i : Nat, cps.length ≤ i → connsOf i tr = []
  cnt : ∀ (i : Nat) c, cps[i]? = some c → c.st.conns.length = c.links.length
  link : ∀ (i k : Nat) x c, cps[i]? = some c → c.links[k]? = some x →
    ∃ l, L x = some l ∧ l.identity = c.identity ∧ c.st.conns[k]? = some l.ends.cp.closed
  inj : ∀ (i j k m : Nat) x c d, cps[i]? = some c → cps[j]? = some d → c.links[k]? = some x → d.links[m]? = some x → i = j ∧ k = m
  loop : ∀ (i k : Nat) x c l, cps[i]? = some c → Alive L c → c.links[k]? = some x → L x = some l → kind l.ends.cp.loop = kindOf c.st k

/-- The connections stay, as far as the charge points are concerned; there may be more. -/
def Kept (L L' : Nat × Nat → Option (Link F o₁ o₂)) : Prop := ∀ x l, L x = some l → ∃ l', L' x = some l' ∧ l'.identity = l.identity ∧ l'.ends.cp = l.ends.cp

theorem Kept.alive {L L' : Nat × Nat → Option (Link F o₁ o₂)} (hk : Kept L L') {c : Cp} (h : Alive L' c) : Alive L c := by
  intro x hx l hl
  obtain ⟨l', h1, -, h3⟩ := hk x l hl
  rw [← h3]; exact h x hx l' h1

/-- Nothing happened to the charge points. -/
theorem CInv.keep {L L' : Nat × Nat → Option (Link F o₁ o₂)} {tr : List (Ev F o₁ o₂)} {cps : List Cp} (h : CInv L ids tr cps) (hk : Kept L L') {e : Ev F o₁ o₂}
    (h1 : ∀ i, ownEvents i [e] = []) (h2 : ∀ i, connsOf i [e] = []) : CInv L' ids (tr ++ [e]) cps := by
  refine ⟨h.ids, ?_, ?_, ?_, h.cnt, ?_, h.inj, ?_⟩
  · intro i c hc; rw [ownEvents_append, h1, List.append_nil]; exact h.own i c hc
  · intro i c hc; rw [connsOf_append, h2, List.append_nil]; exact h.links i c hc
  · intro i hi; rw [connsOf_append, h2, List.append_nil]; exact h.none i hi
  · intro i k x c hc hx
    obtain ⟨l, a1, a2, a3⟩ := h.link i k x c hc hx
    obtain ⟨l', b1, b2, b3⟩ := hk x l a1
    exact ⟨l', b1, b2.trans a2, by rw [b3]; exact a3⟩
  · intro i k x c l hc ha hx hl
    obtain ⟨l₀, a1, -⟩ := h.link i k x c hc hx
    obtain ⟨l', b1, -, b3⟩ := hk x l₀ a1
    rw [hl] at b1; cases b1
    rw [b3]
    exact h.loop i k x c l₀ hc (hk.alive ha) hx a1

/-- A step of one charge point alone. -/
theorem CInv.self {L L' : Nat × Nat → Option (Link F o₁ o₂)} {tr : List (Ev F o₁ o₂)} {cps : List Cp} (h : CInv L ids tr cps) (hk : Kept L L') {e : Ev F o₁ o₂}
    {i : Nat} {c : Cp} {f : ChargePoint.Ev} {st' : ChargePoint.St} (hc : cps[i]? = some c) (hf : isLocal f = true) (hst : ChargePoint.Step c.st f st')
    (h1 : ∀ j, ownEvents j [e] = if i = j then [f] else []) (h2 : ∀ j, connsOf j [e] = []) : CInv L' ids (tr ++ [e]) (cps.set i { c with st := st' }) := by
  obtain ⟨hconns, hkind⟩ := kind_local (h.own i c hc) hst hf
  have hget : ∀ (j : Nat) d, (cps.set i { c with st := st' })[j]? = some d → ∃ d₀, cps[j]? = some d₀ ∧ d.identity = d₀.identity ∧ d.links = d₀.links ∧
      d.st.conns = d₀.st.conns ∧ ∀ k, k < d₀.st.conns.length → kindOf d.st k = kindOf d₀.st k := by
    intro j d hd
    rcases get_set hd with ⟨g1, g2⟩ | ⟨rfl, rfl⟩
    · exact ⟨d, g2, rfl, rfl, rfl, fun _ _ => rfl⟩
    · exact ⟨c, hc, rfl, rfl, hconns, hkind⟩
  refine ⟨?_, ?_, ?_, ?_, ?_, ?_, ?_, ?_⟩
  · rw [← h.ids]; exact set_ids hc rfl
  · intro j d hd
    rw [ownEvents_append, h1]
    rcases get_set hd with ⟨g1, g2⟩ | ⟨rfl, rfl⟩
    · rw [if_neg (Ne.symm g1), List.append_nil]; exact h.own j d g2
    · rw [if_pos rfl]; exact (h.own j c hc).snoc hst
  · intro j d hd
    obtain ⟨d₀, a1, a2, a3, -⟩ := hget j d hd
    rw [connsOf_append, h2, List.append_nil, a3]; exact h.links j d₀ a1
  · intro j hj; rw [List.length_set] at hj; rw [connsOf_append, h2, List.append_nil]; exact h.none j hj
  · intro j d hd
    obtain ⟨d₀, a1, a2, a3, a4, -⟩ := hget j d hd
    rw [a3, a4]; exact h.cnt j d₀ a1
  · intro j k x d hd hx
    obtain ⟨d₀, a1, a2, a3, a4, -⟩ := hget j d hd
    rw [a3] at hx
    obtain ⟨l, b1, b2, b3⟩ := h.link j k x d₀ a1 hx
    obtain ⟨l', g1, g2, g3⟩ := hk x l b1
    exact ⟨l', g1, (g2.trans b2).trans a2.symm, by rw [a4, g3]; exact b3⟩
  · intro j j' k m x d d' hd hd' hx hx'
    obtain ⟨d₀, a1, a2, a3, -⟩ := hget j d hd
    obtain ⟨d₁, b1, b2, b3, -⟩ := hget j' d' hd'
    rw [a3] at hx; rw [b3] at hx'
    exact h.inj j j' k m x d₀ d₁ a1 b1 hx hx'
  · intro j k x d l hd ha hx hl
    obtain ⟨d₀, a1, a2, a3, a4, a5⟩ := hget j d hd
    rw [a3] at hx
    obtain ⟨l₀, b1, -⟩ := h.link j k x d₀ a1 hx
    obtain ⟨l', g1, -, g3⟩ := hk x l₀ b1
    rw [hl] at g1; cases g1
    rw [a5 k (by rw [h.cnt j d₀ a1]; exact lt_of_get hx), g3]
    refine h.loop j k x d₀ l₀ a1 (hk.alive ?_) hx b1
    intro y hy; exact ha y (by rw [a3]; exact hy)

/-- A charge point makes a connection. -/
theorem CInv.dialled {L L' : Nat × Nat → Option (Link F o₁ o₂)} {tr : List (Ev F o₁ o₂)} {cps : List Cp} (h : CInv L ids tr cps) (hk : Kept L L') {e : Ev F o₁ o₂}
    {i : Nat} {c : Cp} {y : Nat × Nat} {st' : ChargePoint.St} (hc : cps[i]? = some c) (hst : ChargePoint.Step c.st (.dialOk c.links.length) st')
    (hy : L y = Option.none) (hy' : L' y = some ⟨c.identity, Sys.init F o₁ o₂, Option.none⟩)
    (h1 : ∀ j, ownEvents j [e] = if i = j then [.dialOk c.links.length] else []) (h2 : ∀ j, connsOf j [e] = if i = j then [y] else []) :
    CInv L' ids (tr ++ [e]) (cps.set i { c with st := st', links := c.links ++ [y] }) := by
  obtain ⟨hn, hconns, hk0, hkind⟩ := kind_dial (h.own i c hc) hst
  have hold : ∀ (j k : Nat) x d, cps[j]? = some d → d.links[k]? = some x → x ≠ y := by
    intro j k x d hd hx hxy
    subst hxy
    obtain ⟨l, a1, -⟩ := h.link j k x d hd hx
    rw [hy] at a1; cases a1
  have hnew : ∀ (j k : Nat) x d, (cps.set i { c with st := st', links := c.links ++ [y] })[j]? = some d → d.links[k]? = some x →
      (∃ d₀, cps[j]? = some d₀ ∧ d₀.links[k]? = some x ∧ d.identity = d₀.identity ∧ (d = d₀ ∨ (j = i ∧ d₀ = c ∧ d.st = st' ∧ d.links = c.links ++ [y]))) ∨
      (j = i ∧ k = c.links.length ∧ x = y ∧ d.identity = c.identity ∧ d.st = st') := by
    intro j k x d hd hx
    rcases get_set hd with ⟨g1, g2⟩ | ⟨rfl, rfl⟩
    · exact .inl ⟨d, g2, hx, rfl, .inl rfl⟩
    · rcases get_snoc hx with g3 | ⟨g3, g4⟩
      · exact .inl ⟨c, hc, g3, rfl, .inr ⟨rfl, rfl, rfl, rfl⟩⟩
      · exact .inr ⟨rfl, g3, g4, rfl, rfl⟩
  refine ⟨?_, ?_, ?_, ?_, ?_, ?_, ?_, ?_⟩
  · rw [← h.ids]; exact set_ids hc rfl
  · intro j d hd
    rw [ownEvents_append, h1]
    rcases get_set hd with ⟨g1, g2⟩ | ⟨rfl, rfl⟩
    · rw [if_neg (Ne.symm g1), List.append_nil]; exact h.own j d g2
    · rw [if_pos rfl]; exact (h.own j c hc).snoc hst
  · intro j d hd
    rw [connsOf_append, h2]
    rcases get_set hd with ⟨g1, g2⟩ | ⟨rfl, rfl⟩
    · rw [if_neg (Ne.symm g1), List.append_nil]; exact h.links j d g2
    · rw [if_pos rfl, ← h.links j c hc]
  · intro j hj
    rw [List.length_set] at hj
    have := lt_of_get hc
    rw [connsOf_append, h2, if_neg (by omega), List.append_nil]
    exact h.none j hj
  · intro j d hd
    rcases get_set hd with ⟨g1, g2⟩ | ⟨rfl, rfl⟩
    · exact h.cnt j d g2
    · simp [hconns, h.cnt j c hc]
  · intro j k x d hd hx
    rcases hnew j k x d hd hx with ⟨d₀, a1, a2, a3, a4⟩ | ⟨rfl, rfl, rfl, a3, a4⟩
    · obtain ⟨l, b1, b2, b3⟩ := h.link j k x d₀ a1 a2
      obtain ⟨l', g1, g2, g3⟩ := hk x l b1
      refine ⟨l', g1, (g2.trans b2).trans a3.symm, ?_⟩
      rw [g3]
      rcases a4 with rfl | ⟨rfl, rfl, a4, -⟩
      · exact b3
      · rw [a4, hconns]; exact get_left b3
    · refine ⟨_, hy', a3.symm, ?_⟩
      rw [a4, hconns, hn]; simp [Sys.init, Conn.init]
  · intro j j' k m x d d' hd hd' hx hx'
    rcases hnew j k x d hd hx with ⟨d₀, a1, a2, a3, a4⟩ | ⟨rfl, rfl, rfl, a3, a4⟩ <;>
      rcases hnew j' m _ d' hd' hx' with ⟨d₁, b1, b2, b3, b4⟩ | ⟨b1, b2, b3, b4, b5⟩
    · exact h.inj j j' k m x d₀ d₁ a1 b1 a2 b2
    · exact absurd b3 (hold j k x d₀ a1 a2)
    · exact absurd rfl (hold j' m _ d₁ b1 b2)
    · exact ⟨b1.symm, b2.symm⟩
  · intro j k x d l hd ha hx hl
    rcases hnew j k x d hd hx with ⟨d₀, a1, a2, a3, a4⟩ | ⟨rfl, rfl, rfl, a3, a4⟩
    · obtain ⟨l₀, b1, -⟩ := h.link j k x d₀ a1 a2
      obtain ⟨l', g1, -, g3⟩ := hk x l₀ b1
      rw [hl] at g1; cases g1
      rw [g3]
      have hal : Alive L d₀ := by
        apply hk.alive
        intro z hz
        refine ha z ?_
        rcases a4 with rfl | ⟨rfl, rfl, -, a5⟩
        · exact hz
        · rw [a5]; exact List.mem_append_left _ hz
      rw [h.loop j k x d₀ l₀ a1 hal a2 b1]
      rcases a4 with rfl | ⟨rfl, rfl, a4, -⟩
      · rfl
      · rw [a4, hkind k (by rw [h.cnt j d₀ a1]; exact lt_of_get a2)]
    · rw [hy'] at hl; cases hl
      rw [a4, hk0]; rfl

/-- Something happens at a charge point's end of one of its connections. -/
theorem CInv.on {L L' : Nat × Nat → Option (Link F o₁ o₂)} {tr : List (Ev F o₁ o₂)} {cps : List Cp} (h : CInv L ids tr cps) {ev : Ev F o₁ o₂}
    {i k : Nat} {c : Cp} {y : Nat × Nat} {st' : ChargePoint.St} {e : Conn.Ev (ocppj F o₁ .cp)} {l₀ l₁ : Link F o₁ o₂} (hc : cps[i]? = some c) (hal : Alive L c)
    (hky : c.links[k]? = some y) (hl₀ : L y = some l₀) (hstep : Conn.Step .cp l₀.ends.cp e l₁.ends.cp) (hid : l₁.identity = l₀.identity)
    (hL : ∀ x, L' x = if x = y then some l₁ else L x)
    (hlo : ofLoop e = true → c.st.conn = some k ∧ (c.st.phase = .select ∨ c.st.phase = .handling)) (hfa : Faced k e c.st st')
    (h1 : ∀ j, ownEvents j [ev] = if i = j then (face k e).toList else []) (h2 : ∀ j, connsOf j [ev] = []) :
    CInv L' ids (tr ++ [ev]) (cps.set i { c with st := st' }) := by
  have hklt : k < c.st.conns.length := by rw [h.cnt i c hc]; exact lt_of_get hky
  have hconns := face_conns hfa hlo
  have hget : ∀ (j : Nat) d, (cps.set i { c with st := st' })[j]? = some d → ∃ d₀, cps[j]? = some d₀ ∧ d.identity = d₀.identity ∧ d.links = d₀.links ∧
      ((j ≠ i ∧ d = d₀) ∨ (j = i ∧ d₀ = c ∧ d.st = st')) := by
    intro j d hd
    rcases get_set hd with ⟨g1, g2⟩ | ⟨rfl, rfl⟩
    · exact ⟨d, g2, rfl, rfl, .inl ⟨g1, rfl⟩⟩
    · exact ⟨c, hc, rfl, rfl, .inr ⟨rfl, rfl, rfl⟩⟩
  refine ⟨?_, ?_, ?_, ?_, ?_, ?_, ?_, ?_⟩
  · rw [← h.ids]; exact set_ids hc rfl
  · intro j d hd
    rw [ownEvents_append, h1]
    rcases get_set hd with ⟨g1, g2⟩ | ⟨rfl, rfl⟩
    · rw [if_neg (Ne.symm g1), List.append_nil]; exact h.own j d g2
    · rw [if_pos rfl]
      cases hfa with
      | silent g1 g2 => rw [g1, Option.toList, List.append_nil]; simp only [g2]; exact h.own j c hc
      | step g1 g2 => rw [g1]; exact (h.own j c hc).snoc g2
  · intro j d hd
    obtain ⟨d₀, a1, a2, a3, -⟩ := hget j d hd
    rw [connsOf_append, h2, List.append_nil, a3]; exact h.links j d₀ a1
  · intro j hj; rw [List.length_set] at hj; rw [connsOf_append, h2, List.append_nil]; exact h.none j hj
  · intro j d hd
    obtain ⟨d₀, a1, a2, a3, a4⟩ := hget j d hd
    rw [a3]
    rcases a4 with ⟨-, rfl⟩ | ⟨rfl, rfl, a4⟩
    · exact h.cnt j d a1
    · rw [a4, hconns, ← h.cnt j d₀ a1]; split <;> simp
  · intro j m x d hd hmx
    obtain ⟨d₀, a1, a2, a3, a4⟩ := hget j d hd
    rw [a3] at hmx
    obtain ⟨l, b1, b2, b3⟩ := h.link j m x d₀ a1 hmx
    by_cases hx : x = y
    · subst hx
      obtain ⟨rfl, rfl⟩ := h.inj j i m k x d₀ c a1 hc hmx hky
      rcases a4 with ⟨a4, -⟩ | ⟨-, rfl, a4⟩
      · exact absurd rfl a4
      · rw [hl₀] at b1; cases b1
        refine ⟨l₁, by rw [hL, if_pos rfl], by rw [hid, a2]; exact b2, ?_⟩
        rw [a4, hconns, cp_closed hstep]
        cases hsh : shuts e with
        | true => simp [hklt]
        | false => simpa using b3
    · refine ⟨l, by rw [hL, if_neg hx]; exact b1, b2.trans a2.symm, ?_⟩
      rcases a4 with ⟨-, rfl⟩ | ⟨rfl, rfl, a4⟩
      · exact b3
      · rw [a4, hconns]
        have hmk : m ≠ k := by rintro rfl; rw [hky] at hmx; exact hx (Option.some.inj hmx).symm
        split
        · rw [List.getElem?_set_ne (Ne.symm hmk)]; exact b3
        · exact b3
  · intro j j' m m' x d d' hd hd' hx hx'
    obtain ⟨d₀, a1, a2, a3, -⟩ := hget j d hd
    obtain ⟨d₁, b1, b2, b3, -⟩ := hget j' d' hd'
    rw [a3] at hx; rw [b3] at hx'
    exact h.inj j j' m m' x d₀ d₁ a1 b1 hx hx'
  · intro j m x d l hd hda hmx hl
    obtain ⟨d₀, a1, a2, a3, a4⟩ := hget j d hd
    rw [a3] at hmx
    rcases a4 with ⟨a4, rfl⟩ | ⟨rfl, rfl, a4⟩
    · have hne : ∀ z ∈ d.links, z ≠ y := by
        intro z hz
        rintro rfl
        obtain ⟨m', hm'⟩ := List.mem_iff_getElem?.1 hz
        exact a4 (h.inj j i m' k z d c a1 hc hm' hky).1
      have hx := hne x (List.mem_of_getElem? hmx)
      rw [hL, if_neg hx] at hl
      refine h.loop j m x d l a1 ?_ hmx hl
      intro z hz lz hlz
      exact hda z hz lz (by rw [hL, if_neg (hne z hz)]; exact hlz)
    · have hcr : l₁.ends.cp.crashed = false := hda y (by rw [a3]; exact List.mem_of_getElem? hky) l₁ (by rw [hL, if_pos rfl])
      obtain ⟨k1, k2⟩ := kind_face (h.own j d₀ hc) hklt hfa hlo (cp_loop hstep hcr) (h.loop j k y d₀ l₀ hc hal hky hl₀)
      rw [a4]
      by_cases hx : x = y
      · subst hx
        obtain ⟨-, rfl⟩ := h.inj j j m k x d₀ d₀ a1 a1 hmx hky
        rw [hL, if_pos rfl] at hl; cases hl
        exact k1
      · have hmk : m ≠ k := by rintro rfl; rw [hky] at hmx; exact hx (Option.some.inj hmx).symm
        rw [hL, if_neg hx] at hl
        rw [k2 m hmk]
        exact h.loop j m x d₀ l a1 hal hmx hl

/-! ### All together -/

/-- What holds after every history. -/
structure Inv (csURL : Text) (ids : List Text) (tr : List (Ev F o₁ o₂)) (s : St F o₁ o₂) : Prop where
  procs : ∀ (p : Nat) w, s.procs[p]? = some w → World.Exec csURL (procEvents p tr) w
  fresh : ∀ p : Nat, s.procs.length ≤ p → procEvents p tr = []
  count : s.procs.length = started tr
  cps : CInv s.link ids tr s.cps

theorem link_set {s : St F o₁ o₂} {p : Nat} {w w' : World.St F o₁ o₂} {cps : List Cp} (hp : s.procs[p]? = some w) (x : Nat × Nat) :
    (⟨s.procs.set p w', cps⟩ : St F o₁ o₂).link x = if x.1 = p then w'.links[x.2]? else s.link x := by
  unfold St.link
  by_cases h : x.1 = p
  · subst h; simp [lt_of_get hp]
  · simp only [h, if_false]
    rw [List.getElem?_set_ne (Ne.symm h)]

theorem link_get {s : St F o₁ o₂} {p n : Nat} {w : World.St F o₁ o₂} (hp : s.procs[p]? = some w) : s.link (p, n) = w.links[n]? := by
  simp [St.link, hp]

theorem started_append (tr tr' : List (Ev F o₁ o₂)) : started (tr ++ tr') = started tr + (started tr' - 1) := by
  simp [started, Nat.add_assoc]

theorem kept_set {s : St F o₁ o₂} {p : Nat} {w w' : World.St F o₁ o₂} {cps : List Cp} (hp : s.procs[p]? = some w)
    (h : ∀ (n : Nat) l, w.links[n]? = some l → ∃ l', w'.links[n]? = some l' ∧ l'.identity = l.identity ∧ l'.ends.cp = l.ends.cp) :
    Kept s.link (⟨s.procs.set p w', cps⟩ : St F o₁ o₂).link := by
  rintro ⟨q, n⟩ l hl
  rw [link_set hp]
  by_cases hq : q = p
  · subst hq
    rw [link_get hp] at hl
    simpa using h n l hl
  · simp only [hq, if_false]; exact ⟨l, hl, rfl, rfl⟩

theorem kept_refl (L : Nat × Nat → Option (Link F o₁ o₂)) : Kept L L := fun _ l h => ⟨l, h, rfl, rfl⟩

/-- One process makes a step. -/
theorem Inv.step_procs {tr : List (Ev F o₁ o₂)} {s : St F o₁ o₂} (h : Inv csURL ids tr s) {ev : Ev F o₁ o₂} {p : Nat} {w w' : World.St F o₁ o₂} {e : World.Ev F o₁ o₂}
    (hp : s.procs[p]? = some w) (hw : World.Step csURL w e w') (he : ∀ q, procEvents q [ev] = if p = q then [e] else []) :
    (∀ (q : Nat) v, (s.procs.set p w')[q]? = some v → World.Exec csURL (procEvents q (tr ++ [ev])) v) ∧
    (∀ q : Nat, (s.procs.set p w').length ≤ q → procEvents q (tr ++ [ev]) = []) := by
  constructor
  · intro q v hv
    rw [procEvents_append, he]
    rcases get_set hv with ⟨g1, g2⟩ | ⟨rfl, rfl⟩
    · rw [if_neg (Ne.symm g1), List.append_nil]; exact h.procs q v g2
    · rw [if_pos rfl]; exact (h.procs q w hp).snoc hw
  · intro q hq
    rw [List.length_set] at hq
    have := lt_of_get hp
    rw [procEvents_append, he, if_neg (by omega), List.append_nil]; exact h.fresh q hq

theorem inv_nil : Inv csURL ids [] (init F o₁ o₂ ids) := by
  have hget : ∀ (i : Nat) c, (init F o₁ o₂ ids).cps[i]? = some c → ∃ a, c = ⟨a, ChargePoint.init, []⟩ := by
    intro i c h
    simp only [init, List.getElem?_map] at h
    cases hi : ids[i]? with
    | none => rw [hi] at h; cases h
    | some a => rw [hi] at h; cases h; exact ⟨a, rfl⟩
  refine ⟨?_, fun _ _ => rfl, rfl, ⟨?_, ?_, ?_, ?_, ?_, ?_, ?_, ?_⟩⟩
  · intro p w h
    cases p with
    | zero => simp [init] at h; subst h; exact .nil
    | succ p => simp [init] at h
  · simp [init, Function.comp_def]
  · intro i c h; obtain ⟨a, rfl⟩ := hget i c h; exact .nil
  · intro i c h; obtain ⟨a, rfl⟩ := hget i c h; rfl
  · intro i _; rfl
  · intro i c h; obtain ⟨a, rfl⟩ := hget i c h; rfl
  · intro i k n c h; obtain ⟨a, rfl⟩ := hget i c h; simp
  · intro i j k m n c d h; obtain ⟨a, rfl⟩ := hget i c h; simp
  · intro i k n c l h; obtain ⟨a, rfl⟩ := hget i c h; simp

theorem inv_step {tr : List (Ev F o₁ o₂)} {s s' : St F o₁ o₂} {e : Ev F o₁ o₂} (h : Inv csURL ids tr s) (hs : Step csURL s e s') :
    Inv csURL ids (tr ++ [e]) s' := by
  have hdial : ∀ {p : Nat} {w w' : World.St F o₁ o₂} {m : Nat} {identity : Text}, World.Step csURL w (.dial m identity) w' →
      ∀ (n : Nat) l, w.links[n]? = some l → ∃ l', w'.links[n]? = some l' ∧ l'.identity = l.identity ∧ l'.ends.cp = l.ends.cp := by
    intro p w w' m identity hw n l hl
    obtain ⟨-, hwl⟩ := dial_world hw
    exact ⟨l, by rw [hwl]; exact get_left hl, rfl, rfl⟩
  cases hs with
  | @dialled i p c w w' st' hc hal hp hlast hw hst =>
    have he : ∀ q, procEvents q [Ev.dialled (F := F) (o₁ := o₁) (o₂ := o₂) i c.links.length p w.links.length c.identity] =
        if p = q then [.dial w.links.length c.identity] else [] := by intro q; by_cases h : p = q <;> simp [procEvents, h]
    obtain ⟨g1, g2⟩ := h.step_procs hp hw he
    obtain ⟨-, hwl⟩ := dial_world hw
    refine ⟨g1, g2, ?_, h.cps.dialled (kept_set hp (hdial (p := p) hw)) hc hst ?_ ?_ ?_ ?_⟩
    · rw [List.length_set, h.count, started_append]; rfl
    · rw [link_get hp]; simp
    · rw [link_set hp]; simp [hwl]
    · intro j; by_cases hj : i = j <;> simp [ownEvents, hj]
    · intro j; by_cases hj : i = j <;> simp [connsOf, hj]
  | @halfDialled i p c w w' st' hc hal hp hlast hw hst =>
    have he : ∀ q, procEvents q [Ev.halfDialled (F := F) (o₁ := o₁) (o₂ := o₂) i p w.links.length c.identity] =
        if p = q then [.dial w.links.length c.identity] else [] := by intro q; by_cases h : p = q <;> simp [procEvents, h]
    obtain ⟨g1, g2⟩ := h.step_procs hp hw he
    refine ⟨g1, g2, ?_, h.cps.self (kept_set hp (hdial (p := p) hw)) hc (f := .dialFail) rfl hst ?_ (fun _ => rfl)⟩
    · rw [List.length_set, h.count, started_append]; rfl
    · intro j; by_cases hj : i = j <;> simp [ownEvents, hj]
  | @self i c e st' hc hal hf hst =>
    refine ⟨?_, ?_, ?_, h.cps.self (L' := s.link) (kept_refl _) hc hf hst ?_ (fun _ => rfl)⟩
    · intro p w hw; rw [procEvents_append]; simp only [procEvents, List.filterMap_cons_none, List.filterMap_nil, List.append_nil]; exact h.procs p w hw
    · intro p hp; rw [procEvents_append, h.fresh p hp]; rfl
    · rw [started_append, ← h.count]; rfl
    · intro j; by_cases hj : i = j <;> simp [ownEvents, hj]
  | @on i k p n c w w' st' e hc hal hkn hp hw hlo hfa =>
    have he : ∀ q, procEvents q [Ev.on (F := F) (o₁ := o₁) (o₂ := o₂) i k p n e] = if p = q then [.cp n e] else [] := by
      intro q; by_cases h : p = q <;> simp [procEvents, h]
    obtain ⟨g1, g2⟩ := h.step_procs hp hw he
    obtain ⟨l₀, s₁, hl₀, hstep, l₁, hwl, hid, hreg, rfl, hcs⟩ := cp_world hw
    refine ⟨g1, g2, ?_, h.cps.on (y := (p, n)) (l₀ := l₀) (l₁ := l₁) hc hal hkn (by rw [link_get hp]; exact hl₀) hstep hid ?_ hlo hfa ?_ (fun _ => rfl)⟩
    · rw [List.length_set, h.count, started_append]; rfl
    · rintro ⟨q, m⟩
      rw [link_set hp]
      by_cases hq : q = p
      · subst hq
        by_cases hm : m = n
        · subst hm; simp [hwl, lt_of_get hl₀]
        · simp [hwl, hm, List.getElem?_set_ne (Ne.symm hm), link_get hp]
      · simp [hq]
    · intro j
      by_cases hj : i = j
      · cases hf : face k e <;> simp [ownEvents, hj, hf]
      · simp [ownEvents, hj]
  | @cs p e w w' hp hlast hat hw =>
    have he : ∀ q, procEvents q [Ev.cs (F := F) (o₁ := o₁) (o₂ := o₂) p e] = if p = q then [e] else [] := by
      intro q; by_cases h : p = q <;> simp [procEvents, h]
    obtain ⟨g1, g2⟩ := h.step_procs hp hw he
    refine ⟨g1, g2, ?_, h.cps.keep (kept_set hp (cs_world hw hat).2) (fun _ => rfl) (fun _ => rfl)⟩
    rw [List.length_set, h.count, started_append]; rfl
  | restart =>
    refine ⟨?_, ?_, ?_, h.cps.keep ?_ (fun _ => rfl) (fun _ => rfl)⟩
    · intro p w hw
      rw [procEvents_append]
      simp only [procEvents, List.filterMap_cons_none, List.filterMap_nil, List.append_nil]
      rcases get_snoc hw with h1 | ⟨rfl, rfl⟩
      · exact h.procs p w h1
      · have := h.fresh _ (Nat.le_refl s.procs.length)
        simp only [procEvents] at this
        rw [this]; exact .nil
    · intro p hp
      rw [List.length_append] at hp
      rw [procEvents_append, h.fresh p (by omega)]; rfl
    · rw [List.length_append, h.count, started_append]; rfl
    · rintro ⟨q, n⟩ l hl
      refine ⟨l, ?_, rfl, rfl⟩
      unfold St.link at hl ⊢
      cases hq : s.procs[q]? with
      | none => simp [hq] at hl
      | some w =>
        simp only [hq] at hl
        have hq2 : (s.procs ++ [World.init F o₁ o₂])[q]? = some w := get_left hq
        simp only [hq2]
        exact hl

theorem Exec.inv {tr : List (Ev F o₁ o₂)} {s : St F o₁ o₂} (h : Exec csURL ids tr s) : Inv csURL ids tr s := by
  induction h with
  | nil => exact inv_nil
  | snoc _ hs ih => exact inv_step ih hs

end Verif.Restart
