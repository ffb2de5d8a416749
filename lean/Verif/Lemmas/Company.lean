import Verif.Spec.Company
import Verif.Props.Hub
/-!
# The parts of a history of a central system with charge points and strangers
-/
set_option linter.unusedSimpArgs false
namespace Verif.Company
open Conn Codec Ocppj
open World (get_snoc get_left set_get get_set lt_of_get)

variable {F : FloatFmt} {o₁ o₂ : Order} {csURL : Text} {tr tr' : List (Ev F o₁ o₂)} {w w' : St F o₁ o₂}

theorem hubEvents_append (tr tr' : List (Ev F o₁ o₂)) : hubEvents csURL (tr ++ tr') = hubEvents csURL tr ++ hubEvents csURL tr' := by
  simp [hubEvents]

theorem onLink_append (n : Nat) (tr tr' : List (Ev F o₁ o₂)) : onLink n (tr ++ tr') = onLink n tr ++ onLink n tr' := by
  simp [onLink]

theorem atCs_onLink (n : Nat) (tr : List (Ev F o₁ o₂)) : atCs (onLink n tr) = csEvents n tr := by
  induction tr with
  | nil => rfl
  | cons e tr ih =>
    have h1 : onLink n (e :: tr) = onLink n [e] ++ onLink n tr := by rw [← onLink_append]; rfl
    have h2 : csEvents n (e :: tr) = csEvents n [e] ++ csEvents n tr := by simp [csEvents, ← List.filterMap_append]
    rw [h1, h2, show ∀ a b : List (Conn.Ev (ocppj F o₁ .cp) ⊕ Conn.Ev (ocppj F o₂ .cs)), atCs (a ++ b) = atCs a ++ atCs b by simp [atCs], ih]
    congr 1
    rcases e with _ | ⟨m, e⟩ | e
    · rfl
    · by_cases h : m = n <;> simp [onLink, csEvents, atCs, h]
    · cases e with
      | conn m a e => by_cases h : m = n <;> simp [onLink, csEvents, atCs, h]
      | _ => rfl

theorem atCp_onLink (n : Nat) (tr : List (Ev F o₁ o₂)) : atCp (onLink n tr) = cpEvents n tr := by
  induction tr with
  | nil => rfl
  | cons e tr ih =>
    have h1 : onLink n (e :: tr) = onLink n [e] ++ onLink n tr := by rw [← onLink_append]; rfl
    have h2 : cpEvents n (e :: tr) = cpEvents n [e] ++ cpEvents n tr := by simp [cpEvents, ← List.filterMap_append]
    rw [h1, h2, show ∀ a b : List (Conn.Ev (ocppj F o₁ .cp) ⊕ Conn.Ev (ocppj F o₂ .cs)), atCp (a ++ b) = atCp a ++ atCp b by simp [atCp], ih]
    congr 1
    rcases e with _ | ⟨m, e⟩ | e
    · rfl
    · by_cases h : m = n <;> simp [onLink, cpEvents, atCp, h]
    · cases e with
      | conn m a e => by_cases h : m = n <;> simp [onLink, cpEvents, atCp, h]
      | _ => rfl

theorem mem_cpEvents {n : Nat} {e : Conn.Ev (ocppj F o₁ .cp)} : e ∈ cpEvents n tr ↔ Ev.cp n e ∈ tr := by
  simp only [cpEvents, List.mem_filterMap]
  constructor
  · rintro ⟨e', h1, h2⟩
    rcases e' with _ | ⟨m, e⟩ | e <;> simp at h2
    obtain ⟨rfl, rfl⟩ := h2; exact h1
  · intro h; exact ⟨_, h, by simp⟩

theorem mem_csEvents {n : Nat} {e : Conn.Ev (ocppj F o₂ .cs)} : e ∈ csEvents n tr ↔ ∃ about, Ev.cs (.conn n about e) ∈ tr := by
  simp only [csEvents, List.mem_filterMap]
  constructor
  · rintro ⟨e', h1, h2⟩
    rcases e' with _ | ⟨m, e⟩ | e
    · cases h2
    · cases h2
    · cases e with
      | conn m a e =>
        simp at h2
        obtain ⟨rfl, rfl⟩ := h2; exact ⟨_, h1⟩
      | _ => cases h2
  · rintro ⟨about, h⟩; exact ⟨_, h, by simp⟩

theorem mem_hubEvents {e : Hub.Ev F o₂} (he : ∀ n r, e ≠ .upgrade n r) : e ∈ hubEvents csURL tr ↔ Ev.cs e ∈ tr := by
  simp only [hubEvents, List.mem_filterMap]
  constructor
  · rintro ⟨e', h1, h2⟩
    rcases e' with _ | ⟨m, e'⟩ | e'
    · cases h2; exact absurd rfl (he _ _)
    · cases h2
    · cases h2; exact h1
  · intro h; exact ⟨_, h, rfl⟩

/-- What holds after every history. -/
structure Inv (csURL : Text) (tr : List (Ev F o₁ o₂)) (w : St F o₁ o₂) : Prop where
  hub : Hub.Exec (hubEvents csURL tr) w.hub
  size : w.peers.length = w.hub.members.length
  none : ∀ n, w.hub.members.length ≤ n → onLink n tr = []
  ends : ∀ (n : Nat) p, w.peers[n]? = some (some p) → ∃ m, w.hub.members[n]? = some m ∧
    Sys.Exec (onLink n tr) (⟨p.fin, m.fin, p.toCs, p.toCp⟩ : Sys F o₁ o₂) ∧
    (∃ id, Http.registeredAs csURL p.identity = some id) ∧
    ∃ key rest, key ≠ "" ∧ Ev.dial n p.identity key rest ∈ tr ∧ m.request = Hub.dialled csURL p.identity "V16" key rest
  dialled : ∀ n identity key rest, Ev.dial n identity key rest ∈ tr → ∃ p, w.peers[n]? = some (some p) ∧ p.identity = identity

theorem inv_nil : Inv csURL [] (init F o₁ o₂) := by
  refine ⟨.nil, rfl, by simp [onLink], by simp [init], by simp⟩

/-- What a step of the central system does to the connections. -/
theorem hub_members {s s' : Hub.St F o₂} {e : Hub.Ev F o₂} (hs : Hub.Step s e s') (hu : ∀ n r, e ≠ .upgrade n r) :
    s'.members.length = s.members.length ∧ ∀ (n : Nat) m, s.members[n]? = some m → ∃ m', s'.members[n]? = some m' ∧ m'.request = m.request ∧
      ((∀ about e', e ≠ .conn n about e') → m'.fin = m.fin) ∧ (∀ about e', e = .conn n about e' → Conn.Step .cs m.fin e' m'.fin) := by
  cases hs with
  | upgrade => exact absurd rfl (hu _ _)
  | @register n0 m0 p id reg' hal hl hr hid hreg =>
    refine ⟨by simp, fun n m hm => ?_⟩
    refine ⟨_, set_get hm, ?_⟩
    split
    · rename_i h; subst h; rw [hl] at hm; cases hm
      exact ⟨rfl, fun _ => rfl, fun _ _ h => by cases h⟩
    · exact ⟨rfl, fun _ => rfl, fun _ _ h => by cases h⟩
  | reg => exact ⟨rfl, fun n m hm => ⟨m, hm, rfl, fun _ => rfl, fun _ _ h => by cases h⟩⟩
  | @conn n0 k e m0 c fin' hal hl hlk hc hst hloop =>
    refine ⟨by simp, fun n m hm => ?_⟩
    refine ⟨_, set_get hm, ?_⟩
    split
    · rename_i h; subst h; rw [hl] at hm; cases hm
      exact ⟨rfl, fun h => absurd rfl (h _ _), fun _ _ h => by cases h; exact hst⟩
    · rename_i h
      exact ⟨rfl, fun _ => rfl, fun _ _ h' => by cases h'; exact absurd rfl h⟩

theorem inv_step {e : Ev F o₁ o₂} (h : Inv csURL tr w) (hs : Step csURL w e w') : Inv csURL (tr ++ [e]) w' := by
  obtain ⟨hhub, hsize, hnone, hends, hdial⟩ := h
  cases hs with
  | @dial identity id key rest hub' hkey hid hst =>
    have hm : hub'.members = w.hub.members ++ [⟨Hub.dialled csURL identity "V16" key rest, Conn.init _, Option.none⟩] := by
      generalize hev : Hub.Ev.upgrade (F := F) (o := o₂) w.hub.members.length (Hub.dialled csURL identity "V16" key rest) = ev at hst
      cases hst <;> cases hev
      rfl
    have hon : ∀ n, onLink n (tr ++ [Ev.dial (F := F) (o₁ := o₁) (o₂ := o₂) w.hub.members.length identity key rest]) = onLink n tr := by
      intro n; rw [onLink_append]; simp [onLink]
    refine ⟨?_, by simp [hm, hsize], ?_, ?_, ?_⟩
    · rw [hubEvents_append]; exact hhub.snoc hst
    · intro n hn
      rw [hon]; rw [hm] at hn; simp at hn; exact hnone n (by omega)
    · intro n p hp
      rw [hon]
      rcases get_snoc hp with h | ⟨h, h'⟩
      · obtain ⟨m, h1, h2, h3, k, r, h4, h5, h6⟩ := hends n p h
        exact ⟨m, by rw [hm]; exact get_left h1, h2, h3, k, r, h4, List.mem_append_left _ h5, h6⟩
      · cases h'
        rw [hsize] at h; subst h
        refine ⟨⟨Hub.dialled csURL identity "V16" key rest, Conn.init _, Option.none⟩, by rw [hm]; simp, ?_, ⟨id, hid⟩, key, rest, hkey, by simp, rfl⟩
        rw [hnone _ (Nat.le_refl _)]; exact .nil
    · intro n i k r hd
      rw [List.mem_append, List.mem_singleton] at hd
      rcases hd with hd | hd
      · obtain ⟨p, h1, h2⟩ := hdial _ _ _ _ hd
        exact ⟨p, get_left h1, h2⟩
      · cases hd
        exact ⟨⟨identity, Conn.init _, [], []⟩, by rw [← hsize]; simp, rfl⟩
  | @stranger n0 r0 hub' hst =>
    have hm : hub'.members = w.hub.members ++ [⟨r0, Conn.init _, Option.none⟩] := by
      generalize hev : Hub.Ev.upgrade (F := F) (o := o₂) n0 r0 = ev at hst
      cases hst <;> cases hev
      rfl
    have hon : ∀ n, onLink n (tr ++ [Ev.cs (F := F) (o₁ := o₁) (o₂ := o₂) (.upgrade n0 r0)]) = onLink n tr := by
      intro n; rw [onLink_append]; simp [onLink]
    refine ⟨?_, by simp [hm, hsize], ?_, ?_, ?_⟩
    · rw [hubEvents_append]; exact hhub.snoc hst
    · intro n hn
      rw [hon]; rw [hm] at hn; simp at hn; exact hnone n (by omega)
    · intro n p hp
      rw [hon]
      rcases get_snoc hp with h | ⟨h, h'⟩
      · obtain ⟨m, h1, h2, h3, k, r, h4, h5, h6⟩ := hends n p h
        exact ⟨m, by rw [hm]; exact get_left h1, h2, h3, k, r, h4, List.mem_append_left _ h5, h6⟩
      · cases h'
    · intro n i k r hd
      rw [List.mem_append, List.mem_singleton] at hd
      rcases hd with hd | hd
      · obtain ⟨p, h1, h2⟩ := hdial _ _ _ _ hd
        exact ⟨p, get_left h1, h2⟩
      · cases hd
  | @other e hub' hst hu hp =>
    obtain ⟨hlen, hmem⟩ := hub_members hst hu
    have hon : ∀ n, (∀ about e', e ≠ .conn n about e') → onLink n (tr ++ [Ev.cs (F := F) (o₁ := o₁) (o₂ := o₂) e]) = onLink n tr := by
      intro n hn; rw [onLink_append]
      cases e with
      | conn m a e => 
        have : m ≠ n := fun h => hn a e (by rw [h])
        simp [onLink, this]
      | _ => simp [onLink]
    have hne : ∀ n, w.hub.members.length ≤ n → ∀ about e', e ≠ .conn n about e' := by
      intro n hn about e' he
      have := lt_of_get (hp n about e' he)
      omega
    refine ⟨?_, by simp [hlen, hsize], ?_, ?_, ?_⟩
    · rw [hubEvents_append]; exact hhub.snoc hst
    · intro n hn
      rw [hlen] at hn
      rw [hon n (hne n hn)]; exact hnone n hn
    · intro n p hpp
      obtain ⟨m, h1, h2, h3, k, r, h4, h5, h6⟩ := hends n p hpp
      have hnc : ∀ about e', e ≠ .conn n about e' := by
        intro about e' he
        have := hp n about e' he
        have hpp' : w.peers[n]? = some (some p) := hpp
        rw [hpp'] at this; cases this
      obtain ⟨m', a1, a2, a3, -⟩ := hmem n m h1
      rw [hon n hnc]
      exact ⟨m', a1, by rw [a3 hnc]; exact h2, h3, k, r, h4, List.mem_append_left _ h5, a2.trans h6⟩
    · intro n i k r hd
      simp only [List.mem_append, List.mem_singleton, reduceCtorEq, or_false] at hd
      exact hdial _ _ _ _ hd
  | @cs n0 about e p0 l hub' hp0 hst hcon =>
    obtain ⟨hlen, hmem⟩ := hub_members hst (by simp)
    have hon : ∀ n, n ≠ n0 → onLink n (tr ++ [Ev.cs (F := F) (o₁ := o₁) (o₂ := o₂) (.conn n0 about e)]) = onLink n tr := by
      intro n hn; rw [onLink_append]; simp [onLink, hn.symm]
    have hon' : onLink n0 (tr ++ [Ev.cs (F := F) (o₁ := o₁) (o₂ := o₂) (.conn n0 about e)]) = onLink n0 tr ++ [.inr e] := by
      rw [onLink_append]; simp [onLink]
    refine ⟨?_, by simp [hlen, hsize], ?_, ?_, ?_⟩
    · rw [hubEvents_append]; exact hhub.snoc hst
    · intro n hn
      rw [hlen] at hn
      have : n ≠ n0 := by have := lt_of_get hp0; omega
      rw [hon n this]; exact hnone n hn
    · intro n p hpp
      rcases get_set hpp with ⟨h1, h2⟩ | ⟨rfl, h2⟩
      · obtain ⟨m, a1, a2, a3, k, r, a4, a5, a6⟩ := hends n p h2
        obtain ⟨m', b1, b2, b3, -⟩ := hmem n m a1
        rw [hon n h1]
        refine ⟨m', b1, ?_, a3, k, r, a4, List.mem_append_left _ a5, b2.trans a6⟩
        rw [b3 (fun about' e' he => by cases he; exact h1 rfl)]; exact a2
      · cases h2
        obtain ⟨m, a1, a2, a3, k, r, a4, a5, a6⟩ := hends n p0 hp0
        obtain ⟨m', b1, b2, -, b4⟩ := hmem n m a1
        rw [hon']
        exact ⟨m', b1, a2.snoc (.cs (b4 _ _ rfl) hcon), a3, k, r, a4, List.mem_append_left _ a5, b2.trans a6⟩
    · intro n i k r hd
      simp only [List.mem_append, List.mem_singleton, reduceCtorEq, or_false] at hd
      obtain ⟨p, h1, h2⟩ := hdial _ _ _ _ hd
      by_cases hn : n = n0
      · subst hn; rw [hp0] at h1; cases h1
        exact ⟨{ p0 with toCs := l, toCp := p0.toCp ++ Option.toList (α := Text) e.wrote }, by simp [lt_of_get hp0], h2⟩
      · exact ⟨p, by simp [List.getElem?_set_ne (Ne.symm hn), h1], h2⟩
  | @cp n0 e p0 s' l hp0 hst hcon =>
    have hon : ∀ n, n ≠ n0 → onLink n (tr ++ [Ev.cp (F := F) (o₁ := o₁) (o₂ := o₂) n0 e]) = onLink n tr := by
      intro n hn; rw [onLink_append]; simp [onLink, hn.symm]
    have hon' : onLink n0 (tr ++ [Ev.cp (F := F) (o₁ := o₁) (o₂ := o₂) n0 e]) = onLink n0 tr ++ [.inl e] := by
      rw [onLink_append]; simp [onLink]
    refine ⟨?_, by simp [hsize], ?_, ?_, ?_⟩
    · rw [hubEvents_append]; rw [show hubEvents csURL [Ev.cp (F := F) (o₁ := o₁) (o₂ := o₂) n0 e] = [] from rfl, List.append_nil]; exact hhub
    · intro n hn
      have : n ≠ n0 := by have := lt_of_get hp0; simp at hn; omega
      rw [hon n this]; exact hnone n hn
    · intro n p hpp
      rcases get_set hpp with ⟨h1, h2⟩ | ⟨rfl, h2⟩
      · obtain ⟨m, a1, a2, a3, k, r, a4, a5, a6⟩ := hends n p h2
        rw [hon n h1]
        exact ⟨m, a1, a2, a3, k, r, a4, List.mem_append_left _ a5, a6⟩
      · cases h2
        obtain ⟨m, a1, a2, a3, k, r, a4, a5, a6⟩ := hends n p0 hp0
        rw [hon']
        exact ⟨m, a1, a2.snoc (.cp hst hcon), a3, k, r, a4, List.mem_append_left _ a5, a6⟩
    · intro n i k r hd
      simp only [List.mem_append, List.mem_singleton, reduceCtorEq, or_false] at hd
      obtain ⟨p, h1, h2⟩ := hdial _ _ _ _ hd
      by_cases hn : n = n0
      · subst hn; rw [hp0] at h1; cases h1
        exact ⟨{ p0 with fin := s', toCp := l, toCs := p0.toCs ++ Option.toList (α := Text) e.wrote }, by simp [lt_of_get hp0], h2⟩
      · exact ⟨p, by simp [List.getElem?_set_ne (Ne.symm hn), h1], h2⟩

theorem Exec.inv (h : Exec csURL tr w) : Inv csURL tr w := by
  induction h with
  | nil => exact inv_nil
  | snoc _ hs ih => exact inv_step ih hs

theorem Exec.append (h : Exec csURL tr w) (hr : Run csURL w tr' w') : Exec csURL (tr ++ tr') w' := by
  induction hr with
  | nil => simpa using h
  | snoc _ hs ih => rw [← List.append_assoc]; exact .snoc ih hs

end Verif.Company
