import Verif.Model.World
import Verif.Props.System
import Verif.Props.Registry
import Verif.Props.Http
/-!
# The parts of a history of the whole system
-/
set_option linter.unusedSimpArgs false
namespace Verif.World
open Conn Codec Ocppj

variable {F : FloatFmt} {o₁ o₂ : Order} {csURL : Text}

theorem ensureChan_table (s : Registry.St) (id : String) : (s.ensureChan id).table = s.table := by
  unfold Registry.St.ensureChan; split <;> rfl

theorem closeChan_table (s : Registry.St) (id : String) : (s.closeChan id).table = s.table := by
  unfold Registry.St.closeChan; split
  · rfl
  · split <;> rfl

theorem register_table (s : Registry.St) (id : String) : (s.register id).table = s.table ++ [⟨id, .registered, false, false, false⟩] := by
  unfold Registry.St.register
  simp only
  split
  · simp [ensureChan_table]
  · simp [closeChan_table, ensureChan_table]

theorem cleanup_table (s : Registry.St) (n : Nat) (c : Registry.CState) : (s.cleanup n c).table = s.table.set n { c with phase := .cleaned } := by
  unfold Registry.St.cleanup
  simp only
  split <;> rfl

/-- An entry that replaces one with the same id and closedness. -/
theorem table_set {l : List Registry.CState} {n : Nat} {c d : Registry.CState} (h : l[n]? = some c) (h1 : d.cp = c.cp) (h2 : d.closed = c.closed) :
    (l.set n d).length = l.length ∧ ∀ (m : Nat) c', (l.set n d)[m]? = some c' → ∃ c, l[m]? = some c ∧ c'.cp = c.cp ∧ c'.closed = c.closed := by
  refine ⟨by simp, ?_⟩
  intro m c' hm
  rw [List.getElem?_set] at hm
  split at hm
  · subst n
    split at hm
    · cases hm; exact ⟨c, h, h1, h2⟩
    · cases hm
  · exact ⟨c', hm, rfl, rfl⟩

theorem reg_table {s s' : Registry.St} {e : Registry.Ev} (h : Registry.Step s e s') (h1 : ∀ n id, e ≠ .handshake n id) (h2 : ∀ n, e ≠ .drop n) :
    s'.table.length = s.table.length ∧ ∀ (m : Nat) c', s'.table[m]? = some c' → ∃ c, s.table[m]? = some c ∧ c'.cp = c.cp ∧ c'.closed = c.closed := by
  cases h with
  | handshake id => exact absurd rfl (h1 _ _)
  | drop => exact absurd rfl (h2 _)
  | notify h3 => exact table_set h3 rfl rfl
  | connected h3 => exact table_set h3 rfl rfl
  | disconnected h3 => exact table_set h3 rfl rfl
  | leave h3 => exact table_set h3 rfl rfl
  | cleanup h3 => rw [cleanup_table]; exact table_set h3 rfl rfl
  | waitConnect h3 => rw [ensureChan_table]; exact ⟨rfl, fun m c' h => ⟨c', h, rfl, rfl⟩⟩

theorem noteClosed_table (r : Registry.St) (n : Nat) (b : Bool) : (noteClosed r n b).table.length = r.table.length := by
  unfold noteClosed; split <;> simp

theorem noteClosed_get (r : Registry.St) (n : Nat) (b : Bool) (m : Nat) (c' : Registry.CState) (h : (noteClosed r n b).table[m]? = some c') :
    ∃ c, r.table[m]? = some c ∧ c'.cp = c.cp ∧ c'.closed = (c.closed || (decide (m = n) && b)) ∧ c'.phase = c.phase := by
  unfold noteClosed at h
  split at h
  · rename_i c hc
    simp only at h
    rw [List.getElem?_set] at h
    split at h
    · subst m
      split at h
      · cases h; exact ⟨c, hc, rfl, by simp, rfl⟩
      · cases h
    · rename_i hne
      exact ⟨c', h, rfl, by simp [Ne.symm hne], rfl⟩
  · rename_i hno
    refine ⟨c', h, rfl, ?_, rfl⟩
    by_cases hm : m = n
    · subst hm
      have := fun hb => hno c' hb h
      simp at this
      simp [this]
    · simp [hm]

/-- Closing a connection is a step of the registry, or nothing. -/
theorem noteClosed_step (r : Registry.St) (n : Nat) (b : Bool) : noteClosed r n b = r ∨ Registry.Step r (.drop n) (noteClosed r n b) := by
  unfold noteClosed; split
  · exact .inr (.drop (by assumption))
  · exact .inl rfl

theorem onLink_append (n : Nat) (tr tr' : List (Ev F o₁ o₂)) : onLink n (tr ++ tr') = onLink n tr ++ onLink n tr' := by
  simp [onLink]

/-- Events of the registry that are not caused by a connection. -/
def own : Registry.Ev → Bool
  | .handshake _ _ | .drop _ => false
  | _ => true

theorem own_iff {e : Registry.Ev} : own e = true ↔ (∀ n id, e ≠ .handshake n id) ∧ ∀ n, e ≠ .drop n := by
  cases e <;> simp [own]

theorem regEvents_append (tr tr' : List (Ev F o₁ o₂)) : regEvents (tr ++ tr') = regEvents tr ++ regEvents tr' := by
  simp [regEvents]

theorem mem_regEvents {tr : List (Ev F o₁ o₂)} {e : Registry.Ev} : e ∈ regEvents tr ↔ Ev.reg e ∈ tr := by
  simp only [regEvents, List.mem_filterMap]
  constructor
  · rintro ⟨e', h1, h2⟩
    cases e' <;> simp at h2
    subst h2; exact h1
  · intro h; exact ⟨_, h, rfl⟩

/-- What holds after every history. -/
structure Inv (csURL : Text) (tr : List (Ev F o₁ o₂)) (w : St F o₁ o₂) : Prop where
  none : ∀ n, w.links.length ≤ n → onLink n tr = []
  ends : ∀ (n : Nat) l, w.links[n]? = some l → Sys.Exec (onLink n tr) l.ends
  regd : ∀ (n k : Nat) l, w.links[n]? = some l → l.reg = some k →
    ∃ c, w.reg.table[k]? = some c ∧ c.closed = l.ends.cs.closed ∧ Ev.register n k c.cp ∈ tr ∧ Http.registeredAs csURL l.identity = some c.cp.toList
  owner : ∀ (k : Nat) c, w.reg.table[k]? = some c → ∃ (n : Nat) (l : Link F o₁ o₂), w.links[n]? = some l ∧ l.reg = some k
  inj : ∀ (n m k : Nat) l l', w.links[n]? = some l → w.links[m]? = some l' → l.reg = some k → l'.reg = some k → n = m
  fresh : ∀ (n : Nat) l, w.links[n]? = some l → l.reg = Option.none → l.ends.cs = Conn.init _
  named : ∀ (n : Nat) l, w.links[n]? = some l → Ev.dial n l.identity ∈ tr ∧ ∃ id, Http.registeredAs csURL l.identity = some id
  dialled : ∀ n identity, Ev.dial n identity ∈ tr → ∃ l, w.links[n]? = some l ∧ l.identity = identity
  accepted : ∀ n k id, Ev.register n k id ∈ tr → ∃ l c, w.links[n]? = some l ∧ l.reg = some k ∧ w.reg.table[k]? = some c ∧ c.cp = id
  reg : ∃ trR, Registry.Exec trR w.reg ∧ (∀ k id, Registry.Ev.handshake k id ∈ trR ↔ ∃ n, Ev.register n k id ∈ tr) ∧
    (∀ k, Registry.Ev.drop k ∈ trR ↔ ∃ (n : Nat) (l : Link F o₁ o₂), w.links[n]? = some l ∧ l.reg = some k ∧ l.ends.cs.closed = true) ∧
    trR.filter own = regEvents tr

theorem cs_closed_mono {x y : Sys F o₁ o₂} {e} (h : Sys.Step x e y) : x.cs.closed = true → y.cs.closed = true := by
  intro hc
  cases h with
  | cp _ _ => exact hc
  | cs h _ => exact (closed_step hc h).1

theorem inv_nil : Inv csURL [] (init F o₁ o₂) := by
  refine ⟨by simp [onLink], by simp [init], by simp [init], by simp [init, Registry.init], by simp [init], by simp [init], by simp [init], by simp, by simp,
    [], .nil, by simp, by simp [init], rfl⟩

theorem get_snoc {α : Type} {l : List α} {a b : α} {n : Nat} (h : (l ++ [a])[n]? = some b) : l[n]? = some b ∨ (n = l.length ∧ b = a) := by
  rw [List.getElem?_append] at h
  split at h
  · exact .inl h
  · rename_i hge
    have : n - l.length = 0 := by
      by_contra hne
      rw [List.getElem?_singleton, if_neg hne] at h; cases h
    rw [this] at h
    simp at h
    exact .inr ⟨by omega, h.symm⟩

theorem get_left {α : Type} {l : List α} {a b : α} {n : Nat} (h : l[n]? = some b) : (l ++ [a])[n]? = some b := by
  rw [List.getElem?_append_left (List.getElem?_eq_some_iff.1 h).1]; exact h

theorem get_set {α : Type} {l : List α} {a b : α} {n m : Nat} (h : (l.set n a)[m]? = some b) : (m ≠ n ∧ l[m]? = some b) ∨ (m = n ∧ b = a) := by
  rw [List.getElem?_set] at h
  split at h
  · subst n
    split at h
    · cases h; exact .inr ⟨rfl, rfl⟩
    · cases h
  · rename_i hne; exact .inl ⟨Ne.symm hne, h⟩

theorem set_get {α : Type} {l : List α} {a b : α} {n m : Nat} (h : l[m]? = some b) : (l.set n a)[m]? = some (if m = n then a else b) := by
  have hlt := (List.getElem?_eq_some_iff.1 h).1
  split
  · rename_i e; subst e; simp [hlt]
  · rename_i e; rw [List.getElem?_set_ne (Ne.symm e)]; exact h

theorem lt_of_get {α : Type} {l : List α} {b : α} {n : Nat} (h : l[n]? = some b) : n < l.length := (List.getElem?_eq_some_iff.1 h).1

theorem inv_step {tr : List (Ev F o₁ o₂)} {w w' : St F o₁ o₂} {e : Ev F o₁ o₂} (h : Inv csURL tr w) (hs : Step csURL w e w') :
    Inv csURL (tr ++ [e]) w' := by
  obtain ⟨hnone, hends, hregd, howner, hinj, hfresh, hnamed, hdialled, haccepted, trR, hR, hR1, hR2, hR3⟩ := h
  cases hs with
  | @dial identity id hal hid =>
    have hon : ∀ n, onLink n (tr ++ [Ev.dial (F := F) (o₁ := o₁) (o₂ := o₂) w.links.length identity]) = onLink n tr := by
      intro n; rw [onLink_append]; simp [onLink]
    refine ⟨?_, ?_, ?_, ?_, ?_, ?_, ?_, ?_, ?_, trR, hR, ?_, ?_, ?_⟩
    · intro n hn
      rw [hon]
      simp at hn
      exact hnone n (by omega)
    · intro n l hn
      rw [hon]
      rcases get_snoc hn with h | ⟨h, rfl⟩
      · exact hends n l h
      · rw [hnone n (by omega)]; exact .nil
    · intro n k l hl hk
      rcases get_snoc hl with h | ⟨h, rfl⟩
      · obtain ⟨c, h1, h2, h3, h4⟩ := hregd n k l h hk
        exact ⟨c, h1, h2, List.mem_append_left _ h3, h4⟩
      · cases hk
    · intro k c hc
      obtain ⟨n, l, h1, h2⟩ := howner k c hc
      exact ⟨n, l, get_left h1, h2⟩
    · intro n m k l l' hl hl' hk hk'
      rcases get_snoc hl with h | ⟨h, rfl⟩ <;> rcases get_snoc hl' with h' | ⟨h', rfl⟩
      · exact hinj n m k l l' h h' hk hk'
      · cases hk'
      · cases hk
      · cases hk
    · intro n l hl hk
      rcases get_snoc hl with h | ⟨h, rfl⟩
      · exact hfresh n l h hk
      · rfl
    · intro n l hl
      rcases get_snoc hl with h | ⟨rfl, rfl⟩
      · exact ⟨List.mem_append_left _ (hnamed n l h).1, (hnamed n l h).2⟩
      · exact ⟨by simp, id, hid⟩
    · intro n identity' hm
      rw [List.mem_append, List.mem_singleton] at hm
      rcases hm with hm | hm
      · obtain ⟨l, h1, h2⟩ := hdialled _ _ hm
        exact ⟨l, get_left h1, h2⟩
      · cases hm
        exact ⟨⟨identity, Sys.init F o₁ o₂, none⟩, by simp, rfl⟩
    · intro n k id' hm
      simp only [List.mem_append, List.mem_singleton, reduceCtorEq, or_false] at hm
      obtain ⟨l, c, h1, h2, h3, h4⟩ := haccepted _ _ _ hm
      exact ⟨l, c, get_left h1, h2, h3, h4⟩
    · intro k id'
      simp [hR1]
    · intro k
      rw [hR2]
      constructor
      · rintro ⟨n, l, h1, h2, h3⟩; exact ⟨n, l, get_left h1, h2, h3⟩
      · rintro ⟨n, l, h1, h2, h3⟩
        rcases get_snoc h1 with h | ⟨h, rfl⟩
        · exact ⟨n, l, h, h2, h3⟩
        · cases h2
    · rw [regEvents_append, hR3]; exact (List.append_nil _).symm
  | @register n l id reg' hal hl hlr hid hreg =>
    have ht : reg'.table = w.reg.table ++ [⟨String.ofList id, .registered, false, false, false⟩] := by
      generalize hev : Registry.Ev.handshake w.reg.table.length (String.ofList id) = ev at hreg
      cases hreg <;> cases hev
      exact register_table _ _
    have hon : ∀ m, onLink m (tr ++ [Ev.register (F := F) (o₁ := o₁) (o₂ := o₂) n w.reg.table.length (String.ofList id)]) = onLink m tr := by
      intro m; rw [onLink_append]; simp [onLink]
    have hcs := hfresh n l hl hlr
    refine ⟨?_, ?_, ?_, ?_, ?_, ?_, ?_, ?_, ?_, trR ++ [.handshake w.reg.table.length (String.ofList id)], hR.snoc hreg, ?_, ?_, ?_⟩
    · intro m hm
      rw [hon]
      simp at hm
      exact hnone m hm
    · intro m l' hm
      rw [hon]
      rcases get_set hm with ⟨h1, h2⟩ | ⟨rfl, rfl⟩
      · exact hends m l' h2
      · exact hends m l hl
    · intro m k l' hm hk
      simp only [ht]
      rcases get_set hm with ⟨h1, h2⟩ | ⟨rfl, rfl⟩
      · obtain ⟨c, h3, h4, h5, h6⟩ := hregd m k l' h2 hk
        exact ⟨c, get_left h3, h4, List.mem_append_left _ h5, h6⟩
      · cases hk
        refine ⟨⟨String.ofList id, .registered, false, false, false⟩, by simp, ?_, by simp, by simpa using hid⟩
        rw [hcs]; rfl
    · intro k c hc
      simp only [ht] at hc
      rcases get_snoc hc with hc | ⟨rfl, rfl⟩
      · obtain ⟨m, l', h1, h2⟩ := howner k c hc
        have hmn : m ≠ n := by rintro rfl; rw [hl] at h1; cases h1; rw [hlr] at h2; cases h2
        exact ⟨m, l', by simpa [hmn] using set_get (n := n) (a := { l with reg := some w.reg.table.length }) h1, h2⟩
      · exact ⟨n, { l with reg := some w.reg.table.length }, by simpa using set_get (n := n) (a := { l with reg := some w.reg.table.length }) hl, rfl⟩
    · intro n' m' k l₁ l₂ h1 h2 hk1 hk2
      have hb : ∀ (j : Nat) l', w.links[j]? = some l' → l'.reg ≠ some w.reg.table.length := by
        intro j l' hj hr
        obtain ⟨c, h3, -⟩ := hregd j _ l' hj hr
        have := lt_of_get h3; omega
      rcases get_set h1 with ⟨a1, a2⟩ | ⟨rfl, rfl⟩ <;> rcases get_set h2 with ⟨b1, b2⟩ | ⟨rfl, rfl⟩
      · exact hinj n' m' k l₁ l₂ a2 b2 hk1 hk2
      · cases hk2; exact absurd hk1 (hb _ _ a2)
      · cases hk1; exact absurd hk2 (hb _ _ b2)
      · rfl
    · intro m l' hm hk
      rcases get_set hm with ⟨h1, h2⟩ | ⟨rfl, rfl⟩
      · exact hfresh m l' h2 hk
      · cases hk
    · intro m l' hm
      rcases get_set hm with ⟨h1, h2⟩ | ⟨rfl, rfl⟩
      · exact ⟨List.mem_append_left _ (hnamed m l' h2).1, (hnamed m l' h2).2⟩
      · exact ⟨List.mem_append_left _ (hnamed m l hl).1, (hnamed m l hl).2⟩
    · intro m identity hm
      simp only [List.mem_append, List.mem_singleton, reduceCtorEq, or_false] at hm
      obtain ⟨l', h1, h2⟩ := hdialled _ _ hm
      refine ⟨_, set_get h1, ?_⟩
      split
      · rename_i e; subst e; rw [hl] at h1; cases h1; exact h2
      · exact h2
    · intro m k id' hm
      rw [List.mem_append, List.mem_singleton] at hm
      rcases hm with hm | hm
      · obtain ⟨l', c, h1, h2, h3, h4⟩ := haccepted _ _ _ hm
        have hmn : m ≠ n := by rintro rfl; rw [hl] at h1; cases h1; rw [hlr] at h2; cases h2
        exact ⟨l', c, by simpa [hmn] using set_get (n := n) (a := { l with reg := some w.reg.table.length }) h1, h2,
          by simp only [ht]; exact get_left h3, h4⟩
      · cases hm
        refine ⟨{ l with reg := some w.reg.table.length }, ⟨String.ofList id, .registered, false, false, false⟩, ?_, rfl, by simp [ht], rfl⟩
        simpa using set_get (n := n) (a := { l with reg := some w.reg.table.length }) hl
    · intro k id'
      simp only [List.mem_append, List.mem_singleton, hR1]
      constructor
      · rintro (⟨i, h⟩ | h)
        · exact ⟨i, .inl h⟩
        · cases h; exact ⟨n, .inr rfl⟩
      · rintro ⟨i, h | h⟩
        · exact .inl ⟨i, h⟩
        · cases h; exact .inr rfl
    · intro k
      simp only [List.mem_append, List.mem_singleton, reduceCtorEq, or_false, hR2]
      constructor
      · rintro ⟨m, l', h1, h2, h3⟩
        have hmn : m ≠ n := by rintro rfl; rw [hl] at h1; cases h1; rw [hlr] at h2; cases h2
        exact ⟨m, l', by simpa [hmn] using set_get (n := n) (a := { l with reg := some w.reg.table.length }) h1, h2, h3⟩
      · rintro ⟨m, l', h1, h2, h3⟩
        rcases get_set h1 with ⟨a1, a2⟩ | ⟨rfl, rfl⟩
        · exact ⟨m, l', a2, h2, h3⟩
        · simp only [hcs] at h3; cases h3
    · rw [List.filter_append, regEvents_append, hR3]; rfl
  | @reg e reg' hal hreg h1 h2 h3 =>
    obtain ⟨ht1, ht2⟩ := reg_table hreg h1 h2
    have hon : ∀ n, onLink n (tr ++ [Ev.reg (F := F) (o₁ := o₁) (o₂ := o₂) e]) = onLink n tr := by
      intro n; rw [onLink_append]; simp [onLink]
    have hfwd : ∀ (k : Nat) c, w.reg.table[k]? = some c → ∃ c', reg'.table[k]? = some c' ∧ c'.cp = c.cp ∧ c'.closed = c.closed := by
      intro k c hc
      have h8 : reg'.table[k]? = some (reg'.table[k]'(by have := lt_of_get hc; omega)) := List.getElem?_eq_getElem _
      obtain ⟨c2, h9, h10, h11⟩ := ht2 k _ h8
      rw [hc] at h9; cases h9
      exact ⟨_, h8, h10, h11⟩
    refine ⟨?_, ?_, ?_, ?_, hinj, hfresh, ?_, ?_, ?_, trR ++ [e], hR.snoc hreg, ?_, ?_, ?_⟩
    · intro n hn; rw [hon]; exact hnone n hn
    · intro n l hn; rw [hon]; exact hends n l hn
    · intro n k l hl hk
      obtain ⟨c, h4, h5, h6, h7⟩ := hregd n k l hl hk
      obtain ⟨c', h8, h9, h10⟩ := hfwd k c h4
      exact ⟨c', h8, h10.trans h5, by rw [h9]; exact List.mem_append_left _ h6, by rw [h9]; exact h7⟩
    · intro k c hc
      obtain ⟨c0, h4, -⟩ := ht2 k c hc
      exact howner k c0 h4
    · intro n l hl; exact ⟨List.mem_append_left _ (hnamed n l hl).1, (hnamed n l hl).2⟩
    · intro n identity hm
      simp only [List.mem_append, List.mem_singleton, reduceCtorEq, or_false] at hm
      exact hdialled _ _ hm
    · intro n k id hm
      simp only [List.mem_append, List.mem_singleton, reduceCtorEq, or_false] at hm
      obtain ⟨l, c, h4, h5, h6, h7⟩ := haccepted _ _ _ hm
      obtain ⟨c', h8, h9, -⟩ := hfwd k c h6
      exact ⟨l, c', h4, h5, h8, h9.trans h7⟩
    · intro n id
      simp only [List.mem_append, List.mem_singleton, reduceCtorEq, or_false]
      rw [or_iff_left (Ne.symm (h1 n id))]
      exact hR1 n id
    · intro n
      rw [List.mem_append, List.mem_singleton, or_iff_left (Ne.symm (h2 n))]
      exact hR2 n
    · rw [List.filter_append, regEvents_append, hR3, List.filter_singleton, own_iff.2 ⟨h1, h2⟩]; rfl
  | @cp n e l ends' hl hst =>
    have hcs : ends'.cs = l.ends.cs := by
      generalize hev : (Sum.inl e : Conn.Ev (ocppj F o₁ .cp) ⊕ Conn.Ev (ocppj F o₂ .cs)) = ev at hst
      cases hst <;> cases hev
      rfl
    have hon : ∀ m, m ≠ n → onLink m (tr ++ [Ev.cp (o₂ := o₂) n e]) = onLink m tr := by
      intro m hm; rw [onLink_append]; simp [onLink, hm.symm]
    have hon' : onLink n (tr ++ [Ev.cp (o₂ := o₂) n e]) = onLink n tr ++ [.inl e] := by
      rw [onLink_append]; simp [onLink]
    -- a link after the step has the same registration, identity and central system's end as before
    have back : ∀ (m : Nat) l', (w.links.set n { l with ends := ends' })[m]? = some l' →
        ∃ l₀, w.links[m]? = some l₀ ∧ l'.reg = l₀.reg ∧ l'.identity = l₀.identity ∧ l'.ends.cs = l₀.ends.cs := by
      intro m l' hm
      rcases get_set hm with ⟨h1, h2⟩ | ⟨rfl, rfl⟩
      · exact ⟨l', h2, rfl, rfl, rfl⟩
      · exact ⟨l, hl, rfl, rfl, hcs⟩
    have forth : ∀ (m : Nat) l₀, w.links[m]? = some l₀ →
        ∃ l', (w.links.set n { l with ends := ends' })[m]? = some l' ∧ l'.reg = l₀.reg ∧ l'.identity = l₀.identity ∧ l'.ends.cs = l₀.ends.cs := by
      intro m l₀ hm
      refine ⟨_, set_get hm, ?_⟩
      split
      · rename_i e; subst e; rw [hl] at hm; cases hm; exact ⟨rfl, rfl, hcs⟩
      · exact ⟨rfl, rfl, rfl⟩
    refine ⟨?_, ?_, ?_, ?_, ?_, ?_, ?_, ?_, ?_, trR, hR, ?_, ?_, ?_⟩
    · intro m hm
      simp at hm
      have := lt_of_get hl
      rw [hon m (by omega)]
      exact hnone m hm
    · intro m l' hm
      rcases get_set hm with ⟨h1, h2⟩ | ⟨rfl, rfl⟩
      · rw [hon m h1]; exact hends m l' h2
      · rw [hon']; exact (hends m l hl).snoc hst
    · intro m k l' hm hk
      obtain ⟨l₀, a1, a2, a3, a4⟩ := back m l' hm
      obtain ⟨c, h1, h2, h3, h4⟩ := hregd m k l₀ a1 (a2 ▸ hk)
      exact ⟨c, h1, by rw [a4]; exact h2, List.mem_append_left _ h3, by rw [a3]; exact h4⟩
    · intro k c hc
      obtain ⟨m, l₀, h1, h2⟩ := howner k c hc
      obtain ⟨l', a1, a2, -⟩ := forth m l₀ h1
      exact ⟨m, l', a1, a2.trans h2⟩
    · intro n' m' k l₁ l₂ h1 h2 hk1 hk2
      obtain ⟨l₁', a1, a2, -⟩ := back _ _ h1
      obtain ⟨l₂', b1, b2, -⟩ := back _ _ h2
      exact hinj n' m' k _ _ a1 b1 (a2 ▸ hk1) (b2 ▸ hk2)
    · intro m l' hm hk
      obtain ⟨l₀, a1, a2, a3, a4⟩ := back m l' hm
      rw [a4]; exact hfresh m l₀ a1 (a2 ▸ hk)
    · intro m l' hm
      obtain ⟨l₀, a1, a2, a3, a4⟩ := back m l' hm
      rw [a3]; exact ⟨List.mem_append_left _ (hnamed m l₀ a1).1, (hnamed m l₀ a1).2⟩
    · intro m identity hm
      simp only [List.mem_append, List.mem_singleton, reduceCtorEq, or_false] at hm
      obtain ⟨l₀, h4, h5⟩ := hdialled _ _ hm
      obtain ⟨l', a1, a2, a3, -⟩ := forth m l₀ h4
      exact ⟨l', a1, a3.trans h5⟩
    · intro m k id hm
      simp only [List.mem_append, List.mem_singleton, reduceCtorEq, or_false] at hm
      obtain ⟨l₀, c, h4, h5, h6, h7⟩ := haccepted _ _ _ hm
      obtain ⟨l', a1, a2, -⟩ := forth m l₀ h4
      exact ⟨l', c, a1, a2.trans h5, h6, h7⟩
    · intro m id
      simp only [List.mem_append, List.mem_singleton, reduceCtorEq, or_false]
      exact hR1 m id
    · intro k
      rw [hR2 k]
      constructor
      · rintro ⟨m, l₀, h1, h2, h3⟩
        obtain ⟨l', a1, a2, a3, a4⟩ := forth m l₀ h1
        exact ⟨m, l', a1, a2.trans h2, by rw [a4]; exact h3⟩
      · rintro ⟨m, l', h1, h2, h3⟩
        obtain ⟨l₀, a1, a2, a3, a4⟩ := back m l' h1
        exact ⟨m, l₀, a1, a2 ▸ h2, by rw [← a4]; exact h3⟩
    · rw [regEvents_append, hR3]; exact (List.append_nil _).symm
  | @cs n k e l cn ends' hal hl hlk hcn hst hloop =>
    have hon : ∀ m, m ≠ n → onLink m (tr ++ [Ev.cs (o₁ := o₁) n cn.cp e]) = onLink m tr := by
      intro m hm; rw [onLink_append]; simp [onLink, hm.symm]
    have hon' : onLink n (tr ++ [Ev.cs (o₁ := o₁) n cn.cp e]) = onLink n tr ++ [.inr e] := by
      rw [onLink_append]; simp [onLink]
    have hmono := cs_closed_mono hst
    have back : ∀ (m : Nat) l', (w.links.set n { l with ends := ends' })[m]? = some l' →
        ∃ l₀, w.links[m]? = some l₀ ∧ l'.reg = l₀.reg ∧ l'.identity = l₀.identity ∧
          (m ≠ n ∧ l'.ends = l₀.ends ∨ m = n ∧ l₀ = l ∧ l'.ends = ends') := by
      intro m l' hm
      rcases get_set hm with ⟨h1, h2⟩ | ⟨rfl, rfl⟩
      · exact ⟨l', h2, rfl, rfl, .inl ⟨h1, rfl⟩⟩
      · exact ⟨l, hl, rfl, rfl, .inr ⟨rfl, rfl, rfl⟩⟩
    have forth : ∀ (m : Nat) l₀, w.links[m]? = some l₀ →
        ∃ l', (w.links.set n { l with ends := ends' })[m]? = some l' ∧ l'.reg = l₀.reg ∧ l'.identity = l₀.identity ∧
          (m ≠ n ∧ l'.ends = l₀.ends ∨ m = n ∧ l₀ = l ∧ l'.ends = ends') := by
      intro m l₀ hm
      refine ⟨_, set_get hm, ?_⟩
      split
      · rename_i e; subst e; rw [hl] at hm; cases hm; exact ⟨rfl, rfl, .inr ⟨rfl, rfl, rfl⟩⟩
      · rename_i e; exact ⟨rfl, rfl, .inl ⟨e, rfl⟩⟩
    have hfwd : ∀ (j : Nat) c, w.reg.table[j]? = some c → ∃ c', (noteClosed w.reg k ends'.cs.closed).table[j]? = some c' ∧ c'.cp = c.cp ∧
        c'.closed = (c.closed || (decide (j = k) && ends'.cs.closed)) := by
      intro j c hc
      have h8 : (noteClosed w.reg k ends'.cs.closed).table[j]? = some ((noteClosed w.reg k ends'.cs.closed).table[j]'(by rw [noteClosed_table]; exact lt_of_get hc)) :=
        List.getElem?_eq_getElem _
      obtain ⟨c2, h9, h10, h11, -⟩ := noteClosed_get _ _ _ _ _ h8
      rw [hc] at h9; cases h9
      exact ⟨_, h8, h10, h11⟩
    have hreg : ∃ trR', Registry.Exec trR' (noteClosed w.reg k ends'.cs.closed) ∧
        (∀ n id, Registry.Ev.handshake n id ∈ trR' ↔ Registry.Ev.handshake n id ∈ trR) ∧
        (∀ m, Registry.Ev.drop m ∈ trR' ↔ (Registry.Ev.drop m ∈ trR ∨ (m = k ∧ ends'.cs.closed = true))) ∧
        trR'.filter own = trR.filter own := by
      cases hb : ends'.cs.closed with
      | false =>
        refine ⟨trR, ?_, by simp, by simp, rfl⟩
        unfold noteClosed; exact hR
      | true =>
        have hc := hcn
        generalize cn = c at hc
        refine ⟨trR ++ [.drop k], ?_, by simp, ?_, ?_⟩
        · have : noteClosed w.reg k true = { w.reg with table := w.reg.table.set k { c with closed := true } } := by
            unfold noteClosed; rw [hc]
          rw [this]
          exact hR.snoc (.drop hc)
        · intro m
          simp
        · rw [List.filter_append]; exact List.append_nil _
    obtain ⟨trR', hR', hR1', hR2', hR3'⟩ := hreg
    refine ⟨?_, ?_, ?_, ?_, ?_, ?_, ?_, ?_, ?_, trR', hR', ?_, ?_, ?_⟩
    · intro m hm
      simp at hm
      have := lt_of_get hl
      rw [hon m (by omega)]
      exact hnone m hm
    · intro m l' hm
      rcases get_set hm with ⟨h1, h2⟩ | ⟨rfl, rfl⟩
      · rw [hon m h1]; exact hends m l' h2
      · rw [hon']; exact (hends m l hl).snoc hst
    · intro m j l' hm hk
      obtain ⟨l₀, a1, a2, a3, a4⟩ := back m l' hm
      obtain ⟨c, h1, h2, h3, h4⟩ := hregd m j l₀ a1 (a2 ▸ hk)
      obtain ⟨c', h5, h6, h7⟩ := hfwd j c h1
      refine ⟨c', h5, ?_, by rw [h6]; exact List.mem_append_left _ h3, by rw [h6, a3]; exact h4⟩
      rw [h7, h2]
      rcases a4 with ⟨b1, b2⟩ | ⟨rfl, rfl, b3⟩
      · have : j ≠ k := by
          rintro rfl
          exact b1 (hinj m n j l₀ l a1 hl (a2 ▸ hk) hlk)
        simp [this, b2]
      · rw [a2, hlk] at hk
        cases hk
        rw [b3]
        cases hh : l₀.ends.cs.closed with
        | false => simp
        | true => simp [hmono hh]
    · intro j c hc
      obtain ⟨c0, h4, -⟩ := noteClosed_get _ _ _ _ _ hc
      obtain ⟨m, l₀, h1, h2⟩ := howner j c0 h4
      obtain ⟨l', a1, a2, -⟩ := forth m l₀ h1
      exact ⟨m, l', a1, a2.trans h2⟩
    · intro n' m' j l₁ l₂ h1 h2 hk1 hk2
      obtain ⟨l₁', a1, a2, -⟩ := back _ _ h1
      obtain ⟨l₂', b1, b2, -⟩ := back _ _ h2
      exact hinj n' m' j _ _ a1 b1 (a2 ▸ hk1) (b2 ▸ hk2)
    · intro m l' hm hk
      obtain ⟨l₀, a1, a2, a3, a4⟩ := back m l' hm
      rcases a4 with ⟨b1, b2⟩ | ⟨rfl, rfl, b3⟩
      · rw [b2]; exact hfresh m l₀ a1 (a2 ▸ hk)
      · rw [a2, hlk] at hk; cases hk
    · intro m l' hm
      obtain ⟨l₀, a1, a2, a3, a4⟩ := back m l' hm
      rw [a3]; exact ⟨List.mem_append_left _ (hnamed m l₀ a1).1, (hnamed m l₀ a1).2⟩
    · intro m identity hm
      simp only [List.mem_append, List.mem_singleton, reduceCtorEq, or_false] at hm
      obtain ⟨l₀, h4, h5⟩ := hdialled _ _ hm
      obtain ⟨l', a1, a2, a3, -⟩ := forth m l₀ h4
      exact ⟨l', a1, a3.trans h5⟩
    · intro m j id hm
      simp only [List.mem_append, List.mem_singleton, reduceCtorEq, or_false] at hm
      obtain ⟨l₀, c, h4, h5, h6, h7⟩ := haccepted _ _ _ hm
      obtain ⟨l', a1, a2, -⟩ := forth m l₀ h4
      obtain ⟨c', h8, h9, -⟩ := hfwd j c h6
      exact ⟨l', c', a1, a2.trans h5, h8, h9.trans h7⟩
    · intro m id
      rw [hR1']
      simp only [List.mem_append, List.mem_singleton, reduceCtorEq, or_false]
      exact hR1 m id
    · intro j
      rw [hR2', hR2]
      constructor
      · rintro (⟨m, l₀, h1, h2, h3⟩ | ⟨rfl, h3⟩)
        · obtain ⟨l', a1, a2, a3, a4⟩ := forth m l₀ h1
          refine ⟨m, l', a1, a2.trans h2, ?_⟩
          rcases a4 with ⟨b1, b2⟩ | ⟨rfl, rfl, b3⟩
          · rw [b2]; exact h3
          · rw [b3]; exact hmono h3
        · obtain ⟨l', a1, a2, a3, a4⟩ := forth n l hl
          refine ⟨n, l', a1, a2.trans hlk, ?_⟩
          rcases a4 with ⟨b1, b2⟩ | ⟨b1, b2, b3⟩
          · exact absurd rfl b1
          · rw [b3]; exact h3
      · rintro ⟨m, l', h1, h2, h3⟩
        obtain ⟨l₀, a1, a2, a3, a4⟩ := back m l' h1
        rcases a4 with ⟨b1, b2⟩ | ⟨rfl, rfl, b3⟩
        · exact .inl ⟨m, l₀, a1, a2 ▸ h2, by rw [← b2]; exact h3⟩
        · rw [a2, hlk] at h2; cases h2
          exact .inr ⟨rfl, by rw [← b3]; exact h3⟩
    · rw [regEvents_append, hR3', hR3]; exact (List.append_nil _).symm

theorem Exec.inv {tr : List (Ev F o₁ o₂)} {w : St F o₁ o₂} (h : Exec csURL tr w) : Inv csURL tr w := by
  induction h with
  | nil => exact inv_nil
  | snoc _ hs ih => exact inv_step ih hs

end Verif.World
