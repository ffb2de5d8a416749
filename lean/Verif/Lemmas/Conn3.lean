import Verif.Lemmas.Conn2
set_option linter.unusedSimpArgs false
namespace Verif.Conn
variable {S : Sem} {side : Side}

/-! ### Senders and the two maps -/

/-- The sender has an entry in `sentMessages`. -/
def Phase.inSent : Phase S → Bool
  | .half | .registered | .waiting | .received _ | .done .timeout | .done .writeErr => true
  | _ => false

/-- The sender has an entry in `responsesOf`. -/
def Phase.inChan : Phase S → Bool
  | .registered | .waiting | .received _ | .done .timeout | .done .writeErr => true
  | _ => false

/-- The maps contain exactly the entries of the senders between registration and clean-up. -/
structure MInv (s : St S) : Prop where
  ids : ∀ (i j : Nat) (x y : Sender S), s.senders[i]? = some x → s.senders[j]? = some y → x.id = y.id → i = j
  sent : ∀ id a, s.sent id = some a ↔
    ∃ (i : Nat) (x : Sender S), s.senders[i]? = some x ∧ x.id = id ∧ a = S.action x.req ∧ x.phase.inSent = true
  chan : ∀ id i, s.chan id = some i ↔
    ∃ x, s.senders[i]? = some x ∧ x.id = id ∧ x.phase.inChan = true

theorem minv_init : MInv (init S) := by
  constructor <;> simp [init]

theorem getElem?_append_one {α : Type} (l : List α) (a : α) (i : Nat) (x : α) :
    (l ++ [a])[i]? = some x ↔ l[i]? = some x ∨ (i = l.length ∧ x = a) := by
  grind

/-- A step that changes the phase of one sender, and the maps accordingly. -/
theorem minv_phase {s : St S} (h : MInv s) {i : Nat} {x : Sender S} {p : Phase S}
    (hx : s.senders[i]? = some x) (m1 : String → Option String) (m2 : String → Option Nat)
    (hm1 : m1 = if x.phase.inSent = p.inSent then s.sent else
      upd s.sent x.id (if p.inSent then some (S.action x.req) else none))
    (hm2 : m2 = if x.phase.inChan = p.inChan then s.chan else
      upd s.chan x.id (if p.inChan then some i else none)) :
    MInv { s.setPhase i x p with sent := m1, chan := m2 } := by
  obtain ⟨h1, h2, h3⟩ := h
  have hlt : i < s.senders.length := (List.getElem?_eq_some_iff.1 hx).1
  have key : ∀ (j : Nat) (y : Sender S), (s.senders.set i { x with phase := p })[j]? = some y ↔
      (j = i ∧ y = { x with phase := p }) ∨ (j ≠ i ∧ s.senders[j]? = some y) := by
    intro j y; rw [List.getElem?_set]; grind
  refine ⟨?_, ?_, ?_⟩
  · intro j k y z hy hz hid
    simp only [St.setPhase, key] at hy hz
    grind
  · intro id a
    simp only [St.setPhase, key]
    subst hm1
    constructor
    · intro ha
      split at ha
      · obtain ⟨j, y, hy, hid, hact, hp⟩ := (h2 id a).1 ha
        by_cases hj : j = i
        · subst hj; rw [hx] at hy; cases hy
          exact ⟨j, _, .inl ⟨rfl, rfl⟩, hid, hact, by simp_all⟩
        · exact ⟨j, y, .inr ⟨hj, hy⟩, hid, hact, hp⟩
      · unfold upd at ha
        split at ha
        · split at ha
          · simp at ha; exact ⟨i, _, .inl ⟨rfl, rfl⟩, by simp_all, ha.symm, by simp_all⟩
          · simp at ha
        · obtain ⟨j, y, hy, hid, hact, hp⟩ := (h2 id a).1 ha
          exact ⟨j, y, .inr ⟨by rintro rfl; simp_all, hy⟩, hid, hact, hp⟩
    · rintro ⟨j, y, hj, hid, hact, hp⟩
      have hkey := h2 id a
      rcases hj with ⟨rfl, rfl⟩ | ⟨hji, hy⟩
      · simp at hid hact hp
        split
        · exact hkey.2 ⟨j, x, hx, hid, hact, by simp_all⟩
        · simp [upd, hid, hact]
      · have hne : id ≠ x.id := by
          rintro rfl; exact hji (h1 _ _ _ _ hy hx hid)
        have : s.sent id = some a := hkey.2 ⟨j, y, hy, hid, hact, hp⟩
        split
        · exact this
        · simp [upd, hne, this]
  · intro id k
    simp only [St.setPhase, key]
    subst hm2
    constructor
    · intro ha
      split at ha
      · obtain ⟨y, hy, hid, hp⟩ := (h3 id k).1 ha
        by_cases hj : k = i
        · subst hj; rw [hx] at hy; cases hy
          exact ⟨_, .inl ⟨rfl, rfl⟩, hid, by simp_all⟩
        · exact ⟨y, .inr ⟨hj, hy⟩, hid, hp⟩
      · unfold upd at ha
        split at ha
        · split at ha
          · simp at ha; exact ⟨_, .inl ⟨ha.symm, rfl⟩, by simp_all, by simp_all⟩
          · simp at ha
        · obtain ⟨y, hy, hid, hp⟩ := (h3 id k).1 ha
          exact ⟨y, .inr ⟨by rintro rfl; simp_all, hy⟩, hid, hp⟩
    · rintro ⟨y, hj, hid, hp⟩
      have hkey := h3 id k
      rcases hj with ⟨rfl, rfl⟩ | ⟨hji, hy⟩
      · simp at hid hp
        split
        · exact hkey.2 ⟨x, hx, hid, by simp_all⟩
        · simp [upd, hid]
      · have hne : id ≠ x.id := by
          rintro rfl; exact hji (h1 _ _ _ _ hy hx hid)
        have : s.chan id = some k := hkey.2 ⟨y, hy, hid, hp⟩
        split
        · exact this
        · simp [upd, hne, this]

theorem minv_same {s s' : St S} (h : MInv s) (h1 : s'.senders = s.senders) (h2 : s'.sent = s.sent)
    (h3 : s'.chan = s.chan) : MInv s' := by
  obtain ⟨a, b, c⟩ := h
  constructor
  · rw [h1]; exact a
  · rw [h1, h2]; exact b
  · rw [h1, h3]; exact c

theorem minv_send {s : St S} (h : MInv s) {x : Sender S} (hid : ∀ y ∈ s.senders, y.id ≠ x.id)
    (hs : x.phase.inSent = false) (hc : x.phase.inChan = false) :
    MInv { s with senders := s.senders ++ [x] } := by
  obtain ⟨a, b, c⟩ := h
  constructor
  · intro i j y z hy hz he
    simp only [getElem?_append_one] at hy hz
    have := fun (i : Nat) (y : Sender S) (h : s.senders[i]? = some y) => hid y (List.mem_of_getElem? h)
    grind
  · intro id a'
    simp only [getElem?_append_one]
    rw [b]; grind
  · intro id a'
    simp only [getElem?_append_one]
    rw [c]; grind

theorem minv_step {s s' : St S} {e : Ev S} (h : MInv s) (hs : Step side s e s') : MInv s' := by
  cases hs
  case send hc hid he => exact minv_send h (x := ⟨_, _, _, _⟩) hid rfl rfl
  case sendErr hc hid he => exact minv_send h (x := ⟨_, _, _, _⟩) hid rfl rfl
  case regSent i x hc hx hp =>
    exact minv_phase h hx _ _ (by simp [hp, Phase.inSent, St.setPhase]) (by simp [hp, Phase.inChan, St.setPhase])
  case regChan i x hc hx hp =>
    exact minv_phase h hx _ _ (by simp [hp, Phase.inSent, St.setPhase]) (by simp [hp, Phase.inChan, St.setPhase])
  case writeOk i x f hc hx hp _ _ =>
    exact minv_phase h hx _ _ (by simp [hp, Phase.inSent, St.setPhase]) (by simp [hp, Phase.inChan, St.setPhase])
  case writeFail i x hc hx hp =>
    exact minv_phase h hx _ _ (by simp [hp, Phase.inSent, St.setPhase]) (by simp [hp, Phase.inChan, St.setPhase])
  case timeout i x hc hx hp =>
    exact minv_phase h hx _ _ (by simp [hp, Phase.inSent, St.setPhase]) (by simp [hp, Phase.inChan, St.setPhase])
  case deliver k i a x hc hk hx hp =>
    exact minv_phase (s := s.setReader k (.offer .nil)) (minv_same h rfl rfl rfl) hx _ _
      (by simp [hp, Phase.inSent, St.setPhase]) (by simp [hp, Phase.inChan, St.setPhase])
  case finish i a x hc hx hp =>
    exact minv_phase h hx _ _ (by simp [hp, Phase.inSent, St.setPhase]) (by simp [hp, Phase.inChan, St.setPhase])
  all_goals exact minv_same h rfl rfl rfl

theorem Exec.minv {s : St S} {tr : List (Ev S)} (hr : Exec side tr s) : MInv s := by
  induction hr with
  | nil => exact minv_init
  | snoc _ hs ih => exact minv_step ih hs

/-! ### Where answers come from -/

theorem sub_snoc {α : Type} {l t : List α} {e : α} (h : l.Sublist t) : l.Sublist (t ++ [e]) :=
  h.trans (List.sublist_append_left t [e])

theorem sub_snoc' {α : Type} {l t : List α} {e : α} (h : l.Sublist t) :
    (l ++ [e]).Sublist (t ++ [e]) :=
  List.Sublist.append h (List.Sublist.refl _)

/-- Senders are those of the trace. -/
theorem Exec.sends {s : St S} {tr : List (Ev S)} (hr : Exec side tr s) :
    ∀ (i : Nat) (x : Sender S), s.senders[i]? = some x → [Ev.send i x.id x.req].Sublist tr ∧
      (x.phase ≠ .fresh → x.phase ≠ .done .encodeErr →
        [Ev.send i x.id x.req, .regSent i].Sublist tr) := by
  induction hr with
  | nil => simp [init]
  | @snoc tr e s s' hr hs ih =>
    intro i y hy
    cases hs
    case send id r f hc hid he =>
      simp only [getElem?_append_one] at hy
      rcases hy with hy | ⟨rfl, rfl⟩
      · exact ⟨sub_snoc (ih i y hy).1, fun a b => sub_snoc ((ih i y hy).2 a b)⟩
      · simp
    case sendErr id r f hc hid he =>
      simp only [getElem?_append_one] at hy
      rcases hy with hy | ⟨rfl, rfl⟩
      · exact ⟨sub_snoc (ih i y hy).1, fun a b => sub_snoc ((ih i y hy).2 a b)⟩
      · simp
    case regSent j x hc hx hp =>
      simp only [St.setPhase, List.getElem?_set] at hy
      by_cases hji : j = i
      · subst hji
        have : y = { x with phase := .half } := by grind
        subst this
        exact ⟨sub_snoc (ih j x hx).1, fun _ _ => sub_snoc' (l := [Ev.send j x.id x.req]) (ih j x hx).1⟩
      · simp [hji] at hy
        exact ⟨sub_snoc (ih i y hy).1, fun a b => sub_snoc ((ih i y hy).2 a b)⟩
    case regChan j x hc hx hp =>
      simp only [St.setPhase, List.getElem?_set] at hy
      by_cases hji : j = i
      · have := ih j x hx
        have : y = { x with phase := .registered } := by grind
        subst this; subst hji
        exact ⟨sub_snoc (ih j x hx).1, fun _ _ => sub_snoc ((ih j x hx).2 (by simp [hp]) (by simp [hp]))⟩
      · simp [hji] at hy
        exact ⟨sub_snoc (ih i y hy).1, fun a b => sub_snoc ((ih i y hy).2 a b)⟩
    case writeOk j x f hc hx hp _ _ =>
      simp only [St.setPhase, List.getElem?_set] at hy
      by_cases hji : j = i
      · have : y = { x with phase := .waiting } := by grind
        subst this; subst hji
        exact ⟨sub_snoc (ih j x hx).1, fun _ _ => sub_snoc ((ih j x hx).2 (by simp [hp]) (by simp [hp]))⟩
      · simp [hji] at hy
        exact ⟨sub_snoc (ih i y hy).1, fun a b => sub_snoc ((ih i y hy).2 a b)⟩
    case writeFail j x hc hx hp =>
      simp only [St.setPhase, List.getElem?_set] at hy
      by_cases hji : j = i
      · have : y = { x with phase := .done .writeErr } := by grind
        subst this; subst hji
        exact ⟨sub_snoc (ih j x hx).1, fun _ _ => sub_snoc ((ih j x hx).2 (by simp [hp]) (by simp [hp]))⟩
      · simp [hji] at hy
        exact ⟨sub_snoc (ih i y hy).1, fun a b => sub_snoc ((ih i y hy).2 a b)⟩
    case timeout j x hc hx hp =>
      simp only [St.setPhase, List.getElem?_set] at hy
      by_cases hji : j = i
      · have : y = { x with phase := .done .timeout } := by grind
        subst this; subst hji
        exact ⟨sub_snoc (ih j x hx).1, fun _ _ => sub_snoc ((ih j x hx).2 (by simp [hp]) (by simp [hp]))⟩
      · simp [hji] at hy
        exact ⟨sub_snoc (ih i y hy).1, fun a b => sub_snoc ((ih i y hy).2 a b)⟩
    case deliver k j a x hc hk hx hp =>
      simp only [St.setPhase, St.setReader, List.getElem?_set] at hy
      by_cases hji : j = i
      · have : y = { x with phase := .received a } := by grind
        subst this; subst hji
        exact ⟨sub_snoc (ih j x hx).1, fun _ _ => sub_snoc ((ih j x hx).2 (by simp [hp]) (by simp [hp]))⟩
      · simp [hji] at hy
        exact ⟨sub_snoc (ih i y hy).1, fun a b => sub_snoc ((ih i y hy).2 a b)⟩
    case finish j a x hc hx hp =>
      simp only [St.setPhase, List.getElem?_set] at hy
      by_cases hji : j = i
      · have : y = { x with phase := .done (.answered a) } := by grind
        subst this; subst hji
        exact ⟨sub_snoc (ih j x hx).1, fun _ _ => sub_snoc ((ih j x hx).2 (by simp [hp]) (by simp [hp]))⟩
      · simp [hji] at hy
        exact ⟨sub_snoc (ih i y hy).1, fun a b => sub_snoc ((ih i y hy).2 a b)⟩
    all_goals exact ⟨sub_snoc (ih i y hy).1, fun a b => sub_snoc ((ih i y hy).2 a b)⟩

end Verif.Conn
