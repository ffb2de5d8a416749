import Verif.Spec.Message
import Verif.Lemmas.Json2
set_option linter.unusedSimpArgs false
/-!
# The encoder programs produce the specified JSON object

`analyse` reads a MarshalJSON program symbolically and returns the members it writes; its soundness
is proved once, and that it returns the specified members is checked for each message type.
-/
namespace Verif
namespace Encode
open Json Codec

/-! ### Adding a last member -/

theorem isWs_nil : IsWs [] := by simp [IsWs]

theorem members_snoc {ms : List (Text × JVal)} {u : Text} (h : Members ms u) {k kt t : Text} {v : JVal}
    (hk : Str k kt) (hv : Value v t) : Members (ms ++ [(k, v)]) (u ++ ',' :: (kt ++ (':' :: ' ' :: t))) := by
  have base : Members [(k, v)] (kt ++ (':' :: ' ' :: t)) := by
    have := Members.one (w := []) (w₁ := []) (w₂ := [' ']) (w' := []) isWs_nil hk isWs_nil
      (by simp [IsWs, wsChar]) hv isWs_nil
    simpa using this
  match h with
  | .one h1 h2 h3 h4 h5 h6 =>
    have := Members.cons h1 h2 h3 h4 h5 h6 base
    simpa using this
  | .cons h1 h2 h3 h4 h5 h6 h7 =>
    have := Members.cons h1 h2 h3 h4 h5 h6 (members_snoc h7 hk hv)
    simpa using this

theorem members_one {k kt t : Text} {v : JVal} (hk : Str k kt) (hv : Value v t) :
    Members [(k, v)] (kt ++ (':' :: ' ' :: t)) := by
  have := Members.one (w := []) (w₁ := []) (w₂ := [' ']) (w' := []) isWs_nil hk isWs_nil
    (by simp [IsWs, wsChar]) hv isWs_nil
  simpa using this

theorem members_one' {k kt t : Text} {v : JVal} (hk : Str k kt) (hv : Value v t) :
    Members [(k, v)] (kt ++ (':' :: t)) := by
  have := Members.one (w := []) (w₁ := []) (w₂ := []) (w' := []) isWs_nil hk isWs_nil isWs_nil hv isWs_nil
  simpa using this

theorem members_snoc' {ms : List (Text × JVal)} {u : Text} (h : Members ms u) {k kt t : Text} {v : JVal}
    (hk : Str k kt) (hv : Value v t) : Members (ms ++ [(k, v)]) (u ++ ',' :: (kt ++ (':' :: t))) := by
  match h with
  | .one h1 h2 h3 h4 h5 h6 =>
    have := Members.cons h1 h2 h3 h4 h5 h6 (members_one' hk hv)
    simpa using this
  | .cons h1 h2 h3 h4 h5 h6 h7 =>
    have := Members.cons h1 h2 h3 h4 h5 h6 (members_snoc' h7 hk hv)
    simpa using this

theorem elems_snoc {vs : List JVal} {u : Text} (h : Elems vs u) {t : Text} {v : JVal}
    (hv : Value v t) : Elems (vs ++ [v]) (u ++ ',' :: t) := by
  match h with
  | .one h1 h2 h3 =>
    have := Elems.cons h1 h2 h3 (Elems.one (w := []) (w' := []) isWs_nil hv isWs_nil)
    simpa using this
  | .cons h1 h2 h3 h4 =>
    have := Elems.cons h1 h2 h3 (elems_snoc h4 hv)
    simpa using this

/-! ### Symbolic reading of programs -/

/-- Where in the object the buffer ends. -/
inductive AS where
  | init | opened | ready | keyed (k : Text) | after | synced | closed
  deriving DecidableEq

/-- A property name literal `"name": `. -/
def keyOf (t : Text) : Option Text :=
  match t with
  | '"' :: r =>
    let k := r.takeWhile (· ≠ '"')
    if t = '"' :: (k ++ ['"', ':', ' ']) ∧ k.all (fun c => c ≠ '\\' && decide (0x20 ≤ c.toNat)) then some k else none
  | _ => none

/-- A time or a pointer to one. -/
def timeish : Ty → Bool
  | .time => true
  | .ptr .time => true
  | _ => false

/-- The slot a field statement writes. -/
def fieldSlot (ts : List Ty) (k : Text) (i : Nat) (pend : Option (Nat × Text)) : Option Slot :=
  match ts[i]? with
  | none => none
  | some t =>
    if timeish t then none
    else match pend with
      | none => some ⟨k, i, .always⟩
      | some (j, msg) => if j = i ∧ msg = requireMsg k then some ⟨k, i, .require⟩ else none

/-- The slot a time statement writes. -/
def timeSlot (ts : List Ty) (k : Text) (i : Nat) : Option Slot :=
  match ts[i]? with
  | some .time => some ⟨k, i, .always⟩
  | some (.ptr .time) => some ⟨k, i, .deref⟩
  | _ => none

/-- The state after a literal. -/
def litNext (st : AS) (t : Text) : Option AS :=
  match st with
  | .init => if t = ['{'] then some .opened else none
  | .opened => if t = ['}'] then some .closed else (keyOf t).map .keyed
  | .ready => (keyOf t).map .keyed
  | .after => if t = [','] then some .ready else if t = ['}'] then some .closed else none
  | .synced => if t = ['}'] then some .closed else none
  | _ => none

/-- Optional member `if m.F != nil { ... }`: new state and slot. -/
def optSlot (ts : List Ty) (st : AS) (i : Nat) (body : List Simple) : Option (AS × Slot) :=
  match st, body with
  | .after, [.lit [','], .lit k, .timeField j] =>
    match keyOf k, ts[i]? with
    | some k, some (.ptr .time) => if i = j then some (.after, ⟨k, i, .omitNil⟩) else none
    | _, _ => none
  | .opened, [.lit k, .timeField j, .lit [',']] =>
    match keyOf k, ts[i]? with
    | some k, some (.ptr .time) => if i = j then some (.ready, ⟨k, i, .omitNil⟩) else none
    | _, _ => none
  | _, _ => none

/-- The members a program writes, if the program is understood. -/
def analyse (ts : List Ty) : AS → Option (Nat × Text) → List Stmt → Option (List Slot)
  | st, pend, [] => if st = .closed ∧ pend = none then some [] else none
  | st, pend, .simple .commaIf :: p =>
    if st = .opened ∨ st = .synced then analyse ts .ready pend p else none
  | st, pend, .simple (.lit t) :: p =>
    match litNext st t with
    | some st' => analyse ts st' pend p
    | none => none
  | .keyed k, pend, .simple (.field i) :: p =>
    match fieldSlot ts k i pend with
    | some s => (analyse ts .after none p).map (s :: ·)
    | none => none
  | .keyed k, none, .simple (.timeField i) :: p =>
    match timeSlot ts k i with
    | some s => (analyse ts .after none p).map (s :: ·)
    | none => none
  | .after, pend, .simple .setComma :: p => analyse ts .synced pend p
  | st, none, .ifNotNil i body :: p =>
    match optSlot ts st i body with
    | some (st', s) => (analyse ts st' none p).map (s :: ·)
    | none => none
  | st, none, .requireNonNil i msg :: p => analyse ts st (some (i, msg)) p
  | _, _, _ => none

theorem mem_takeWhile {α : Type} {p : α → Bool} {l : List α} {a : α} (h : a ∈ l.takeWhile p) : p a = true := by
  induction l with
  | nil => simp at h
  | cons b l ih =>
    simp only [List.takeWhile] at h
    split at h
    · rcases List.mem_cons.1 h with rfl | h
      · assumption
      · exact ih h
    · simp at h

theorem keyOf_ok {t k : Text} (h : keyOf t = some k) : ∃ kt, Str k kt ∧ t = kt ++ [':', ' '] := by
  unfold keyOf at h
  split at h
  · rename_i r
    simp only [Option.ite_none_right_eq_some, Option.some.injEq] at h
    obtain ⟨⟨h1, h2⟩, h3⟩ := h
    rw [h3] at h1 h2
    refine ⟨'"' :: (k ++ ['"']), ⟨k.map .char, k, ?_, ?_, rfl⟩, ?_⟩
    · have hq : ∀ c ∈ k, c ≠ '"' := by
        intro c hc hcq
        have := mem_takeWhile (h3 ▸ hc)
        simp [hcq] at this
      have h2' : ∀ c ∈ k, c ≠ '\\' ∧ 0x20 ≤ c.toNat := by simpa using h2
      clear h1 h2 h3
      induction k with
      | nil => exact .nil
      | cons c k ih =>
        exact .plain (hq c (by simp)) (h2' c (by simp)).1 (h2' c (by simp)).2
          (ih (fun c hc => hq c (by simp [hc])) (fun c hc => h2' c (by simp [hc])))
    · rw [joinItems_chars]
    · simpa using h1
  · simp at h

/-- The text of an encoder against the specified value. -/
def Rel : GoRes Text → GoRes JVal → Prop
  | .ok t, .ok j => Value j t
  | .err m, .err m' => m = m'
  | .panic m, .panic m' => m = m'
  | _, _ => False

/-- Before the next property name. -/
def Pre (ms : List (Text × JVal)) (out : Text) : Prop :=
  (ms = [] ∧ out = ['{']) ∨ ∃ u, Members ms u ∧ out = '{' :: (u ++ [','])

/-- Meaning of a state: the members written so far. -/
def Inv : AS → List (Text × JVal) → Buf → Prop
  | .init, ms, b => ms = [] ∧ b.out = []  ∧ b.comma = false
  | .opened, ms, b => ms = [] ∧ b.out = ['{'] ∧ b.comma = false
  | .ready, ms, b => Pre ms b.out
  | .keyed k, ms, b => ∃ p kt, Pre ms p ∧ Str k kt ∧ b.out = p ++ (kt ++ [':', ' '])
  | .after, ms, b => ∃ u, Members ms u ∧ b.out = '{' :: u
  | .synced, ms, b => (ms = [] ∧ b.out = ['{'] ∧ b.comma = false) ∨
      (b.comma = true ∧ ∃ u, Members ms u ∧ b.out = '{' :: u)
  | .closed, ms, b => Value (.obj ms) b.out

/-- The end of a program against the specified members. -/
def RelM (ms : List (Text × JVal)) : GoRes Buf → GoRes (List (Text × JVal)) → Prop
  | .ok b, .ok ms' => Value (.obj (ms ++ ms')) b.out
  | .err m, .err m' => m = m'
  | .panic m, .panic m' => m = m'
  | _, _ => False

theorem inv_value {k : Text} {ms : List (Text × JVal)} {b : Buf} (h : Inv (.keyed k) ms b) {t : Text} {j : JVal}
    (hv : Value j t) (c : Bool) : Inv .after (ms ++ [(k, j)]) ⟨b.out ++ t, c⟩ := by
  obtain ⟨p, kt, hp, hk, ho⟩ := h
  rcases hp with ⟨h1, h2⟩ | ⟨u, h1, h2⟩
  · refine ⟨kt ++ (':' :: ' ' :: t), ?_, ?_⟩
    · rw [h1]; simpa using members_one hk hv
    · simp [ho, h2]
  · exact ⟨_, members_snoc h1 hk hv, by simp [ho, h2]⟩

theorem litNext_ok {st st' : AS} {t : Text} (h : litNext st t = some st') {ms : List (Text × JVal)} {b : Buf}
    (hi : Inv st ms b) : Inv st' ms ⟨b.out ++ t, b.comma⟩ := by
  have keyed : ∀ {p : Text}, Pre ms p → p = b.out → (keyOf t).map AS.keyed = some st' → Inv st' ms ⟨b.out ++ t, b.comma⟩ := by
    intro p hp hpo hk
    simp only [Option.map_eq_some_iff] at hk
    obtain ⟨k, hk, rfl⟩ := hk
    obtain ⟨kt, h1, h2⟩ := keyOf_ok hk
    exact ⟨p, kt, hp, h1, by simp [h2, hpo]⟩
  cases st with
  | init =>
    simp only [litNext, Option.ite_none_right_eq_some, Option.some.injEq] at h
    obtain ⟨rfl, rfl⟩ := h
    obtain ⟨h1, h2, h3⟩ := hi
    exact ⟨h1, by simp [h2], h3⟩
  | opened =>
    obtain ⟨h1, h2, h3⟩ := hi
    simp only [litNext] at h
    split at h
    · rename_i ht
      cases h
      simp only [Inv, h1, h2, ht]
      exact .objNil isWs_nil
    · exact keyed (Or.inl ⟨h1, rfl⟩) h2.symm h
  | ready => exact keyed hi rfl h
  | keyed k => simp [litNext] at h
  | after =>
    obtain ⟨u, h1, h2⟩ := hi
    simp only [litNext] at h
    split at h
    · rename_i ht
      cases h
      exact Or.inr ⟨u, h1, by simp [h2, ht]⟩
    · split at h
      · rename_i ht
        cases h
        simp only [Inv, h2, ht]
        exact .obj h1
      · simp at h
  | synced =>
    simp only [litNext, Option.ite_none_right_eq_some, Option.some.injEq] at h
    obtain ⟨rfl, rfl⟩ := h
    rcases hi with ⟨h1, h2, _⟩ | ⟨_, u, h1, h2⟩
    · simp only [Inv, h1, h2]
      exact .objNil isWs_nil
    · simp only [Inv, h2]
      exact .obj h1
  | closed => simp [litNext] at h

/-- What is known about the fields while a program runs. -/
structure FieldsOk (F : FloatFmt) (ts : List Ty) (vs : List Val) : Prop where
  typed : ∀ (i : Nat) t, ts[i]? = some t → ∃ v, vs[i]? = some v ∧ HasTy t v
  text : ∀ (i : Nat) t v, ts[i]? = some t → vs[i]? = some v → (marshalAll F ts vs)[i]? = some (marshal F t v)
  wire : ∀ (i : Nat) t v, ts[i]? = some t → vs[i]? = some v → (wireAll F ts vs)[i]? = some (wire F t v)
  rel : ∀ (i : Nat) t v, ts[i]? = some t → vs[i]? = some v → timeish t = false → Rel (marshal F t v) (Verif.wire F t v)

theorem isNil_eq (vs : List Val) (i : Nat) : isNil vs i = (vs.getD i (.struct [])).isNil := by
  unfold isNil Val.isNil
  cases h : vs[i]? with
  | none => simp [List.getD, h]
  | some v => cases v <;> simp [List.getD, h]

theorem getD_some {α : Type} {l : List α} {i : Nat} {a d : α} (h : l[i]? = some a) : l.getD i d = a := by
  simp [List.getD, h]

/-- One step of a program against the member it should write. -/
def RelS (f : Buf → List (Text × JVal) → Prop) : GoRes Buf → GoRes (List (Text × JVal)) → Prop
  | .ok b, .ok m => f b m
  | .err a, .err b => a = b
  | .panic a, .panic b => a = b
  | _, _ => False

theorem relM_bind {ms : List (Text × JVal)} {x : GoRes Buf} {s : Slot} {ss : List Slot} {vs : List Val} {ws : List (GoRes JVal)}
    {f : Buf → GoRes Buf} (m : GoRes (List (Text × JVal)))
    (hm : slotMember s (vs.getD s.idx .nil) (ws.getD s.idx (.panic "no such field")) = m)
    (hx : RelS (fun b m => RelM (ms ++ m) (f b) (slotMembers vs ws ss)) x m) :
    RelM ms (x.bind f) (slotMembers vs ws (s :: ss)) := by
  unfold slotMembers
  rw [hm]
  cases x <;> cases m <;> simp only [GoRes.bind, RelS] at hx ⊢ <;> try exact hx
  rename_i b m
  cases h : f b <;> cases h' : slotMembers vs ws ss <;> rw [h, h'] at hx <;> simp_all [RelM]

theorem fieldSlot_pend {ts : List Ty} {k : Text} {i j : Nat} {msg : Text} {s : Slot}
    (h : fieldSlot ts k i (some (j, msg)) = some s) :
    j = i ∧ s = ⟨k, i, .require⟩ ∧ msg = requireMsg k ∧ ∃ t, ts[i]? = some t ∧ timeish t = false := by
  unfold fieldSlot at h
  split at h
  · simp at h
  · split at h
    · simp at h
    · simp only [Option.ite_none_right_eq_some, Option.some.injEq] at h
      obtain ⟨⟨h1, h2⟩, h3⟩ := h
      exact ⟨h1, h3.symm, h2, _, by assumption, by simp_all⟩

theorem fieldSlot_none {ts : List Ty} {k : Text} {i : Nat} {s : Slot}
    (h : fieldSlot ts k i none = some s) :
    s = ⟨k, i, .always⟩ ∧ ∃ t, ts[i]? = some t ∧ timeish t = false := by
  unfold fieldSlot at h
  split at h
  · simp at h
  · split at h
    · simp at h
    · simp only [Option.some.injEq] at h
      exact ⟨h.symm, _, by assumption, by simp_all⟩

theorem analyse_pend {ts : List Ty} {st : AS} {i : Nat} {msg : Text} {p : List Stmt} {ss : List Slot}
    (h : analyse ts st (some (i, msg)) p = some ss) :
    ∃ k rest, ss = ⟨k, i, .require⟩ :: rest ∧ msg = requireMsg k ∧ ∃ t, ts[i]? = some t := by
  generalize hp : some (i, msg) = pend at h
  fun_induction analyse ts st pend p generalizing ss <;> simp_all
  · obtain ⟨a, h1, rfl⟩ := h
    rename_i hf _
    subst hp
    obtain ⟨rfl, h2, h3, t, h4, _⟩ := fieldSlot_pend hf
    exact ⟨_, ⟨a, by rw [h2]⟩, h3, t, h4⟩

theorem inv_comma {st : AS} (h : st = .opened ∨ st = .synced) {ms : List (Text × JVal)} {b : Buf} (hi : Inv st ms b) :
    Inv .ready ms (if b.comma then { b with out := b.out ++ [','] } else b) := by
  rcases h with rfl | rfl
  · obtain ⟨h1, h2, h3⟩ := hi
    simp [Inv, h3, Pre, h1, h2]
  · rcases hi with ⟨h1, h2, h3⟩ | ⟨h1, u, h2, h3⟩
    · simp [Inv, h3, Pre, h1, h2]
    · simp only [Inv, h1, if_true, Pre]
      exact Or.inr ⟨u, h2, by simp [h3]⟩

theorem timeSlot_ok {ts : List Ty} {k : Text} {i : Nat} {s : Slot} (h : timeSlot ts k i = some s) :
    (s = ⟨k, i, .always⟩ ∧ ts[i]? = some .time) ∨ (s = ⟨k, i, .deref⟩ ∧ ts[i]? = some (.ptr .time)) := by
  unfold timeSlot at h
  split at h <;> simp_all

theorem ptrTime_cases {v : Val} (h : HasTy (.ptr .time) v) : v = .nil ∨ ∃ t, v = .ptr (.time t) := by
  cases v with
  | nil => exact Or.inl rfl
  | ptr v => cases v <;> simp_all [HasTy]
  | _ => simp [HasTy] at h

theorem time_cases {v : Val} (h : HasTy .time v) : ∃ t, v = .time t := by
  cases v <;> simp_all [HasTy]

theorem optSlot_ok {ts : List Ty} {st st' : AS} {i : Nat} {body : List Simple} {s : Slot}
    (h : optSlot ts st i body = some (st', s)) :
    ts[i]? = some (.ptr .time) ∧ ∃ k, s = ⟨k, i, .omitNil⟩ ∧
    (∀ ms b, Inv st ms b → Inv st' ms b) ∧
    ∀ texts vs t ms b, Inv st ms b → vs[i]? = some (.ptr (.time t)) →
      ∃ b', runSimples texts vs body b = .ok b' ∧ Inv st' (ms ++ [(k, .str t.format)]) b' := by
  unfold optSlot at h
  split at h
  · split at h
    · rename_i kl _ _ _ k hk ht
      simp only [Option.ite_none_right_eq_some, Option.some.injEq, Prod.mk.injEq] at h
      obtain ⟨rfl, rfl, rfl⟩ := h
      refine ⟨ht, k, rfl, fun _ _ h => h, ?_⟩
      intro texts vs t ms b hi hv
      obtain ⟨kt, h1, rfl⟩ := keyOf_ok hk
      obtain ⟨u, h2, h3⟩ := hi
      simp only [runSimples, runSimple, GoRes.bind, hv]
      refine ⟨_, rfl, _, members_snoc h2 h1 (value_quote t.format), ?_⟩
      simp [h3]
    · simp at h
  · split at h
    · rename_i kl _ _ _ k hk ht
      simp only [Option.ite_none_right_eq_some, Option.some.injEq, Prod.mk.injEq] at h
      obtain ⟨rfl, rfl, rfl⟩ := h
      refine ⟨ht, k, rfl, ?_, ?_⟩
      · intro ms b ⟨h1, h2, h3⟩
        exact Or.inl ⟨h1, h2⟩
      intro texts vs t ms b hi hv
      obtain ⟨kt, h1, rfl⟩ := keyOf_ok hk
      obtain ⟨h2, h3, h4⟩ := hi
      simp only [runSimples, runSimple, GoRes.bind, hv]
      refine ⟨_, rfl, Or.inr ⟨kt ++ (':' :: ' ' :: quote t.format), ?_, ?_⟩⟩
      · rw [h2]; simpa using members_one h1 (value_quote t.format)
      · simp [h3]
    · simp at h
  · simp at h

theorem analyse_ok {F : FloatFmt} {ts : List Ty} {vs : List Val} (hf : FieldsOk F ts vs)
    {st : AS} {pend : Option (Nat × Text)} {p : List Stmt} {ss : List Slot}
    (h : analyse ts st pend p = some ss) {ms : List (Text × JVal)} {b : Buf} (hi : Inv st ms b)
    (hp : ∀ i msg, pend = some (i, msg) → (vs.getD i .nil).isNil = false) :
    RelM ms (runStmts (marshalAll F ts vs) vs p b) (slotMembers vs (wireAll F ts vs) ss) := by
  fun_induction analyse ts st pend p generalizing ss ms b
  case case1 st pend hc =>
    simp only [Option.some.injEq] at h
    subst h
    obtain ⟨rfl, rfl⟩ := hc
    simpa [runStmts, slotMembers, RelM, Inv] using hi
  case case3 hc ih => exact ih h (inv_comma hc hi) hp
  case case5 hl ih => exact ih h (litNext_ok hl hi) hp
  case case7 k pend i p s hs ih =>
    simp only [Option.map_eq_some_iff] at h
    obtain ⟨ss, h, rfl⟩ := h
    obtain ⟨t, ht, htime, hidx, hmode⟩ : ∃ t, ts[i]? = some t ∧ timeish t = false ∧ (s.idx = i ∧ s.key = k) ∧
        ∀ v, vs[i]? = some v → slotMember s v (wire F t v) = (wire F t v).bind fun j => .ok [(k, j)] := by
      cases pend with
      | none =>
        obtain ⟨rfl, t, h1, h2⟩ := fieldSlot_none hs
        exact ⟨t, h1, h2, ⟨rfl, rfl⟩, fun v _ => rfl⟩
      | some q =>
        obtain ⟨j, msg⟩ := q
        obtain ⟨rfl, rfl, _, t, h1, h2⟩ := fieldSlot_pend hs
        refine ⟨t, h1, h2, ⟨rfl, rfl⟩, fun v hv => ?_⟩
        have := hp j msg rfl
        rw [getD_some hv] at this
        simp [slotMember, this]
    obtain ⟨v, hv, hty⟩ := hf.typed i t ht
    have hrel := hf.rel i t v ht hv htime
    simp only [runStmts, runStmt, runSimple]
    rw [getD_some (hf.text i t v ht hv)]
    refine relM_bind ((wire F t v).bind fun j => .ok [(k, j)])
      (by rw [hidx.1, getD_some hv, getD_some (hf.wire i t v ht hv)]; exact hmode v hv) ?_
    cases hm : marshal F t v <;> cases hw : wire F t v <;> rw [hm, hw] at hrel <;> simp only [Rel, GoRes.bind, RelS] at hrel ⊢ <;> try exact hrel
    exact ih h (inv_value hi hrel _) (by simp)
  case case9 k i p s hs ih =>
    simp only [Option.map_eq_some_iff] at h
    obtain ⟨ss, h, rfl⟩ := h
    simp only [runStmts, runStmt, runSimple]
    rcases timeSlot_ok hs with ⟨rfl, ht⟩ | ⟨rfl, ht⟩
    · obtain ⟨v, hv, hty⟩ := hf.typed i _ ht
      obtain ⟨t, rfl⟩ := time_cases hty
      refine relM_bind (.ok [(k, .str t.format)]) ?_ ?_
      · rw [getD_some hv, getD_some (hf.wire i _ _ ht hv)]
        simp [slotMember, wire]
      · simp only [hv]
        exact ih h (inv_value hi (value_quote t.format) _) (by simp)
    · obtain ⟨v, hv, hty⟩ := hf.typed i _ ht
      rcases ptrTime_cases hty with rfl | ⟨t, rfl⟩
      · refine relM_bind (.panic "invalid memory address or nil pointer dereference") ?_ ?_
        · rw [getD_some hv]
          simp [slotMember, Val.isNil]
        · simp only [hv, RelS]
      · refine relM_bind (.ok [(k, .str t.format)]) ?_ ?_
        · rw [getD_some hv, getD_some (hf.wire i _ _ ht hv)]
          simp [slotMember, wire, Val.isNil]
        · simp only [hv]
          exact ih h (inv_value hi (value_quote t.format) _) (by simp)
  case case11 ih =>
    obtain ⟨u, h1, h2⟩ := hi
    exact ih h (Or.inr ⟨rfl, u, h1, h2⟩) hp
  case case12 st i body p st' s hs ih =>
    simp only [Option.map_eq_some_iff] at h
    obtain ⟨ss, h, rfl⟩ := h
    obtain ⟨ht, k, rfl, h1, h2⟩ := optSlot_ok hs
    obtain ⟨v, hv, hty⟩ := hf.typed i _ ht
    simp only [runStmts, runStmt, isNil, hv]
    rcases ptrTime_cases hty with rfl | ⟨t, rfl⟩
    · refine relM_bind (.ok []) ?_ ?_
      · rw [getD_some hv]
        simp [slotMember, Val.isNil]
      · simpa [RelS] using ih h (h1 _ _ hi) (by simp)
    · obtain ⟨b', h3, h4⟩ := h2 (marshalAll F ts vs) vs t ms b hi hv
      refine relM_bind (.ok [(k, .str t.format)]) ?_ ?_
      · rw [getD_some hv, getD_some (hf.wire i _ _ ht hv)]
        simp [slotMember, wire, Val.isNil]
      · simpa [h3, RelS] using ih h h4 (by simp)
  case case14 st i msg p ih =>
    obtain ⟨k, rest, rfl, rfl, t, ht⟩ := analyse_pend h
    obtain ⟨v, hv, hty⟩ := hf.typed i _ ht
    simp only [runStmts, runStmt]
    by_cases hn : v = .nil
    · subst hn
      simp [isNil, hv, slotMembers, slotMember, getD_some hv, Val.isNil, RelM]
    · have h1 : isNil vs i = false := by
        unfold isNil; split <;> simp_all
      simp only [h1]
      refine ih h hi ?_
      intro j msg' hj
      simp only [Option.some.injEq, Prod.mk.injEq] at hj
      rw [← hj.1, getD_some hv]
      cases v <;> simp_all [Val.isNil]
  all_goals simp at h

/-! ### The other encoders -/

theorem isEmpty_eq (v : Val) : Codec.isEmpty v = v.isEmpty := by
  cases v <;> rfl

/-- State of the reflective encoder. -/
def InvR (ms : List (Text × JVal)) (next : Char) (out : Text) : Prop :=
  (ms = [] ∧ next = '{' ∧ out = []) ∨ (next = ',' ∧ ∃ u, Members ms u ∧ out = '{' :: u)

/-- Text against members. -/
def RelT (ms : List (Text × JVal)) : GoRes Text → GoRes (List (Text × JVal)) → Prop
  | .ok t, .ok ms' => Value (.obj (ms ++ ms')) t
  | .err m, .err m' => m = m'
  | .panic m, .panic m' => m = m'
  | _, _ => False

theorem invR_add {ms : List (Text × JVal)} {next : Char} {out : Text} (h : InvR ms next out) {k t : Text} {j : JVal}
    (hv : Value j t) : InvR (ms ++ [(k, j)]) ',' (out ++ next :: (quote k ++ ':' :: t)) := by
  right
  refine ⟨rfl, ?_⟩
  rcases h with ⟨rfl, rfl, rfl⟩ | ⟨rfl, u, h1, rfl⟩
  · exact ⟨_, by simpa using members_one' (str_quote k) hv, rfl⟩
  · exact ⟨_, members_snoc' h1 (str_quote k) hv, by simp⟩

theorem reflect_ok {F : FloatFmt} {ts : List Ty} {vs : List Val} (hf : FieldsOk F ts vs)
    {fs : List (Text × Nat × Bool)} (ht : ∀ f ∈ fs, ∃ t, ts[f.2.1]? = some t ∧ timeish t = false)
    {ms : List (Text × JVal)} {next : Char} {out : Text} (hi : InvR ms next out) :
    RelT ms (runReflect (marshalAll F ts vs) vs fs next out)
      (slotMembers vs (wireAll F ts vs) (fs.map fun f => ⟨f.1, f.2.1, if f.2.2 then .omitEmpty else .always⟩)) := by
  induction fs generalizing ms next out with
  | nil =>
    simp only [runReflect, List.map, slotMembers, RelT]
    rcases hi with ⟨rfl, rfl, rfl⟩ | ⟨rfl, u, h1, rfl⟩
    · exact .objNil isWs_nil
    · simpa using Value.obj h1
  | cons f fs ih =>
    obtain ⟨k, i, o⟩ := f
    obtain ⟨t, h1, h2⟩ := ht _ (List.mem_cons_self ..)
    obtain ⟨v, hv, hty⟩ := hf.typed i t h1
    have ih := fun {ms next out} => ih (fun f hf => ht f (List.mem_cons_of_mem _ hf)) (ms := ms) (next := next) (out := out)
    have hrel := hf.rel i t v h1 hv h2
    simp only [runReflect, List.map, slotMembers]
    rw [getD_some hv, getD_some (hf.text i t v h1 hv), getD_some (hf.wire i t v h1 hv), isEmpty_eq]
    by_cases hc : o = true ∧ v.isEmpty = true
    · have := ih hi
      simp only [hc, Bool.and_self, if_true, slotMember, GoRes.bind, List.nil_append]
      revert this
      generalize slotMembers vs _ _ = x
      cases x <;> exact id
    · have h3 : (o && v.isEmpty) = false := by cases o <;> simp_all
      have h4 : slotMember ⟨k, i, if o = true then .omitEmpty else .always⟩ v (wire F t v) =
          (wire F t v).bind fun j => .ok [(k, j)] := by
        cases o <;> simp_all [slotMember]
      rw [h3, h4]
      simp only [Bool.false_eq_true, if_false]
      cases hm : marshal F t v <;> cases hw : wire F t v <;> rw [hm, hw] at hrel <;> simp only [Rel, GoRes.bind, RelT] at hrel ⊢ <;> try exact hrel
      rename_i tx j
      have := ih (invR_add hi (k := k) hrel)
      revert this
      generalize slotMembers vs _ _ = x
      generalize runReflect _ _ _ _ _ = y
      cases x <;> cases y <;> simp [RelT]

/-- The encoder of a struct writes the specified members. -/
def encOk (info : StructInfo) (ts : List Ty) : Bool :=
  match info.enc with
  | .prog p => decide (analyse ts .init none p = some (slots info ts))
  | .mapIfNotNil key i => decide (slots info ts = [⟨key, i, .omitNil⟩]) &&
      (match ts[i]? with | some t => !timeish t | none => false)
  | .reflect fs => decide (slots info ts = fs.map fun f => ⟨f.1, f.2.1, if f.2.2 then .omitEmpty else .always⟩) &&
      fs.all fun f => match ts[f.2.1]? with | some t => !timeish t | none => false

theorem enc_ok {F : FloatFmt} {info : StructInfo} {ts : List Ty} {vs : List Val} (hf : FieldsOk F ts vs)
    (h : encOk info ts = true) :
    RelT [] (runEnc info.enc (marshalAll F ts vs) vs) (slotMembers vs (wireAll F ts vs) (slots info ts)) := by
  unfold encOk at h
  split at h
  · rename_i p hp
    rw [hp]
    have h := of_decide_eq_true h
    have := analyse_ok hf h (ms := []) (b := ⟨[], false⟩) ⟨rfl, rfl, rfl⟩ (by simp)
    simp only [runEnc]
    revert this
    generalize slotMembers vs _ _ = x
    generalize runStmts _ _ _ _ = y
    cases x <;> cases y <;> simp [RelT, RelM]
  · rename_i key i hp
    rw [hp]
    rw [Bool.and_eq_true] at h
    obtain ⟨h1, h2⟩ := h
    rw [of_decide_eq_true h1]
    split at h2
    · rename_i t ht
      obtain ⟨v, hv, hty⟩ := hf.typed i t ht
      have hrel := hf.rel i t v ht hv (by simpa using h2)
      simp only [runEnc, slotMembers, slotMember]
      rw [getD_some hv, getD_some (hf.text i t v ht hv), getD_some (hf.wire i t v ht hv)]
      by_cases hn : v = .nil
      · subst hn
        simp only [isNil, hv, Val.isNil, if_true, GoRes.bind, RelT]
        exact .objNil isWs_nil
      · have h3 : isNil vs i = false := by
          unfold isNil; split <;> simp_all
        have h4 : v.isNil = false := by cases v <;> simp_all [Val.isNil]
        simp only [h3, h4, Bool.false_eq_true, if_false]
        cases hm : marshal F t v <;> cases hw : wire F t v <;> rw [hm, hw] at hrel <;> simp only [Rel, GoRes.bind, RelT] at hrel ⊢ <;> try exact hrel
        have := Value.obj (members_one' (str_quote key) hrel)
        simpa using this
    · simp at h2
  · rename_i fs hp
    rw [hp]
    rw [Bool.and_eq_true] at h
    obtain ⟨h1, h2⟩ := h
    rw [of_decide_eq_true h1]
    refine reflect_ok hf ?_ (Or.inl ⟨rfl, rfl, rfl⟩)
    intro f hfs
    have := List.all_eq_true.1 h2 f hfs
    split at this
    · exact ⟨_, by assumption, by simpa using this⟩
    · simp at this

/-! ### All types -/

mutual
/-- All struct encoders in a type write the specified members, and times occur only as struct fields. -/
def okTy : Ty → Bool
  | .time => false
  | .ptr t => okTy t
  | .slice t => okTy t
  | .struct info ts => encOk info ts && okTys ts
  | _ => true
def okTys : List Ty → Bool
  | [] => true
  | t :: ts => (timeish t || okTy t) && okTys ts
end

theorem hasTys_get {ts : List Ty} {vs : List Val} (h : HasTys ts vs) {i : Nat} {t : Ty} (ht : ts[i]? = some t) :
    ∃ v, vs[i]? = some v ∧ HasTy t v := by
  induction ts generalizing vs i with
  | nil => simp at ht
  | cons t' ts ih =>
    cases vs with
    | nil => simp [HasTys] at h
    | cons v vs =>
      simp only [HasTys] at h
      cases i with
      | zero => simp at ht; subst ht; exact ⟨v, rfl, h.1⟩
      | succ i => simpa using ih h.2 (by simpa using ht)

theorem marshalAll_get {F : FloatFmt} {ts : List Ty} {vs : List Val} {i : Nat} {t : Ty} {v : Val}
    (ht : ts[i]? = some t) (hv : vs[i]? = some v) : (marshalAll F ts vs)[i]? = some (marshal F t v) := by
  induction ts generalizing vs i with
  | nil => simp at ht
  | cons t' ts ih =>
    cases vs with
    | nil => simp at hv
    | cons v' vs =>
      cases i with
      | zero => simp at ht hv; simp [marshalAll, ht, hv]
      | succ i => simpa [marshalAll] using ih (by simpa using ht) (by simpa using hv)

theorem wireAll_get {F : FloatFmt} {ts : List Ty} {vs : List Val} {i : Nat} {t : Ty} {v : Val}
    (ht : ts[i]? = some t) (hv : vs[i]? = some v) : (wireAll F ts vs)[i]? = some (wire F t v) := by
  induction ts generalizing vs i with
  | nil => simp at ht
  | cons t' ts ih =>
    cases vs with
    | nil => simp at hv
    | cons v' vs =>
      cases i with
      | zero => simp at ht hv; simp [wireAll, ht, hv]
      | succ i => simpa [wireAll] using ih (by simpa using ht) (by simpa using hv)

theorem okTys_get {ts : List Ty} (h : okTys ts = true) {i : Nat} {t : Ty} (ht : ts[i]? = some t)
    (h2 : timeish t = false) : okTy t = true := by
  induction ts generalizing i with
  | nil => simp at ht
  | cons t' ts ih =>
    simp only [okTys, Bool.and_eq_true, Bool.or_eq_true] at h
    cases i with
    | zero => simp at ht; subst ht; simp_all
    | succ i => exact ih h.2 (by simpa using ht)

/-- Array text against elements. -/
def RelE (js : List JVal) : GoRes Text → GoRes (List JVal) → Prop
  | .ok t, .ok js' => Value (.arr (js ++ js')) t
  | .err m, .err m' => m = m'
  | .panic m, .panic m' => m = m'
  | _, _ => False

theorem value_ne_nil {j : JVal} {t : Text} (h : Value j t) : t ≠ [] := by
  cases h with
  | num h =>
    rename_i r
    rcases h.int with h | ⟨d, ds, h, _⟩ <;> simp [RawNum.text, h]
  | str h => obtain ⟨is, u, _, _, rfl⟩ := h; simp
  | _ => simp

theorem elems_ne_nil {js : List JVal} {t : Text} (h : Elems js t) : t ≠ [] := by
  cases h with
  | one _ h _ => simp [value_ne_nil h]
  | cons _ h _ _ => simp

theorem joinElems_ok {F : FloatFmt} {t : Ty} {vs : List Val} (hr : ∀ v ∈ vs, Rel (marshal F t v) (wire F t v))
    {js : List JVal} {out : Text} (hi : (js = [] ∧ out = ['[']) ∨ ∃ u, Elems js u ∧ out = '[' :: u) :
    RelE js (joinElems (vs.map (marshal F t)) out) (allOk (vs.map (wire F t))) := by
  induction vs generalizing js out with
  | nil =>
    simp only [List.map, joinElems, allOk, RelE]
    rcases hi with ⟨rfl, rfl⟩ | ⟨u, h1, rfl⟩
    · exact .arrNil isWs_nil
    · simpa using Value.arr h1
  | cons v vs ih =>
    have hrel := hr v (List.mem_cons_self ..)
    have ih := fun {js out} => ih (fun v hv => hr v (List.mem_cons_of_mem _ hv)) (js := js) (out := out)
    simp only [List.map, joinElems, allOk]
    cases hm : marshal F t v <;> cases hw : wire F t v <;> rw [hm, hw] at hrel <;> simp only [Rel, GoRes.bind, RelE] at hrel ⊢ <;> try exact hrel
    rename_i tx j
    have hi' : (js ++ [j] = [] ∧ out ++ (if out = ['['] then tx else ',' :: tx) = ['[']) ∨
        ∃ u, Elems (js ++ [j]) u ∧ out ++ (if out = ['['] then tx else ',' :: tx) = '[' :: u := by
      right
      rcases hi with ⟨rfl, rfl⟩ | ⟨u, h1, rfl⟩
      · refine ⟨tx, ?_, by simp⟩
        simpa using Elems.one (w := []) (w' := []) isWs_nil hrel isWs_nil
      · refine ⟨_, elems_snoc h1 hrel, ?_⟩
        simp [elems_ne_nil h1]
    have := ih hi'
    revert this
    generalize allOk _ = x
    generalize joinElems _ _ = y
    cases x <;> cases y <;> simp [RelE]

mutual
theorem marshal_wire (F : FloatFmt) (t : Ty) (v : Val) (ht : okTy t = true) (hv : HasTy t v) :
    Rel (marshal F t v) (wire F t v) := by
  match t, v, ht, hv with
  | .str, .str s, _, _ => simpa [marshal, wire, Rel] using value_quote s
  | .int _, .int n, _, _ => simpa [marshal, wire, Rel, intText] using value_rawOfLit _
  | .float, .float (.fin q), _, _ => simpa [marshal, wire, Rel] using value_rawOfLit _
  | .float, .float .nan, _, _ => simp [marshal, wire, Rel]
  | .float, .float (.inf _), _, _ => simp [marshal, wire, Rel]
  | .bool, .bool true, _, _ => simpa [marshal, wire, Rel] using Value.true_
  | .bool, .bool false, _, _ => simpa [marshal, wire, Rel] using Value.false_
  | .ptr _, .nil, _, _ => simpa [marshal, wire, Rel] using Value.null
  | .ptr t, .ptr v, ht, hv => 
    have := marshal_wire F t v (by simpa [okTy] using ht) (by simpa [HasTy] using hv)
    simpa [marshal, wire] using this
  | .slice _, .nil, _, _ => simpa [marshal, wire, Rel] using Value.null
  | .slice t, .slice vs, ht, hv =>
    have h1 := joinElems_ok (F := F) (t := t) (vs := vs)
      (fun v hm => marshal_wire F t v (by simpa [okTy] using ht) ((by simpa [HasTy] using hv : ∀ v ∈ vs, HasTy t v) v hm))
      (js := []) (out := ['[']) (Or.inl ⟨rfl, rfl⟩)
    simp only [marshal, wire]
    revert h1
    generalize allOk _ = x
    generalize joinElems _ _ = y
    cases x <;> cases y <;> simp [RelE, Rel]
  | .struct info ts, .struct vs, ht, hv =>
    simp only [okTy, Bool.and_eq_true] at ht
    have hf : FieldsOk F ts vs := {
      typed := fun i t h => hasTys_get (by simpa [HasTy] using hv) h
      text := fun i t v h1 h2 => marshalAll_get h1 h2
      wire := fun i t v h1 h2 => wireAll_get h1 h2
      rel := marshal_wires F ts vs ht.2 (by simpa [HasTy] using hv) }
    have h1 := enc_ok hf ht.1
    simp only [marshal, wire]
    revert h1
    generalize slotMembers _ _ _ = x
    generalize runEnc _ _ _ = y
    cases x <;> cases y <;> simp only [RelT, GoRes.bind, Rel] <;> try (first | exact id | exact False.elim)
    rename_i ms tx
    intro h1
    simp only [List.nil_append] at h1
    cases henc : info.enc with
    | reflect fs => simpa [finishEnc, Rel] using h1
    | prog p =>
      obtain ⟨t', h2, h3⟩ := compact_ok h1.jsonText
      simpa [finishEnc, Rel, h2] using h3
    | mapIfNotNil k i =>
      obtain ⟨t', h2, h3⟩ := compact_ok h1.jsonText
      simpa [finishEnc, Rel, h2] using h3
theorem marshal_wires (F : FloatFmt) (ts : List Ty) (vs : List Val) (ht : okTys ts = true) (hv : HasTys ts vs)
    (i : Nat) (t : Ty) (v : Val) (h1 : ts[i]? = some t) (h2 : vs[i]? = some v) (h3 : timeish t = false) :
    Rel (marshal F t v) (wire F t v) := by
  match ts, vs, i with
  | [], _, _ => simp at h1
  | t' :: ts, [], _ => simp [HasTys] at hv
  | t' :: ts, v' :: vs, 0 =>
    simp at h1 h2
    subst h1 h2
    simp only [okTys, Bool.and_eq_true, Bool.or_eq_true, h3, Bool.false_eq_true, false_or] at ht
    simp only [HasTys] at hv
    exact marshal_wire F t' v' ht.1 hv.1
  | t' :: ts, v' :: vs, i + 1 =>
    simp only [okTys, Bool.and_eq_true] at ht
    simp only [HasTys] at hv
    exact marshal_wires F ts vs ht.2 hv.2 i t v (by simpa using h1) (by simpa using h2) h3
end

end Encode
end Verif
