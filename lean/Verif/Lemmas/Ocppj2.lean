import Verif.Lemmas.Ocppj
set_option linter.unusedSimpArgs false
set_option linter.unnecessarySeqFocus false
/-!
# Reading frames
-/
namespace Verif.Ocppj
open Json Codec Decode

/-! ### The text of untyped values -/

theorem elems_one {v : JVal} {t : Text} (h : Value v t) : Elems [v] t := by
  have := Elems.one (w := []) (w' := []) isWs_nil h isWs_nil
  simpa using this

theorem elems_cons {v : JVal} {vs : List JVal} {t u : Text} (h : Value v t) (h' : Elems vs u) : Elems (v :: vs) (t ++ ',' :: u) := by
  have := Elems.cons (w := []) (w' := []) isWs_nil h isWs_nil h'
  simpa using this

theorem members_single {k kt t : Text} {v : JVal} (hk : Str k kt) (h : Value v t) : Members [(k, v)] (kt ++ ':' :: t) := by
  have := Members.one (w := []) (w₁ := []) (w₂ := []) (w' := []) isWs_nil hk isWs_nil isWs_nil h isWs_nil
  simpa using this

theorem members_cons {k kt t u : Text} {v : JVal} {ms : List (Text × JVal)} (hk : Str k kt) (h : Value v t) (h' : Members ms u) :
    Members ((k, v) :: ms) (kt ++ ':' :: (t ++ ',' :: u)) := by
  have := Members.cons (w := []) (w₁ := []) (w₂ := []) (w' := []) isWs_nil hk isWs_nil isWs_nil h isWs_nil h'
  simpa using this

mutual
/-- What `json.Marshal` writes for an untyped value. -/
theorem anyText_value (F : FloatFmt) (a : GoAny) : Value (jsonOf F a) (anyText F a) := by
  match a with
  | .nil => exact .null
  | .bool b => cases b <;> simp only [jsonOf, anyText] <;> constructor
  | .num q => exact value_rawOfLit _
  | .str s => exact value_quote s
  | .arr vs =>
    match vs with
    | [] => exact .arrNil (w := []) isWs_nil
    | v :: vs => exact .arr (anyTexts_value F (v :: vs) (by simp))
  | .obj ms =>
    match ms with
    | [] => exact .objNil (w := []) isWs_nil
    | m :: ms => exact .obj (entryTexts_value F (m :: ms) (by simp))
  termination_by structural a
theorem anyTexts_value (F : FloatFmt) (vs : List GoAny) (h : vs ≠ []) : Elems (jsonOfs F vs) (anyTexts F vs) := by
  match vs with
  | [] => exact absurd rfl h
  | v :: vs =>
    have h1 := anyText_value F v
    have h2 := anyTexts_value F vs
    match vs with
    | [] => exact elems_one h1
    | w :: vs => exact elems_cons h1 (h2 (by simp))
  termination_by structural vs
theorem entryTexts_value (F : FloatFmt) (ms : List (Text × GoAny)) (h : ms ≠ []) : Members (jsonOfEntries F ms) (entryTexts F ms) := by
  match ms with
  | [] => exact absurd rfl h
  | (k, v) :: ms =>
    have h1 := anyText_value F v
    have h2 := entryTexts_value F ms
    match ms with
    | [] => exact members_single (str_quote k) h1
    | w :: ms => exact members_cons (str_quote k) h1 (h2 (by simp))
  termination_by structural ms
end

/-! ### Inversion -/

theorem toAny_str {v : JVal} {s : Text} : toAny v = some (.str s) ↔ v = .str s := by
  cases v <;> simp [toAny]

theorem toAny_num {v : JVal} {q : ℚ} : toAny v = some (.num q) ↔ ∃ l, v = .num l ∧ IsNum l q := by
  cases v <;> simp [toAny, IsNum]

theorem toAny_obj {v : JVal} {p : Payload} : toAny v = some (.obj p) ↔ ∃ ms, v = .obj ms ∧ Holds (.obj ms) (.obj p) := by
  constructor
  · intro h
    cases v with
    | obj ms => exact ⟨ms, rfl, toAny_holds _ _ h⟩
    | _ => simp [toAny] at h
  · rintro ⟨ms, rfl, h⟩; exact (toAny_iff _ _).2 h

theorem toAnys_cons {vs : List JVal} {a : GoAny} {as : List GoAny} :
    toAnys vs = some (a :: as) ↔ ∃ v vs', vs = v :: vs' ∧ toAny v = some a ∧ toAnys vs' = some as := by
  cases vs with
  | nil => simp [toAnys]
  | cons v vs =>
    simp only [toAnys, List.cons.injEq]
    constructor
    · intro e
      refine ⟨v, vs, ⟨rfl, rfl⟩, ?_⟩
      cases h : toAny v <;> cases h' : toAnys vs <;> simp [h, h'] at e ⊢
      exact e
    · rintro ⟨_, _, ⟨rfl, rfl⟩, h, h'⟩
      simp only [h, h']

theorem toAnys_cons' {v : JVal} {vs : List JVal} {as : List GoAny} (h : toAnys (v :: vs) = some as) {a : GoAny}
    (ha : toAny v = some a) : ∃ as', toAnys vs = some as' ∧ as = a :: as' := by
  simp only [toAnys, ha] at h
  cases h' : toAnys vs with
  | none => simp [h'] at h
  | some as' => simp [h'] at h; exact ⟨as', rfl, h.symm⟩

theorem toAnys_nil {vs : List JVal} : toAnys vs = some [] ↔ vs = [] := by
  cases vs with
  | nil => simp [toAnys]
  | cons v vs =>
    simp only [toAnys]
    cases h : toAny v <;> cases h' : toAnys vs <;> simp

/-- The shape of a frame after conversion to untyped values. -/
inductive ShapeA : List GoAny → Msg Payload → Prop where
  | call {id a p rest} : ShapeA (.num 2 :: .str id :: .str a :: .obj p :: rest) (.call (String.ofList id) (String.ofList a) p)
  | result {id p rest} : ShapeA (.num 3 :: .str id :: .obj p :: rest) (.result (String.ofList id) p)
  | error {id c d p rest} : ShapeA (.num 4 :: .str id :: .str c :: .str d :: .obj p :: rest)
      (.error (String.ofList id) (String.ofList c) (String.ofList d) p)

/-- The crashing frames after conversion to untyped values. -/
inductive CrashA : List GoAny → Prop where
  | noType : CrashA []
  | noId {q} : CrashA [.num q]
  | unknown {q id rest} : q ≠ 2 → q ≠ 3 → q ≠ 4 → CrashA (.num q :: .str id :: rest)
  | call1 {id} : CrashA [.num 2, .str id]
  | call2 {id a} : CrashA [.num 2, .str id, .str a]
  | result1 {id} : CrashA [.num 3, .str id]
  | error1 {id} : CrashA [.num 4, .str id]
  | error2 {id c} : CrashA [.num 4, .str id, .str c]
  | error3 {id c d} : CrashA [.num 4, .str id, .str c, .str d]

theorem index_cons_zero (a : GoAny) (as : List GoAny) : index (a :: as) 0 = .ok a := rfl
theorem index_cons_succ (a : GoAny) (as : List GoAny) (i : Nat) : index (a :: as) (i + 1) = index as i := rfl
theorem index_nil (i : Nat) : index [] i = .panic "index out of range" := rfl

/-- Did the reader survive?  (Neither a panic nor the nil message.) -/
def Crashes {α : Type} (x : GoRes (Option α)) : Prop := x.isPanic = true ∨ x = .ok none

set_option maxHeartbeats 1000000 in
theorem readFrame_spec (as : List GoAny) :
    (∀ m, readFrame as = .ok (some m) ↔ ShapeA as m) ∧ (Crashes (readFrame as) ↔ CrashA as) := by
  have n23 : ¬ (3 : ℚ) = 2 := by decide
  have n24 : ¬ (4 : ℚ) = 2 := by decide
  have n34 : ¬ (4 : ℚ) = 3 := by decide
  unfold readFrame Crashes
  simp only [GoRes.bind_eq, GoRes.pure_eq]
  rcases as with _ | ⟨a0, as⟩
  · simp only [index_cons_zero, index_cons_succ, index_nil, GoRes.bind]
    exact ⟨fun m => ⟨fun h => by simp at h, fun h => by cases h⟩, ⟨fun _ => .noType, fun _ => by simp⟩⟩
  simp only [index_cons_zero, index_cons_succ, GoRes.bind]
  cases a0 with
  | num q =>
    simp only [asFloat, GoRes.bind, index_cons_succ]
    rcases as with _ | ⟨a1, as⟩
    · simp only [index_cons_zero, index_cons_succ, index_nil, GoRes.bind]
      exact ⟨fun m => ⟨fun h => by simp at h, fun h => by cases h⟩, ⟨fun _ => .noId, fun _ => by simp⟩⟩
    simp only [index_cons_zero, index_cons_succ, GoRes.bind]
    cases a1 with
    | str id =>
      simp only [asString, GoRes.bind]
      by_cases h2 : q = 2
      · subst h2
        simp only [if_true]
        rcases as with _ | ⟨a2, as⟩
        · simp only [index_cons_zero, index_cons_succ, index_nil, GoRes.bind]
          exact ⟨fun m => ⟨fun h => by simp at h, fun h => by cases h⟩, ⟨fun _ => .call1, fun _ => by simp⟩⟩
        simp only [index_cons_zero, index_cons_succ, GoRes.bind]
        cases a2 with
        | str a =>
          simp only [asString, GoRes.bind]
          rcases as with _ | ⟨a3, as⟩
          · simp only [index_cons_zero, index_cons_succ, index_nil, GoRes.bind]
            exact ⟨fun m => ⟨fun h => by simp at h, fun h => by cases h⟩, ⟨fun _ => .call2, fun _ => by simp⟩⟩
          simp only [index_cons_zero, index_cons_succ, GoRes.bind]
          cases a3 with
          | obj p =>
            simp only [asMap, GoRes.bind, GoRes.ok.injEq, Option.some.injEq]
            refine ⟨fun m => ⟨fun h => by subst h; exact .call, fun h => by cases h; rfl⟩, ⟨fun h => by simp at h, fun h => ?_⟩⟩
            cases h <;> contradiction
          | _ =>
            simp only [asMap, GoRes.bind]
            refine ⟨fun m => ⟨fun h => by simp at h, fun h => by cases h⟩, ⟨fun h => by simp at h, fun h => ?_⟩⟩
            cases h <;> contradiction
        | _ =>
          simp only [asString, GoRes.bind]
          refine ⟨fun m => ⟨fun h => by simp at h, fun h => by cases h⟩, ⟨fun h => by simp at h, fun h => ?_⟩⟩
          cases h <;> contradiction
      · rw [if_neg h2]
        by_cases h3 : q = 3
        · subst h3
          simp only [if_true]
          rcases as with _ | ⟨a2, as⟩
          · simp only [index_cons_zero, index_cons_succ, index_nil, GoRes.bind]
            exact ⟨fun m => ⟨fun h => by simp at h, fun h => by cases h⟩, ⟨fun _ => .result1, fun _ => by simp⟩⟩
          simp only [index_cons_zero, index_cons_succ, GoRes.bind]
          cases a2 with
          | obj p =>
            simp only [asMap, GoRes.bind, GoRes.ok.injEq, Option.some.injEq]
            refine ⟨fun m => ⟨fun h => by subst h; exact .result, fun h => by cases h; rfl⟩, ⟨fun h => by simp at h, fun h => ?_⟩⟩
            cases h <;> contradiction
          | _ =>
            simp only [asMap, GoRes.bind]
            refine ⟨fun m => ⟨fun h => by simp at h, fun h => by cases h⟩, ⟨fun h => by simp at h, fun h => ?_⟩⟩
            cases h <;> contradiction
        · rw [if_neg h3]
          by_cases h4 : q = 4
          · subst h4
            simp only [if_true]
            rcases as with _ | ⟨a2, as⟩
            · simp only [index_cons_zero, index_cons_succ, index_nil, GoRes.bind]
              exact ⟨fun m => ⟨fun h => by simp at h, fun h => by cases h⟩, ⟨fun _ => .error1, fun _ => by simp⟩⟩
            simp only [index_cons_zero, index_cons_succ, GoRes.bind]
            cases a2 with
            | str c =>
              simp only [asString, GoRes.bind]
              rcases as with _ | ⟨a3, as⟩
              · simp only [index_cons_zero, index_cons_succ, index_nil, GoRes.bind]
                exact ⟨fun m => ⟨fun h => by simp at h, fun h => by cases h⟩, ⟨fun _ => .error2, fun _ => by simp⟩⟩
              simp only [index_cons_zero, index_cons_succ, GoRes.bind]
              cases a3 with
              | str d =>
                simp only [asString, GoRes.bind]
                rcases as with _ | ⟨a4, as⟩
                · simp only [index_cons_zero, index_cons_succ, index_nil, GoRes.bind]
                  exact ⟨fun m => ⟨fun h => by simp at h, fun h => by cases h⟩, ⟨fun _ => .error3, fun _ => by simp⟩⟩
                simp only [index_cons_zero, index_cons_succ, GoRes.bind]
                cases a4 with
                | obj p =>
                  simp only [asMap, GoRes.bind, GoRes.ok.injEq, Option.some.injEq]
                  refine ⟨fun m => ⟨fun h => by subst h; exact .error, fun h => by cases h; rfl⟩, ⟨fun h => by simp at h, fun h => ?_⟩⟩
                  cases h <;> contradiction
                | _ =>
                  simp only [asMap, GoRes.bind]
                  refine ⟨fun m => ⟨fun h => by simp at h, fun h => by cases h⟩, ⟨fun h => by simp at h, fun h => ?_⟩⟩
                  cases h <;> contradiction
              | _ =>
                simp only [asString, GoRes.bind]
                refine ⟨fun m => ⟨fun h => by simp at h, fun h => by cases h⟩, ⟨fun h => by simp at h, fun h => ?_⟩⟩
                cases h <;> contradiction
            | _ =>
              simp only [asString, GoRes.bind]
              refine ⟨fun m => ⟨fun h => by simp at h, fun h => by cases h⟩, ⟨fun h => by simp at h, fun h => ?_⟩⟩
              cases h <;> contradiction
          · rw [if_neg h4]
            refine ⟨fun m => ⟨fun h => by simp at h, fun h => ?_⟩, ⟨fun _ => .unknown h2 h3 h4, fun _ => by simp⟩⟩
            cases h <;> contradiction
    | _ =>
      simp only [asString, GoRes.bind]
      refine ⟨fun m => ⟨fun h => by simp at h, fun h => by cases h⟩, ⟨fun h => by simp at h, fun h => by cases h⟩⟩
  | _ =>
    simp only [asFloat, GoRes.bind]
    refine ⟨fun m => ⟨fun h => by simp at h, fun h => by cases h⟩, ⟨fun h => by simp at h, fun h => by cases h⟩⟩

theorem shape_iff {vs : List JVal} {as : List GoAny} (h : toAnys vs = some as) (m : Msg Payload) : ShapeA as m ↔ Shape vs m := by
  constructor
  · intro hs
    cases hs with
    | call =>
      obtain ⟨v0, _, rfl, h0, h⟩ := toAnys_cons.1 h
      obtain ⟨v1, _, rfl, h1, h⟩ := toAnys_cons.1 h
      obtain ⟨v2, _, rfl, h2, h⟩ := toAnys_cons.1 h
      obtain ⟨v3, _, rfl, h3, h⟩ := toAnys_cons.1 h
      obtain ⟨l, rfl, hl⟩ := toAny_num.1 h0
      obtain ⟨ms, rfl, hp⟩ := toAny_obj.1 h3
      rw [toAny_str.1 h1, toAny_str.1 h2]
      exact .call hl hp
    | result =>
      obtain ⟨v0, _, rfl, h0, h⟩ := toAnys_cons.1 h
      obtain ⟨v1, _, rfl, h1, h⟩ := toAnys_cons.1 h
      obtain ⟨v2, _, rfl, h2, h⟩ := toAnys_cons.1 h
      obtain ⟨l, rfl, hl⟩ := toAny_num.1 h0
      obtain ⟨ms, rfl, hp⟩ := toAny_obj.1 h2
      rw [toAny_str.1 h1]
      exact .result hl hp
    | error =>
      obtain ⟨v0, _, rfl, h0, h⟩ := toAnys_cons.1 h
      obtain ⟨v1, _, rfl, h1, h⟩ := toAnys_cons.1 h
      obtain ⟨v2, _, rfl, h2, h⟩ := toAnys_cons.1 h
      obtain ⟨v3, _, rfl, h3, h⟩ := toAnys_cons.1 h
      obtain ⟨v4, _, rfl, h4, h⟩ := toAnys_cons.1 h
      obtain ⟨l, rfl, hl⟩ := toAny_num.1 h0
      obtain ⟨ms, rfl, hp⟩ := toAny_obj.1 h4
      rw [toAny_str.1 h1, toAny_str.1 h2, toAny_str.1 h3]
      exact .error hl hp
  · intro hs
    cases hs with
    | call hl hp =>
      obtain ⟨_, k1, rfl⟩ := toAnys_cons' h (toAny_num.2 ⟨_, rfl, hl⟩)
      obtain ⟨_, k2, rfl⟩ := toAnys_cons' k1 (toAny_str.2 rfl)
      obtain ⟨_, k3, rfl⟩ := toAnys_cons' k2 (toAny_str.2 rfl)
      obtain ⟨_, k4, rfl⟩ := toAnys_cons' k3 (toAny_obj.2 ⟨_, rfl, hp⟩)
      exact .call
    | result hl hp =>
      obtain ⟨_, k1, rfl⟩ := toAnys_cons' h (toAny_num.2 ⟨_, rfl, hl⟩)
      obtain ⟨_, k2, rfl⟩ := toAnys_cons' k1 (toAny_str.2 rfl)
      obtain ⟨_, k3, rfl⟩ := toAnys_cons' k2 (toAny_obj.2 ⟨_, rfl, hp⟩)
      exact .result
    | error hl hp =>
      obtain ⟨_, k1, rfl⟩ := toAnys_cons' h (toAny_num.2 ⟨_, rfl, hl⟩)
      obtain ⟨_, k2, rfl⟩ := toAnys_cons' k1 (toAny_str.2 rfl)
      obtain ⟨_, k3, rfl⟩ := toAnys_cons' k2 (toAny_str.2 rfl)
      obtain ⟨_, k4, rfl⟩ := toAnys_cons' k3 (toAny_str.2 rfl)
      obtain ⟨_, k5, rfl⟩ := toAnys_cons' k4 (toAny_obj.2 ⟨_, rfl, hp⟩)
      exact .error

theorem crash_iff {vs : List JVal} {as : List GoAny} (h : toAnys vs = some as) : CrashA as ↔ Crashing (.arr vs) := by
  constructor
  · intro hs
    cases hs with
    | noType => rw [toAnys_nil] at h; subst h; exact .noType
    | noId =>
      obtain ⟨v0, _, rfl, h0, h⟩ := toAnys_cons.1 h
      rw [toAnys_nil] at h; subst h
      obtain ⟨l, rfl, hl⟩ := toAny_num.1 h0
      exact .noId
    | unknown n2 n3 n4 =>
      obtain ⟨v0, _, rfl, h0, h⟩ := toAnys_cons.1 h
      obtain ⟨v1, _, rfl, h1, h⟩ := toAnys_cons.1 h
      obtain ⟨l, rfl, hl⟩ := toAny_num.1 h0
      rw [toAny_str.1 h1]
      exact .unknown hl n2 n3 n4
    | call1 =>
      obtain ⟨v0, _, rfl, h0, h⟩ := toAnys_cons.1 h
      obtain ⟨v1, _, rfl, h1, h⟩ := toAnys_cons.1 h
      rw [toAnys_nil] at h; subst h
      obtain ⟨l, rfl, hl⟩ := toAny_num.1 h0
      rw [toAny_str.1 h1]
      exact .call1 hl
    | call2 =>
      obtain ⟨v0, _, rfl, h0, h⟩ := toAnys_cons.1 h
      obtain ⟨v1, _, rfl, h1, h⟩ := toAnys_cons.1 h
      obtain ⟨v2, _, rfl, h2, h⟩ := toAnys_cons.1 h
      rw [toAnys_nil] at h; subst h
      obtain ⟨l, rfl, hl⟩ := toAny_num.1 h0
      rw [toAny_str.1 h1, toAny_str.1 h2]
      exact .call2 hl
    | result1 =>
      obtain ⟨v0, _, rfl, h0, h⟩ := toAnys_cons.1 h
      obtain ⟨v1, _, rfl, h1, h⟩ := toAnys_cons.1 h
      rw [toAnys_nil] at h; subst h
      obtain ⟨l, rfl, hl⟩ := toAny_num.1 h0
      rw [toAny_str.1 h1]
      exact .result1 hl
    | error1 =>
      obtain ⟨v0, _, rfl, h0, h⟩ := toAnys_cons.1 h
      obtain ⟨v1, _, rfl, h1, h⟩ := toAnys_cons.1 h
      rw [toAnys_nil] at h; subst h
      obtain ⟨l, rfl, hl⟩ := toAny_num.1 h0
      rw [toAny_str.1 h1]
      exact .error1 hl
    | error2 =>
      obtain ⟨v0, _, rfl, h0, h⟩ := toAnys_cons.1 h
      obtain ⟨v1, _, rfl, h1, h⟩ := toAnys_cons.1 h
      obtain ⟨v2, _, rfl, h2, h⟩ := toAnys_cons.1 h
      rw [toAnys_nil] at h; subst h
      obtain ⟨l, rfl, hl⟩ := toAny_num.1 h0
      rw [toAny_str.1 h1, toAny_str.1 h2]
      exact .error2 hl
    | error3 =>
      obtain ⟨v0, _, rfl, h0, h⟩ := toAnys_cons.1 h
      obtain ⟨v1, _, rfl, h1, h⟩ := toAnys_cons.1 h
      obtain ⟨v2, _, rfl, h2, h⟩ := toAnys_cons.1 h
      obtain ⟨v3, _, rfl, h3, h⟩ := toAnys_cons.1 h
      rw [toAnys_nil] at h; subst h
      obtain ⟨l, rfl, hl⟩ := toAny_num.1 h0
      rw [toAny_str.1 h1, toAny_str.1 h2, toAny_str.1 h3]
      exact .error3 hl
  · intro hs
    cases hs with
    | noType => simp [toAnys] at h; subst h; exact .noType
    | @noId l =>
      have : ∃ q, IsNum l q := by
        have := (toAnys_inRange _).1 (by rw [h]; rfl)
        simp only [InRanges, InRange] at this
        exact this.1
      obtain ⟨q, hl⟩ := this
      obtain ⟨_, k1, rfl⟩ := toAnys_cons' h (toAny_num.2 ⟨_, rfl, hl⟩)
      simp [toAnys] at k1; subst k1; exact .noId
    | unknown hl n2 n3 n4 =>
      obtain ⟨_, k1, rfl⟩ := toAnys_cons' h (toAny_num.2 ⟨_, rfl, hl⟩)
      obtain ⟨_, k2, rfl⟩ := toAnys_cons' k1 (toAny_str.2 rfl)
      exact .unknown n2 n3 n4
    | call1 hl =>
      obtain ⟨_, k1, rfl⟩ := toAnys_cons' h (toAny_num.2 ⟨_, rfl, hl⟩)
      obtain ⟨_, k2, rfl⟩ := toAnys_cons' k1 (toAny_str.2 rfl)
      simp [toAnys] at k2; subst k2; exact .call1
    | call2 hl =>
      obtain ⟨_, k1, rfl⟩ := toAnys_cons' h (toAny_num.2 ⟨_, rfl, hl⟩)
      obtain ⟨_, k2, rfl⟩ := toAnys_cons' k1 (toAny_str.2 rfl)
      obtain ⟨_, k3, rfl⟩ := toAnys_cons' k2 (toAny_str.2 rfl)
      simp [toAnys] at k3; subst k3; exact .call2
    | result1 hl =>
      obtain ⟨_, k1, rfl⟩ := toAnys_cons' h (toAny_num.2 ⟨_, rfl, hl⟩)
      obtain ⟨_, k2, rfl⟩ := toAnys_cons' k1 (toAny_str.2 rfl)
      simp [toAnys] at k2; subst k2; exact .result1
    | error1 hl =>
      obtain ⟨_, k1, rfl⟩ := toAnys_cons' h (toAny_num.2 ⟨_, rfl, hl⟩)
      obtain ⟨_, k2, rfl⟩ := toAnys_cons' k1 (toAny_str.2 rfl)
      simp [toAnys] at k2; subst k2; exact .error1
    | error2 hl =>
      obtain ⟨_, k1, rfl⟩ := toAnys_cons' h (toAny_num.2 ⟨_, rfl, hl⟩)
      obtain ⟨_, k2, rfl⟩ := toAnys_cons' k1 (toAny_str.2 rfl)
      obtain ⟨_, k3, rfl⟩ := toAnys_cons' k2 (toAny_str.2 rfl)
      simp [toAnys] at k3; subst k3; exact .error2
    | error3 hl =>
      obtain ⟨_, k1, rfl⟩ := toAnys_cons' h (toAny_num.2 ⟨_, rfl, hl⟩)
      obtain ⟨_, k2, rfl⟩ := toAnys_cons' k1 (toAny_str.2 rfl)
      obtain ⟨_, k3, rfl⟩ := toAnys_cons' k2 (toAny_str.2 rfl)
      obtain ⟨_, k4, rfl⟩ := toAnys_cons' k3 (toAny_str.2 rfl)
      simp [toAnys] at k4; subst k4; exact .error3

/-- What `UnmarshalMessage` makes of a text. -/
theorem unmarshalMessage_spec (t : Text) :
    (∀ m, unmarshalMessage t = .ok (some m) ↔ ∃ vs, JsonText (.arr vs) t ∧ InRanges vs ∧ Shape vs m) ∧
    (Crashes (unmarshalMessage t) ↔ ∃ j, JsonText j t ∧ InRange j ∧ Crashing j) := by
  unfold unmarshalMessage
  cases hp : parse t with
  | none =>
    have no : ∀ j, ¬ JsonText j t := fun j hj => by rw [← parse_iff, hp] at hj; cases hj
    refine ⟨fun m => ⟨fun h => by simp at h, ?_⟩, ⟨fun h => by simp [Crashes] at h, ?_⟩⟩
    · rintro ⟨vs, hj, _⟩; exact absurd hj (no _)
    · rintro ⟨j, hj, _⟩; exact absurd hj (no _)
  | some j =>
    have hj := (parse_iff t j).1 hp
    have uniq : ∀ j', JsonText j' t → j' = j := fun j' hj' => jsonText_unique hj' hj
    cases j with
    | null =>
      simp only []
      refine ⟨fun m => ⟨fun h => ?_, ?_⟩, ⟨fun _ => ⟨.null, hj, True.intro, .null⟩, fun _ => (readFrame_spec []).2.2 .noType⟩⟩
      · have := ((readFrame_spec []).1 m).1 h
        cases this
      · rintro ⟨vs, hv, _⟩; have := uniq _ hv; cases this
    | arr vs =>
      simp only []
      cases ha : toAnys vs with
      | none =>
        have hr : ¬ InRanges vs := by rw [← toAnys_inRange, ha]; simp
        simp only []
        refine ⟨fun m => ⟨fun h => by simp at h, ?_⟩, ⟨fun h => by simp [Crashes] at h, ?_⟩⟩
        · rintro ⟨vs', hv, h, _⟩; have := uniq _ hv; cases this; exact absurd h hr
        · rintro ⟨j', hv, h, _⟩; have := uniq _ hv; subst this; exact absurd h hr
      | some as =>
        have hr : InRanges vs := by rw [← toAnys_inRange, ha]; rfl
        simp only []
        obtain ⟨h1, h2⟩ := readFrame_spec as
        refine ⟨fun m => ?_, ?_⟩
        · rw [h1 m, shape_iff ha]
          exact ⟨fun h => ⟨vs, hj, hr, h⟩, fun ⟨vs', hv, _, h⟩ => by have := uniq _ hv; cases this; exact h⟩
        · rw [h2, crash_iff ha]
          exact ⟨fun h => ⟨_, hj, hr, h⟩, fun ⟨j', hv, _, h⟩ => by have := uniq _ hv; subst this; exact h⟩
    | _ =>
      simp only []
      refine ⟨fun m => ⟨fun h => by simp at h, ?_⟩, ⟨fun h => by simp [Crashes] at h, ?_⟩⟩
      · rintro ⟨vs', hv, h, _⟩; have := uniq _ hv; cases this
      · rintro ⟨j', hv, _, h⟩; have := uniq _ hv; subst this; cases h

end Verif.Ocppj
