import Verif.Model.Json
/-! Lemmas: the parser agrees with the grammar. -/
set_option linter.unusedSimpArgs false
namespace Verif.Json

/-! ### White space -/

theorem skipWs_append {w t : Text} (h : IsWs w) : skipWs (w ++ t) = skipWs t := by
  induction w with
  | nil => rfl
  | cons c w ih =>
    have hc := h c (by simp)
    simp only [List.cons_append, skipWs, hc, if_true]
    exact ih (fun c hc => h c (by simp [hc]))

theorem skipWs_ws {w : Text} (h : IsWs w) : skipWs w = [] := by
  have := skipWs_append (t := []) h
  simpa [skipWs] using this

theorem skipWs_cons {c : Char} {t : Text} (h : wsChar c = false) : skipWs (c :: t) = c :: t := by
  simp [skipWs, h]

theorem skipWs_split (t : Text) : ∃ w, IsWs w ∧ t = w ++ skipWs t := by
  induction t with
  | nil => exact ⟨[], by simp [IsWs], rfl⟩
  | cons c t ih =>
    obtain ⟨w, hw, ht⟩ := ih
    by_cases hc : wsChar c = true
    · refine ⟨c :: w, ?_, ?_⟩
      · intro x hx
        rcases List.mem_cons.1 hx with rfl | hx
        · exact hc
        · exact hw x hx
      · rw [skipWs, if_pos hc, List.cons_append, ← ht]
    · exact ⟨[], by simp [IsWs], by simp [skipWs, hc]⟩

theorem skipWs_length (t : Text) : (skipWs t).length ≤ t.length := by
  obtain ⟨w, _, h⟩ := skipWs_split t
  conv => rhs; rw [h]
  simp

theorem isWs_nil : IsWs [] := by simp [IsWs]

theorem isWs_append {a b : Text} (ha : IsWs a) (hb : IsWs b) : IsWs (a ++ b) := by
  intro c hc
  rcases List.mem_append.1 hc with h | h
  · exact ha c h
  · exact hb c h

/-- No value starts with white space. -/
def Start (t : Text) : Prop := ∃ c u, t = c :: u ∧ wsChar c = false

/-! ### Digits -/

theorem charDigit_digitChar (d : Fin 10) : charDigit (digitChar d) = some d := by
  revert d; decide

theorem digitChar_charDigit {c : Char} {d : Fin 10} (h : charDigit c = some d) : digitChar d = c := by
  unfold charDigit at h
  split at h
  · rename_i hc
    simp only [Option.some.injEq] at h
    subst h
    unfold digitChar
    have : 48 + (c.toNat - 48) = c.toNat := by omega
    simp only [this]
    exact Char.ofNat_toNat c
  · simp at h

/-- The text does not go on with a digit. -/
def NoDigit (t : Text) : Prop := ∀ c u, t = c :: u → charDigit c = none

theorem takeDigits_append (ds : List (Fin 10)) {r : Text} (h : NoDigit r) :
    takeDigits (ds.map digitChar ++ r) = (ds, r) := by
  induction ds with
  | nil =>
    cases r with
    | nil => rfl
    | cons c u => simp [takeDigits, h c u rfl]
  | cons d ds ih => simp [takeDigits, charDigit_digitChar, ih]

theorem takeDigits_sound (t : Text) : t = (takeDigits t).1.map digitChar ++ (takeDigits t).2 := by
  induction t with
  | nil => rfl
  | cons c t ih =>
    unfold takeDigits
    split
    · rename_i d hd
      simp only [List.map_cons, List.cons_append, digitChar_charDigit hd, ← ih]
    · simp

/-- What may follow a number: nothing, or a character that cannot continue it. -/
def NumStop (t : Text) : Prop :=
  ∀ c u, t = c :: u → charDigit c = none ∧ c ≠ '.' ∧ c ≠ 'e' ∧ c ≠ 'E'

theorem NumStop.noDigit {t : Text} (h : NumStop t) : NoDigit t := fun c u hu => (h c u hu).1

theorem digitChar_facts (d : Fin 10) : digitChar d ≠ '-' ∧ digitChar d ≠ '+' ∧ digitChar d ≠ '.' ∧
    digitChar d ≠ 'e' ∧ digitChar d ≠ 'E' ∧ digitChar d ≠ '"' ∧ digitChar d ≠ '[' ∧ digitChar d ≠ '{' ∧
    digitChar d ≠ 'n' ∧ digitChar d ≠ 't' ∧ digitChar d ≠ 'f' ∧ wsChar (digitChar d) = false ∧
    (digitChar d = '0' ↔ d = 0) := by
  revert d; decide

theorem parseExpDigits_ok (u : Bool) (s : Option Bool) {ds : List (Fin 10)} (hd : ds ≠ []) {r : Text}
    (hr : NumStop r) : parseExpDigits u s (ds.map digitChar ++ r) = some (some (u, s, ds), r) := by
  unfold parseExpDigits
  rw [takeDigits_append ds hr.noDigit]
  cases ds with
  | nil => exact absurd rfl hd
  | cons d ds => rfl

theorem parseExpSign_digits (u : Bool) {ds : List (Fin 10)} (hd : ds ≠ []) {r : Text}
    (hr : NumStop r) : parseExpSign u (ds.map digitChar ++ r) = some (some (u, none, ds), r) := by
  have h := parseExpDigits_ok u none hd hr
  cases ds with
  | nil => exact absurd rfl hd
  | cons d ds =>
    have f := digitChar_facts d
    simp only [List.map_cons, List.cons_append] at h ⊢
    unfold parseExpSign
    split
    · rename_i heq; exact absurd (List.cons.inj heq).1 f.1
    · rename_i heq; exact absurd (List.cons.inj heq).1 f.2.1
    · exact h

/-- Text of an optional exponent. -/
def expText : Option (Bool × Option Bool × List (Fin 10)) → Text
  | none => []
  | some (u, s, ds) => (if u then 'E' else 'e') ::
      ((match s with | none => [] | some true => ['-'] | some false => ['+']) ++ ds.map digitChar)

/-- Text of an optional fraction. -/
def fracText : Option (List (Fin 10)) → Text
  | none => []
  | some ds => '.' :: ds.map digitChar

theorem RawNum.text_eq (r : RawNum) : r.text = (if r.neg then ['-'] else []) ++ r.int.map digitChar ++
    fracText r.frac ++ expText r.exp := by
  rcases r with ⟨n, i, f, e⟩
  cases f <;> rcases e with _ | ⟨u, s, ds⟩ <;> rfl

theorem parseExp_ok {e : Option (Bool × Option Bool × List (Fin 10))}
    (he : ∀ u s ds, e = some (u, s, ds) → ds ≠ []) {r : Text} (hr : NumStop r) :
    parseExp (expText e ++ r) = some (e, r) := by
  rcases e with _ | ⟨u, s, ds⟩
  · simp only [expText, List.nil_append]
    unfold parseExp
    split
    · exact absurd rfl (hr _ _ rfl).2.2.1
    · exact absurd rfl (hr _ _ rfl).2.2.2
    · rfl
  · have hd := he u s ds rfl
    have h1 := parseExpSign_digits u hd hr
    have h2 := parseExpDigits_ok u s hd hr
    rcases s with _ | s
    · cases u <;> simpa [expText, parseExp] using h1
    · cases u <;> cases s <;> simpa [expText, parseExp, parseExpSign] using h2

theorem expText_facts (e : Option (Bool × Option Bool × List (Fin 10))) {r : Text} (hr : NumStop r) :
    ∀ c u, expText e ++ r = c :: u → charDigit c = none ∧ c ≠ '.' := by
  intro c u hu
  rcases e with _ | ⟨up, s, ds⟩
  · exact ⟨(hr c u hu).1, (hr c u hu).2.1⟩
  · simp only [expText, List.cons_append, List.cons.injEq] at hu
    cases up <;> simp at hu <;> obtain ⟨rfl, -⟩ := hu <;> decide

theorem parseFrac_ok {f : Option (List (Fin 10))} (hf : ∀ ds, f = some ds → ds ≠ [])
    (e : Option (Bool × Option Bool × List (Fin 10))) {r : Text} (hr : NumStop r) :
    parseFrac (fracText f ++ (expText e ++ r)) = some (f, expText e ++ r) := by
  have hx := expText_facts e hr
  cases f with
  | none =>
    simp only [fracText, List.nil_append]
    unfold parseFrac
    split
    · rename_i heq; exact absurd rfl (hx _ _ heq).2
    · rfl
  | some ds =>
    have hd := hf ds rfl
    have h := takeDigits_append ds (r := expText e ++ r) (fun c u hu => (hx c u hu).1)
    cases ds with
    | nil => exact absurd rfl hd
    | cons d ds => simp only [fracText, List.cons_append, parseFrac, h]

theorem parseInt_ok {ds : List (Fin 10)} (h : ds = [0] ∨ ∃ d ds', ds = d :: ds' ∧ d ≠ 0) {r : Text}
    (hr : NoDigit r) : parseInt (ds.map digitChar ++ r) = some (ds, r) := by
  rcases h with rfl | ⟨d, ds', rfl, hd⟩
  · rfl
  · have ht := takeDigits_append (d :: ds') hr
    have f := digitChar_facts d
    simp only [List.map_cons, List.cons_append] at ht ⊢
    unfold parseInt
    split
    · rename_i heq
      exact absurd (f.2.2.2.2.2.2.2.2.2.2.2.2.1 (List.cons.inj heq).1) hd
    · rw [ht]

theorem RawNum.Wf.int_cons {r : RawNum} (h : r.Wf) : ∃ d ds, r.int = d :: ds := by
  rcases h.int with h | ⟨d, ds, h, -⟩
  · exact ⟨0, [], h⟩
  · exact ⟨d, ds, h⟩

theorem parseNum_ok {x : RawNum} (h : x.Wf) {r : Text} (hr : NumStop r) :
    parseNum (x.text ++ r) = some (x, r) := by
  have hneg : parseNeg (x.text ++ r) = (x.neg, x.int.map digitChar ++ (fracText x.frac ++ (expText x.exp ++ r))) := by
    rw [RawNum.text_eq]
    obtain ⟨d, ds, hd⟩ := h.int_cons
    cases hn : x.neg
    · rw [hd]
      simp only [List.map_cons, List.cons_append, List.nil_append, List.append_assoc, Bool.false_eq_true, if_false]
      unfold parseNeg
      split
      · rename_i heq; exact absurd (List.cons.inj heq).1 (digitChar_facts d).1
      · rfl
    · simp [parseNeg]
  have hi : NoDigit (fracText x.frac ++ (expText x.exp ++ r)) := by
    intro c u hu
    cases hf : x.frac with
    | none => rw [hf] at hu; exact (expText_facts x.exp hr c u (by simpa [fracText] using hu)).1
    | some ds =>
      rw [hf] at hu
      simp only [fracText, List.cons_append, List.cons.injEq] at hu
      obtain ⟨rfl, -⟩ := hu
      decide
  unfold parseNum
  rw [hneg]
  simp only [parseInt_ok h.int hi, parseFrac_ok h.frac x.exp hr, parseExp_ok h.exp hr]

theorem RawNum.Wf.text_start {x : RawNum} (h : x.Wf) : ∃ c u, x.text = c :: u ∧
    c ≠ '"' ∧ c ≠ '[' ∧ c ≠ '{' ∧ c ≠ 'n' ∧ c ≠ 't' ∧ c ≠ 'f' ∧ wsChar c = false := by
  rw [RawNum.text_eq]
  obtain ⟨d, ds, hd⟩ := h.int_cons
  cases hn : x.neg
  · rw [hd]
    have f := digitChar_facts d
    exact ⟨_, _, by simp only [Bool.false_eq_true, if_false, List.map_cons, List.nil_append, List.cons_append, List.append_assoc]; rfl,
      f.2.2.2.2.2.1, f.2.2.2.2.2.2.1, f.2.2.2.2.2.2.2.1, f.2.2.2.2.2.2.2.2.1, f.2.2.2.2.2.2.2.2.2.1,
      f.2.2.2.2.2.2.2.2.2.2.1, f.2.2.2.2.2.2.2.2.2.2.2.1⟩
  · exact ⟨'-', _, by simp only [if_true, List.cons_append, List.append_assoc, List.nil_append]; rfl, by decide⟩

/-! soundness of numbers -/

theorem parseNeg_sound (t : Text) : t = (if (parseNeg t).1 then ['-'] else []) ++ (parseNeg t).2 := by
  unfold parseNeg; split <;> simp

theorem takeDigits_sound' {t u : Text} {ds : List (Fin 10)} (h : takeDigits t = (ds, u)) :
    t = ds.map digitChar ++ u := by
  have := takeDigits_sound t; rw [h] at this; exact this

theorem parseInt_sound {t u : Text} {ds : List (Fin 10)} (h : parseInt t = some (ds, u)) :
    t = ds.map digitChar ++ u ∧ (ds = [0] ∨ ∃ d ds', ds = d :: ds' ∧ d ≠ 0) := by
  unfold parseInt at h
  split at h
  · simp only [Option.some.injEq, Prod.mk.injEq] at h
    obtain ⟨rfl, rfl⟩ := h
    exact ⟨rfl, Or.inl rfl⟩
  · rename_i hne
    split at h
    · simp at h
    · rename_i ds' u' hd heq
      simp only [Option.some.injEq, Prod.mk.injEq] at h
      obtain ⟨rfl, rfl⟩ := h
      have ht := takeDigits_sound' heq
      refine ⟨ht, Or.inr ?_⟩
      cases ds' with
      | nil => exact (hd rfl).elim
      | cons d ds' =>
        refine ⟨d, ds', rfl, ?_⟩
        rintro rfl
        simp only [List.map_cons, List.cons_append] at ht
        exact hne _ ht

theorem parseFrac_sound {t u : Text} {f : Option (List (Fin 10))} (h : parseFrac t = some (f, u)) :
    t = fracText f ++ u ∧ ∀ ds, f = some ds → ds ≠ [] := by
  unfold parseFrac at h
  split at h
  · split at h
    · simp at h
    · rename_i t ds u' hd heq
      simp only [Option.some.injEq, Prod.mk.injEq] at h
      obtain ⟨rfl, rfl⟩ := h
      refine ⟨by rw [takeDigits_sound' heq]; simp [fracText], ?_⟩
      rintro ds' h
      obtain rfl := Option.some.inj h
      rintro rfl
      exact hd rfl
  · simp only [Option.some.injEq, Prod.mk.injEq] at h
    obtain ⟨rfl, rfl⟩ := h
    exact ⟨rfl, by simp⟩

theorem parseExpDigits_sound {up : Bool} {s : Option Bool} {t u : Text}
    {e : Option (Bool × Option Bool × List (Fin 10))} (h : parseExpDigits up s t = some (e, u)) :
    ∃ ds, e = some (up, s, ds) ∧ ds ≠ [] ∧ t = ds.map digitChar ++ u := by
  unfold parseExpDigits at h
  split at h
  · simp at h
  · rename_i ds u' hd heq
    simp only [Option.some.injEq, Prod.mk.injEq] at h
    obtain ⟨rfl, rfl⟩ := h
    exact ⟨ds, rfl, by rintro rfl; exact hd rfl, takeDigits_sound' heq⟩

theorem parseExpSign_sound {up : Bool} {t u : Text}
    {e : Option (Bool × Option Bool × List (Fin 10))} (h : parseExpSign up t = some (e, u)) :
    ((if up then 'E' else 'e') :: t) = expText e ++ u ∧ ∀ up s ds, e = some (up, s, ds) → ds ≠ [] := by
  unfold parseExpSign at h
  split at h <;> obtain ⟨ds, rfl, hd, rfl⟩ := parseExpDigits_sound h <;>
    refine ⟨by simp [expText], ?_⟩ <;>
    · intro _ _ _ he
      simp only [Option.some.injEq, Prod.mk.injEq] at he
      rw [← he.2.2]; exact hd

theorem parseExp_sound {t u : Text}
    {e : Option (Bool × Option Bool × List (Fin 10))} (h : parseExp t = some (e, u)) :
    t = expText e ++ u ∧ ∀ up s ds, e = some (up, s, ds) → ds ≠ [] := by
  unfold parseExp at h
  split at h
  · simpa using parseExpSign_sound h
  · simpa using parseExpSign_sound h
  · simp only [Option.some.injEq, Prod.mk.injEq] at h
    obtain ⟨rfl, rfl⟩ := h
    exact ⟨rfl, by simp⟩

theorem parseNum_sound {t u : Text} {x : RawNum} (h : parseNum t = some (x, u)) :
    t = x.text ++ u ∧ x.Wf := by
  unfold parseNum at h
  have hn := parseNeg_sound t
  generalize parseNeg t = p at h hn
  obtain ⟨neg, t₁⟩ := p
  simp only at h hn
  split at h
  · simp at h
  · rename_i int t₂ hi
    split at h
    · simp at h
    · rename_i frac t₃ hf
      split at h
      · simp at h
      · rename_i exp t₄ he
        simp only [Option.some.injEq, Prod.mk.injEq] at h
        obtain ⟨rfl, rfl⟩ := h
        have hi' := parseInt_sound hi
        have hf' := parseFrac_sound hf
        have he' := parseExp_sound he
        refine ⟨?_, ⟨hi'.2, hf'.2, he'.2⟩⟩
        rw [RawNum.text_eq, hn, hi'.1, hf'.1, he'.1]
        simp [List.append_assoc]

/-! ### Strings -/

theorem parseStr_ok {is : List StrItem} {t : Text} (h : StrText is t) (r : Text) :
    parseStr (t ++ '"' :: r) = some (is, r) := by
  induction h with
  | nil => rw [List.nil_append, parseStr.eq_def]; simp
  | plain h1 h2 h3 _ ih => rw [List.cons_append, parseStr.eq_def]; simp [h1, h2, Nat.not_lt.2 h3, ih]
  | @esc e c is t h1 _ ih =>
    have hu : e ≠ 'u' := by rintro rfl; simp [simpleEsc] at h1
    rw [List.cons_append, parseStr.eq_def]; simp [hu, h1, ih]
  | uni h1 _ ih => rw [List.cons_append, parseStr.eq_def]; simp [h1, ih]

theorem parseStr_sound {t r : Text} {is : List StrItem} (h : parseStr t = some (is, r)) :
    ∃ u, StrText is u ∧ t = u ++ '"' :: r := by
  fun_induction parseStr t generalizing is r <;> simp_all
  case case2 => exact .nil
  case case4 ih =>
    obtain ⟨u', hu, rfl⟩ := ih
    obtain ⟨rfl, rfl⟩ := h
    exact ⟨_, .uni (by assumption) hu, rfl⟩
  case case7 ih =>
    obtain ⟨u', hu, rfl⟩ := ih
    obtain ⟨rfl, rfl⟩ := h
    exact ⟨_, .esc (by assumption) hu, rfl⟩
  case case10 ih =>
    obtain ⟨u', hu, rfl⟩ := ih
    obtain ⟨rfl, rfl⟩ := h
    exact ⟨_, .plain (by assumption) (by assumption) (by assumption) hu, rfl⟩

/-! ### Values -/

theorem numStop_ws {w r : Text} (hw : IsWs w) (hr : NumStop r) : NumStop (w ++ r) := by
  cases w with
  | nil => exact hr
  | cons c w =>
    intro c' u h
    simp only [List.cons_append, List.cons.injEq] at h
    obtain ⟨rfl, -⟩ := h
    have := hw c (by simp)
    simp only [wsChar, Bool.or_eq_true, beq_iff_eq] at this
    rcases this with ((rfl | rfl) | rfl) | rfl <;> decide

theorem numStop_cons {c : Char} (h : charDigit c = none ∧ c ≠ '.' ∧ c ≠ 'e' ∧ c ≠ 'E') (r : Text) :
    NumStop (c :: r) := by
  intro c' u hc
  obtain ⟨rfl, -⟩ := List.cons.inj hc
  exact h

theorem value_start {v : JVal} {t : Text} (h : Value v t) :
    ∃ c u, t = c :: u ∧ wsChar c = false ∧ c ≠ ']' ∧ c ≠ '}' := by
  cases h with
  | null => exact ⟨_, _, rfl, by decide⟩
  | true_ => exact ⟨_, _, rfl, by decide⟩
  | false_ => exact ⟨_, _, rfl, by decide⟩
  | @num r h =>
    rw [RawNum.text_eq]
    obtain ⟨d, ds, hd⟩ := h.int_cons
    cases hn : r.neg
    · rw [hd]
      refine ⟨digitChar d, _, by simp only [Bool.false_eq_true, if_false, List.map_cons, List.nil_append,
        List.cons_append, List.append_assoc]; rfl, ?_⟩
      clear hd; revert d; decide
    · exact ⟨'-', _, by simp only [if_true, List.cons_append, List.append_assoc, List.nil_append]; rfl, by decide⟩
  | str h => obtain ⟨_, _, _, _, rfl⟩ := h; exact ⟨_, _, rfl, by decide⟩
  | arrNil => exact ⟨_, _, rfl, by decide⟩
  | arr => exact ⟨_, _, rfl, by decide⟩
  | objNil => exact ⟨_, _, rfl, by decide⟩
  | obj => exact ⟨_, _, rfl, by decide⟩

theorem skipWs_value {v : JVal} {t : Text} (h : Value v t) {w : Text} (hw : IsWs w) (r : Text) :
    skipWs (w ++ (t ++ r)) = t ++ r := by
  obtain ⟨c, u, rfl, hc, -⟩ := value_start h
  rw [skipWs_append hw, List.cons_append, skipWs_cons hc]

theorem skipWs_str {k t : Text} (h : Str k t) {w : Text} (hw : IsWs w) (r : Text) :
    skipWs (w ++ (t ++ r)) = t ++ r := skipWs_value (.str h) hw r

theorem elems_start {vs : List JVal} {t : Text} (h : Elems vs t) (r r' : Text) :
    skipWs (t ++ r) ≠ ']' :: r' := by
  cases h with
  | one hw hv hw' =>
    obtain ⟨c, u, hu, hc, hb, -⟩ := value_start hv
    rw [List.append_assoc, List.append_assoc, skipWs_value hv hw, hu]
    simp [hb]
  | cons hw hv hw' =>
    obtain ⟨c, u, hu, hc, hb, -⟩ := value_start hv
    rw [List.append_assoc, List.append_assoc, skipWs_value hv hw, hu]
    simp [hb]

theorem members_start {ms : List (Text × JVal)} {t : Text} (h : Members ms t) (r r' : Text) :
    skipWs (t ++ r) ≠ '}' :: r' := by
  cases h with
  | one hw hk _ _ hv hw' =>
    rw [List.append_assoc, List.append_assoc, skipWs_str hk hw]
    obtain ⟨_, _, _, _, rfl⟩ := hk
    simp
  | cons hw hk _ _ hv hw' =>
    rw [List.append_assoc, List.append_assoc, skipWs_str hk hw]
    obtain ⟨_, _, _, _, rfl⟩ := hk
    simp

theorem parseValue_num {x : RawNum} (h : x.Wf) {r : Text} (hr : NumStop r) (n : Nat) :
    parseValue (n + 1) (x.text ++ r) = some (.num x.lit, r) := by
  have hp := parseNum_ok h hr
  obtain ⟨c, u, hc, h1, h2, h3, h4, h5, h6, -⟩ := h.text_start
  rw [hc] at hp ⊢
  rw [parseValue.eq_def]
  simp only [List.cons_append] at hp ⊢
  split
  · rename_i heq; exact absurd (List.cons.inj heq).1 h4
  · rename_i heq; exact absurd (List.cons.inj heq).1 h5
  · rename_i heq; exact absurd (List.cons.inj heq).1 h6
  · rename_i heq; exact absurd (List.cons.inj heq).1 h1
  · rename_i heq; exact absurd (List.cons.inj heq).1 h2
  · rename_i heq; exact absurd (List.cons.inj heq).1 h3
  · rw [hp]

mutual
theorem value_ok {v : JVal} {t : Text} (h : Value v t) (n : Nat) (r : Text) (hn : t.length ≤ n)
    (hr : NumStop r) : parseValue (n + 1) (t ++ r) = some (v, r) := by
  match h with
  | .null => rfl
  | .true_ => rfl
  | .false_ => rfl
  | .num h => exact parseValue_num h hr n
  | .str h =>
    obtain ⟨is, u, hu, rfl, rfl⟩ := h
    have := parseStr_ok hu r
    rw [parseValue.eq_def]
    simp [this]
  | .arrNil (w := w) hw =>
    have : skipWs (w ++ (']' :: r)) = ']' :: r := by rw [skipWs_append hw]; rfl
    rw [parseValue.eq_def]
    simp [this]
  | .arr (t := t) he =>
    have hs := elems_start he (']' :: r)
    have := elems_ok he n r (by simpa using hn)
    rw [parseValue.eq_def]
    simp only [List.cons_append, List.append_assoc, List.nil_append]
    simp only [this]
  | .objNil (w := w) hw =>
    have : skipWs (w ++ ('}' :: r)) = '}' :: r := by rw [skipWs_append hw]; rfl
    rw [parseValue.eq_def]
    simp [this]
  | .obj (t := t) he =>
    have hs := members_start he ('}' :: r)
    have := members_ok he n r (by simpa using hn)
    rw [parseValue.eq_def]
    simp only [List.cons_append, List.append_assoc, List.nil_append]
    simp only [this]
theorem elems_ok {vs : List JVal} {t : Text} (h : Elems vs t) (n : Nat) (r : Text)
    (hn : t.length + 2 ≤ n) : parseElems n (t ++ ']' :: r) = some (vs, r) := by
  match h with
  | .one (w := w) (t := t) (w' := w') hw hv hw' =>
    obtain ⟨n, rfl⟩ : ∃ m, n = m + 1 + 1 := ⟨n - 2, by omega⟩
    have h1 := value_ok hv n (w' ++ ']' :: r) (by simp at hn; omega)
      (numStop_ws hw' (numStop_cons (by decide) r))
    have h2 : skipWs (w' ++ ']' :: r) = ']' :: r := by rw [skipWs_append hw']; rfl
    rw [parseElems.eq_def]
    simp only [List.append_assoc, skipWs_value hv hw, h1, h2]
  | .cons (w := w) (t := t) (w' := w') (u := u) hw hv hw' he =>
    obtain ⟨n, rfl⟩ : ∃ m, n = m + 1 + 1 := ⟨n - 2, by omega⟩
    have h1 := value_ok hv n (w' ++ ',' :: (u ++ ']' :: r)) (by simp at hn; omega)
      (numStop_ws hw' (numStop_cons (by decide) _))
    have h2 : skipWs (w' ++ ',' :: (u ++ ']' :: r)) = ',' :: (u ++ ']' :: r) := by
      rw [skipWs_append hw']; rfl
    have h3 := elems_ok he (n + 1) r (by simp at hn; omega)
    rw [parseElems.eq_def]
    simp only [List.append_assoc, List.cons_append, skipWs_value hv hw, h1, h2, h3]
theorem members_ok {ms : List (Text × JVal)} {t : Text} (h : Members ms t) (n : Nat) (r : Text)
    (hn : t.length + 2 ≤ n) : parseMembers n (t ++ '}' :: r) = some (ms, r) := by
  match h with
  | .one (w := w) (t := t) (w' := w') (w₁ := w₁) (w₂ := w₂) hw hk hw₁ hw₂ hv hw' =>
    obtain ⟨n, rfl⟩ : ∃ m, n = m + 1 + 1 := ⟨n - 2, by omega⟩
    have h1 := value_ok hv n (w' ++ '}' :: r) (by simp at hn; omega)
      (numStop_ws hw' (numStop_cons (by decide) r))
    have h2 : skipWs (w' ++ '}' :: r) = '}' :: r := by rw [skipWs_append hw']; rfl
    have h0 := skipWs_str hk hw (w₁ ++ ':' :: (w₂ ++ (t ++ (w' ++ '}' :: r))))
    obtain ⟨is, u, hu, rfl, rfl⟩ := hk
    have h3 := parseStr_ok hu (w₁ ++ ':' :: (w₂ ++ (t ++ (w' ++ '}' :: r))))
    have h4 : skipWs (w₁ ++ ':' :: (w₂ ++ (t ++ (w' ++ '}' :: r)))) = ':' :: (w₂ ++ (t ++ (w' ++ '}' :: r))) := by
      rw [skipWs_append hw₁]; rfl
    rw [parseMembers.eq_def]
    simp only [List.append_assoc, List.cons_append, List.nil_append] at h0 ⊢
    simp only [h0, h3, h4, skipWs_value hv hw₂, h1, h2]
  | .cons (ms := ms') (w := w) (t := t) (w' := w') (w₁ := w₁) (w₂ := w₂) (u := u') hw hk hw₁ hw₂ hv hw' he =>
    obtain ⟨n, rfl⟩ : ∃ m, n = m + 1 + 1 := ⟨n - 2, by omega⟩
    have h1 := value_ok hv n (w' ++ ',' :: (u' ++ '}' :: r)) (by simp at hn; omega)
      (numStop_ws hw' (numStop_cons (by decide) _))
    have h2 : skipWs (w' ++ ',' :: (u' ++ '}' :: r)) = ',' :: (u' ++ '}' :: r) := by
      rw [skipWs_append hw']; rfl
    have h0 := skipWs_str hk hw (w₁ ++ ':' :: (w₂ ++ (t ++ (w' ++ ',' :: (u' ++ '}' :: r)))))
    have h5 := members_ok he (n + 1) r (by simp at hn; omega)
    obtain ⟨is, u, hu, rfl, rfl⟩ := hk
    have h3 := parseStr_ok hu (w₁ ++ ':' :: (w₂ ++ (t ++ (w' ++ ',' :: (u' ++ '}' :: r)))))
    have h4 : skipWs (w₁ ++ ':' :: (w₂ ++ (t ++ (w' ++ ',' :: (u' ++ '}' :: r))))) =
        ':' :: (w₂ ++ (t ++ (w' ++ ',' :: (u' ++ '}' :: r)))) := by
      rw [skipWs_append hw₁]; rfl
    rw [parseMembers.eq_def]
    simp only [List.append_assoc, List.cons_append, List.nil_append] at h0 ⊢
    simp only [h0, h3, h4, skipWs_value hv hw₂, h1, h2, h5]
end

mutual
theorem value_sound : ∀ (n : Nat) {t : Text} {v : JVal} {r : Text}, parseValue n t = some (v, r) →
    ∃ u, Value v u ∧ t = u ++ r
  | 0, t, v, r, h => by simp [parseValue] at h
  | n + 1, t, v, r, h => by
    rw [parseValue.eq_def] at h
    simp only at h
    split at h
    · simp only [Option.some.injEq, Prod.mk.injEq] at h
      obtain ⟨rfl, rfl⟩ := h; exact ⟨_, .null, rfl⟩
    · simp only [Option.some.injEq, Prod.mk.injEq] at h
      obtain ⟨rfl, rfl⟩ := h; exact ⟨_, .true_, rfl⟩
    · simp only [Option.some.injEq, Prod.mk.injEq] at h
      obtain ⟨rfl, rfl⟩ := h; exact ⟨_, .false_, rfl⟩
    · rename_i u
      split at h
      · rename_i is r' hp
        simp only [Option.some.injEq, Prod.mk.injEq] at h
        obtain ⟨rfl, rfl⟩ := h
        obtain ⟨u', hu, rfl⟩ := parseStr_sound hp
        exact ⟨_, .str ⟨is, u', hu, rfl, rfl⟩, by simp⟩
      · simp at h
    · rename_i u
      obtain ⟨w, hw, hu⟩ := skipWs_split u
      split at h
      · rename_i r' hs
        simp only [Option.some.injEq, Prod.mk.injEq] at h
        obtain ⟨rfl, rfl⟩ := h
        exact ⟨_, .arrNil hw, by rw [hu, hs]; simp⟩
      · split at h
        · rename_i vs r' hp
          simp only [Option.some.injEq, Prod.mk.injEq] at h
          obtain ⟨rfl, rfl⟩ := h
          obtain ⟨u', he, rfl⟩ := elems_sound n hp
          exact ⟨_, .arr he, by simp⟩
        · simp at h
    · rename_i u
      obtain ⟨w, hw, hu⟩ := skipWs_split u
      split at h
      · rename_i r' hs
        simp only [Option.some.injEq, Prod.mk.injEq] at h
        obtain ⟨rfl, rfl⟩ := h
        exact ⟨_, .objNil hw, by rw [hu, hs]; simp⟩
      · split at h
        · rename_i vs r' hp
          simp only [Option.some.injEq, Prod.mk.injEq] at h
          obtain ⟨rfl, rfl⟩ := h
          obtain ⟨u', he, rfl⟩ := members_sound n hp
          exact ⟨_, .obj he, by simp⟩
        · simp at h
    · split at h
      · rename_i x u hp
        simp only [Option.some.injEq, Prod.mk.injEq] at h
        obtain ⟨rfl, rfl⟩ := h
        obtain ⟨h1, h2⟩ := parseNum_sound hp
        exact ⟨_, .num h2, h1⟩
      · simp at h
theorem elems_sound : ∀ (n : Nat) {t : Text} {vs : List JVal} {r : Text}, parseElems n t = some (vs, r) →
    ∃ u, Elems vs u ∧ t = u ++ ']' :: r
  | 0, t, v, r, h => by simp [parseElems] at h
  | n + 1, t, v, r, h => by
    rw [parseElems.eq_def] at h
    simp only at h
    split at h
    · simp at h
    · rename_i v' u hp
      obtain ⟨w, hw, ht⟩ := skipWs_split t
      obtain ⟨u', hv, hu⟩ := value_sound n hp
      obtain ⟨w', hw', ht'⟩ := skipWs_split u
      split at h
      · rename_i r' hs
        simp only [Option.some.injEq, Prod.mk.injEq] at h
        obtain ⟨rfl, rfl⟩ := h
        exact ⟨_, .one hw hv hw', by rw [ht, hu, ht', hs]; simp⟩
      · rename_i r' hs
        split at h
        · rename_i vs r'' hp'
          simp only [Option.some.injEq, Prod.mk.injEq] at h
          obtain ⟨rfl, rfl⟩ := h
          obtain ⟨u'', he, rfl⟩ := elems_sound n hp'
          exact ⟨_, .cons hw hv hw' he, by rw [ht, hu, ht', hs]; simp⟩
        · simp at h
      · simp at h
theorem members_sound : ∀ (n : Nat) {t : Text} {ms : List (Text × JVal)} {r : Text}, parseMembers n t = some (ms, r) →
    ∃ u, Members ms u ∧ t = u ++ '}' :: r
  | 0, t, v, r, h => by simp [parseMembers] at h
  | n + 1, t, v, r, h => by
    rw [parseMembers.eq_def] at h
    simp only at h
    split at h
    · rename_i t₁ h₁
      obtain ⟨w, hw, ht⟩ := skipWs_split t
      split at h
      · simp at h
      · rename_i is t₂ hk
        obtain ⟨k, hk', rfl⟩ := parseStr_sound hk
        obtain ⟨w₁, hw₁, ht₂⟩ := skipWs_split t₂
        split at h
        · rename_i t₃ h₃
          obtain ⟨w₂, hw₂, ht₃⟩ := skipWs_split t₃
          split at h
          · simp at h
          · rename_i v' u hp
            obtain ⟨u', hv, hu⟩ := value_sound n hp
            obtain ⟨w', hw', ht'⟩ := skipWs_split u
            split at h
            · rename_i r' hs
              simp only [Option.some.injEq, Prod.mk.injEq] at h
              obtain ⟨rfl, rfl⟩ := h
              exact ⟨_, .one hw ⟨is, k, hk', rfl, rfl⟩ hw₁ hw₂ hv hw', by
                rw [ht, h₁, ht₂, h₃, ht₃, hu, ht', hs]; simp⟩
            · rename_i r' hs
              split at h
              · rename_i vs r'' hp'
                simp only [Option.some.injEq, Prod.mk.injEq] at h
                obtain ⟨rfl, rfl⟩ := h
                obtain ⟨u'', he, rfl⟩ := members_sound n hp'
                exact ⟨_, .cons hw ⟨is, k, hk', rfl, rfl⟩ hw₁ hw₂ hv hw' he, by
                  rw [ht, h₁, ht₂, h₃, ht₃, hu, ht', hs]; simp⟩
              · simp at h
            · simp at h
        · simp at h
    · simp at h
end

theorem numStop_nil : NumStop [] := fun c u h => by simp at h

/-- The parser accepts exactly the JSON texts, with the right value. -/
theorem parse_iff (t : Text) (v : JVal) : parse t = some v ↔ JsonText v t := by
  unfold parse
  constructor
  · intro h
    split at h
    · rename_i v' u hp
      split at h
      · rename_i hs
        obtain rfl := Option.some.inj h
        obtain ⟨w, hw, ht⟩ := skipWs_split t
        obtain ⟨u', hv, hu⟩ := value_sound _ hp
        obtain ⟨w', hw', ht'⟩ := skipWs_split u
        exact ⟨w, u', w', hw, hv, hw', by rw [ht, hu, ht', hs]; simp⟩
      · simp at h
    · simp at h
  · rintro ⟨w, u, w', hw, hv, hw', rfl⟩
    have := value_ok hv (w ++ (u ++ w')).length w' (by simp; omega)
      (by simpa using numStop_ws hw' numStop_nil)
    rw [skipWs_value hv hw, this]
    simp [skipWs_ws hw']

theorem jsonText_unique {t : Text} {v v' : JVal} (h : JsonText v t) (h' : JsonText v' t) : v = v' := by
  rw [← parse_iff] at h h'
  exact Option.some.inj (h.symm.trans h')

theorem Value.jsonText {v : JVal} {t : Text} (h : Value v t) : JsonText v t :=
  ⟨[], t, [], isWs_nil, h, isWs_nil, by simp⟩

end Verif.Json
