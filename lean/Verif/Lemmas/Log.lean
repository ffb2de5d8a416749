import Verif.Model.Log
/-!
# Formatting a text as a format without arguments
-/
namespace Verif.Log

theorem number_suffix (n : Nat) (f : Bool) (t : Text) : (number n f t).2 <:+ t := by
  induction t generalizing n f with
  | nil => exact List.suffix_refl _
  | cons c cs ih =>
    rw [number]
    split
    · split
      · exact List.nil_suffix
      · exact (ih _ _).trans (List.suffix_cons _ _)
    · exact List.suffix_refl _

theorem argIndex_suffix (g : Bool) (t : Text) : (argIndex g t).2.2 <:+ t := by
  unfold argIndex
  split
  · rename_i cs
    split
    · exact List.suffix_cons _ _
    · rename_i c rest h
      split
      · exact List.suffix_cons _ _
      · have : rest <:+ cs := (List.suffix_cons c rest).trans (h ▸ List.dropWhile_suffix _)
        exact this.trans (List.suffix_cons _ _)
  · exact List.suffix_refl _

theorem width_suffix (a : Bool) (t : Text) : (width a t).2.2 <:+ t := by
  unfold width
  split
  · exact List.suffix_cons _ _
  · exact number_suffix _ _ _

theorem precision_suffix (g a : Bool) (t : Text) : (precision g a t).2.2.2 <:+ t := by
  unfold precision
  split
  · rename_i r
    split
    · rename_i r' h
      exact (List.suffix_cons _ _).trans ((h ▸ argIndex_suffix g r : _ <:+ r).trans (List.suffix_cons _ _))
    · exact (number_suffix _ _ _).trans ((argIndex_suffix g r).trans (List.suffix_cons _ _))
  · exact List.suffix_refl _

theorem width_out (a : Bool) (t : Text) : (width a t).1 = [] ∨ (width a t).1 = "%!(BADWIDTH)".toList := by
  unfold width
  split
  · exact .inr rfl
  · exact .inl rfl

theorem precision_out (g a : Bool) (t : Text) : (precision g a t).1 = [] ∨ (precision g a t).1 = "%!(BADPREC)".toList := by
  unfold precision
  split
  · split
    · exact .inr rfl
    · exact .inl rfl
  · exact .inl rfl

/-- A text in which every percent sign is followed by an exclamation mark. -/
def Marked (t : Text) : Prop := ∀ a b, t = a ++ '%' :: b → ∃ c, b = '!' :: c

theorem Marked.nil : Marked [] := fun a b h => by simp at h

theorem Marked.mark {t : Text} (h : '%' ∉ t) : Marked ('%' :: '!' :: t) := by
  intro a b e
  match a with
  | [] => cases e; exact ⟨_, rfl⟩
  | [x] => simp at e
  | x :: y :: a =>
    simp only [List.cons_append, List.cons.injEq] at e
    exact absurd (e.2.2 ▸ by simp : '%' ∈ t) h

theorem Marked.append {s t : Text} (hs : Marked s) (ht : Marked t) : Marked (s ++ t) := by
  intro a b e
  rcases List.append_eq_append_iff.1 e with ⟨z, e1, e2⟩ | ⟨z, e1, e2⟩
  · exact ht z b e2
  · match z with
    | [] => exact ht [] b (by simpa using e2.symm)
    | x :: z =>
      simp only [List.cons_append, List.cons.injEq] at e2
      obtain ⟨c, hc⟩ := hs a z (by rw [e1, ← e2.1])
      exact ⟨c ++ t, by rw [e2.2, hc]; rfl⟩

/-- What is printed for a verb. -/
theorem verb_form (g : Bool) (t : Text) :
    (∃ r, t = '%' :: r ∧ verb g t = (['%'], r)) ∨
    (verb g t).2 <:+ t ∧ ((verb g t).2 = t → t = []) ∧ ∃ w, (verb g t).1 = '%' :: '!' :: w ∧ '%' ∉ w := by
  unfold verb
  split
  · exact .inr ⟨List.suffix_refl _, fun _ => rfl, _, rfl, (by decide)⟩
  · exact .inl ⟨_, rfl, rfl⟩
  · rename_i v r hv
    refine .inr ⟨List.suffix_cons _ _, fun h => by simpa using congrArg List.length h, _, rfl, ?_⟩
    intro h
    rcases List.mem_cons.1 h with h | h
    · first | exact hv h.symm | exact hv r (by rw [← h])
    · split at h <;> revert h <;> decide

/-- The shape of a directive: what is printed for it has marks only, or a percent sign at the end that is also in the directive. -/
theorem directive_form (t : Text) : ∃ dir, t = dir ++ (directive t).2 ∧ (dir = [] → t = []) ∧
    ((∃ m, (directive t).1 = m ++ ['%'] ∧ Marked m ∧ '%' ∈ dir) ∨ ((directive t).1 ≠ [] ∧ Marked (directive t).1)) := by
  have h0 : t.dropWhile isFlag <:+ t := List.dropWhile_suffix _
  have h1 := argIndex_suffix true (t.dropWhile isFlag)
  have hm1 : ∀ w : Text, w = [] ∨ w = "%!(BADWIDTH)".toList → Marked w := by
    rintro w (rfl | rfl)
    · exact .nil
    · exact .mark (t := "(BADWIDTH)".toList) (by decide)
  have hm2 : ∀ w : Text, w = [] ∨ w = "%!(BADPREC)".toList → Marked w := by
    rintro w (rfl | rfl)
    · exact .nil
    · exact .mark (t := "(BADPREC)".toList) (by decide)
  generalize hi : argIndex true (t.dropWhile isFlag) = i at h1
  have h2 := width_suffix i.2.1 i.2.2
  have o2 := hm1 _ (width_out i.2.1 i.2.2)
  generalize hw : width i.2.1 i.2.2 = w at h2 o2
  have h3 := precision_suffix i.1 w.2.1 w.2.2
  have o3 := hm2 _ (precision_out i.1 w.2.1 w.2.2)
  generalize hp : precision i.1 w.2.1 w.2.2 = p at h3 o3
  have h4 : (if p.2.2.1 then (p.2.1, true, p.2.2.2) else argIndex p.2.1 p.2.2.2).2.2 <:+ p.2.2.2 := by
    split
    · exact List.suffix_refl _
    · exact argIndex_suffix _ _
  generalize hj : (if p.2.2.1 then (p.2.1, true, p.2.2.2) else argIndex p.2.1 p.2.2.2) = j at h4
  have hs : j.2.2 <:+ t := h4.trans (h3.trans (h2.trans (h1.trans h0)))
  have hd : directive t = (w.1 ++ p.1 ++ (verb j.1 j.2.2).1, (verb j.1 j.2.2).2) := by
    simp only [directive, hi, hw, hp, hj]
  rw [hd]
  rcases verb_form j.1 j.2.2 with ⟨r, er, ev⟩ | ⟨hr, hnil, x, ex, hx⟩
  · obtain ⟨d, ed⟩ := hs
    refine ⟨d ++ ['%'], ?_, (fun h => by simp at h), .inl ⟨w.1 ++ p.1, ?_, o2.append o3, by simp⟩⟩
    · rw [ev, ← ed, er]; simp
    · rw [ev]
  · obtain ⟨d, ed⟩ := hr.trans hs
    refine ⟨d, ed.symm, ?_, .inr ⟨?_, ?_⟩⟩
    · rintro rfl
      have e1 : (verb j.1 j.2.2).2 = t := by simpa using ed
      have l1 := hr.length_le
      have l2 := hs.length_le
      rw [e1] at l1
      have e2 : j.2.2 = t := hs.eq_of_length (by omega)
      rw [← e2]
      exact hnil (by rw [e1, e2])
    · rw [ex]; simp
    · exact (o2.append o3).append (ex ▸ Marked.mark hx)

theorem directive_le (t : Text) : (directive t).2.length ≤ t.length := by
  obtain ⟨d, e, -, -⟩ := directive_form t
  calc _ ≤ (d ++ (directive t).2).length := by simp
    _ = _ := by rw [← e]

theorem directive_bang (r : Text) : directive ('!' :: r) = ("%!!(MISSING)".toList, r) := by
  have h0 : ('!' :: r).dropWhile isFlag = '!' :: r := by rw [List.dropWhile_cons]; rfl
  have h1 : argIndex true ('!' :: r) = (true, false, '!' :: r) := rfl
  have h2 : width false ('!' :: r) = ([], false, '!' :: r) := rfl
  have h3 : precision true false ('!' :: r) = ([], true, false, '!' :: r) := rfl
  have h4 : verb true ('!' :: r) = ("%!!(MISSING)".toList, r) := rfl
  simp only [directive, h0, h1, h2, h3, Bool.false_eq_true, if_false, h4, List.nil_append]

/-- Something is printed for a directive, and it begins with a percent sign. -/
theorem directive_head (t : Text) : ∃ o, (directive t).1 = '%' :: o := by
  have key : ∀ (a b c : Text), (a = [] ∨ a = "%!(BADWIDTH)".toList) → (b = [] ∨ b = "%!(BADPREC)".toList) → (∃ x, c = '%' :: x) →
      ∃ o, a ++ b ++ c = '%' :: o := by
    rintro a b c (rfl | rfl) (rfl | rfl) ⟨x, rfl⟩
    · exact ⟨_, rfl⟩
    · exact ⟨_, rfl⟩
    · exact ⟨_, rfl⟩
    · exact ⟨_, rfl⟩
  refine key _ _ _ (width_out _ _) (precision_out _ _ _) ?_
  rcases verb_form _ _ with ⟨r, -, ev⟩ | ⟨-, -, x, ex, -⟩
  · exact ⟨[], by rw [ev]⟩
  · exact ⟨_, ex⟩

theorem sprintfGo_fuel (n m : Nat) (t : Text) (hn : t.length ≤ n) (hm : t.length ≤ m) : sprintfGo n t = sprintfGo m t := by
  induction n generalizing m t with
  | zero =>
    obtain rfl : t = [] := List.length_eq_zero_iff.1 (by omega)
    cases m <;> rfl
  | succ n ih =>
    cases t with
    | nil => cases m <;> rfl
    | cons c cs =>
      cases m with
      | zero => simp at hm
      | succ m =>
        simp only [List.length_cons] at hn hm
        have := directive_le cs
        simp only [sprintfGo]
        split
        · rw [ih m _ (by omega) (by omega)]
        · rw [ih m _ (by omega) (by omega)]

theorem sprintf_nil : sprintf [] = [] := rfl

theorem sprintf_percent (t : Text) : sprintf ('%' :: t) = (directive t).1 ++ sprintf (directive t).2 := by
  rw [sprintf, List.length_cons, sprintfGo, if_pos rfl, sprintf, sprintfGo_fuel _ _ _ (directive_le t) (Nat.le_refl _)]

theorem sprintf_cons {c : Char} (h : c ≠ '%') (t : Text) : sprintf (c :: t) = c :: sprintf t := by
  rw [sprintf, List.length_cons, sprintfGo, if_neg h]; rfl

theorem sprintf_append {l : Text} (h : '%' ∉ l) (t : Text) : sprintf (l ++ t) = l ++ sprintf t := by
  induction l with
  | nil => rfl
  | cons c l ih =>
    rw [List.cons_append, sprintf_cons (by rintro rfl; simp at h), ih (by intro h'; exact h (by simp [h']))]
    rfl

theorem sprintf_plain {t : Text} (h : '%' ∉ t) : sprintf t = t := by
  simpa [sprintf_nil] using sprintf_append h []

theorem sprintf_bang (t : Text) : sprintf ('%' :: '!' :: t) = "%!!(MISSING)".toList ++ sprintf t := by
  rw [sprintf_percent, directive_bang]

/-- The first percent sign. -/
theorem first_percent {t : Text} (h : '%' ∈ t) : ∃ l v, t = l ++ '%' :: v ∧ '%' ∉ l := by
  induction t with
  | nil => simp at h
  | cons c t ih =>
    by_cases hc : c = '%'
    · exact ⟨[], t, by rw [hc]; rfl, by simp⟩
    · have : '%' ∈ t := by
        rcases List.mem_cons.1 h with h | h
        · exact absurd h.symm hc
        · exact h
      obtain ⟨l, v, e, hl⟩ := ih this
      refine ⟨c :: l, v, by rw [e]; rfl, ?_⟩
      intro hm
      rcases List.mem_cons.1 hm with h' | h'
      · exact hc h'.symm
      · exact hl h'

theorem not_missing (n : Nat) : ∀ z : Text, z.length ≤ n → z ≠ "!(MISSING)".toList ++ sprintf z := by
  induction n with
  | zero =>
    intro z hz e
    obtain rfl : z = [] := List.length_eq_zero_iff.1 (by omega)
    revert e; decide
  | succ n ih =>
    intro z hz e
    have e' := e
    rw [e, sprintf_append (by decide)] at e'
    have e2 := List.append_cancel_left e'
    refine ih (sprintf z) ?_ e2
    have := congrArg List.length e
    rw [List.length_append] at this
    have h10 : ("!(MISSING)".toList).length = 10 := by decide
    omega

/-- A text does not come out behind a percent sign. -/
theorem not_behind (n : Nat) : ∀ w : Text, w.length ≤ n → ∀ x y : Text, sprintf w ≠ x ++ '%' :: (y ++ w) := by
  induction n with
  | zero =>
    intro w hw x y e
    obtain rfl : w = [] := List.length_eq_zero_iff.1 (by omega)
    simp [sprintf_nil] at e
  | succ n ih =>
    intro w hw x y e
    by_cases hp : '%' ∈ w
    · obtain ⟨l, v, rfl, hl⟩ := first_percent hp
      obtain ⟨dir, ev, hnil, form⟩ := directive_form v
      have hlen : (directive v).2.length ≤ n := by
        have := directive_le v
        simp only [List.length_append, List.length_cons] at hw
        omega
      have hbang : ∀ c, dir = '!' :: c → Marked (directive v).1 ∧ ∀ a b, l ++ (directive v).1 = a ++ '%' :: b → '%' ∉ a := by
        intro c hc
        have : directive v = ("%!!(MISSING)".toList, c ++ (directive v).2) := by
          have : v = '!' :: (c ++ (directive v).2) := by rw [← List.cons_append, ← hc, ← ev]
          conv => lhs; rw [this, directive_bang]
        rw [this]
        refine ⟨.mark (t := "!(MISSING)".toList) (by decide), ?_⟩
        intro a b e ha
        have h1 : (l ++ "%!!(MISSING)".toList).count '%' = 1 := by
          rw [List.count_append, List.count_eq_zero.2 hl]; decide
        have h2 := congrArg (List.count '%') e
        rw [h1, List.count_append, List.count_cons_self] at h2
        have := List.count_pos_iff.2 ha
        omega
      rw [sprintf_append hl, sprintf_percent] at e
      generalize hd : directive v = d at *
      have fin : ∀ d1 r, l ++ d.1 = x ++ '%' :: (y ++ l ++ '%' :: d1) → (dir = d1 ++ r ∧ '%' ∉ r ∨ d1 = dir ++ r) → False := by
        intro d1 r e1 hr
        have e1' : l ++ d.1 = (x ++ '%' :: (y ++ l)) ++ '%' :: d1 := by rw [e1]; simp
        have hnb : ∀ c, dir ≠ '!' :: c := fun c hc => (hbang c hc).2 _ _ e1' (by simp)
        -- the second percent sign is in what is printed
        have e2 : ∃ a, d.1 = a ++ '%' :: d1 := by
          rcases List.append_eq_append_iff.1 e1' with ⟨z, -, e3⟩ | ⟨z, e3, e4⟩
          · exact ⟨z, e3⟩
          · match z with
            | [] => exact ⟨[], by simpa using e4.symm⟩
            | q :: z =>
              exfalso
              exact hl (by rw [e3]; simp)
        obtain ⟨a, e2⟩ := e2
        have start : (∃ c, d1 = '!' :: c) ∨ d1 = [] ∧ '%' ∈ dir := by
          rcases form with ⟨m, em, hm, hdir⟩ | ⟨-, hm⟩
          · rw [em] at e2
            rcases List.append_eq_append_iff.1 e2 with ⟨z, e3, e4⟩ | ⟨z, e3, e4⟩
            · match z with
              | [] => right; simp at e4; exact ⟨e4, hdir⟩
              | q :: z => simp at e4
            · match z with
              | [] => right; simp at e4; exact ⟨e4, hdir⟩
              | q :: z =>
                simp only [List.cons_append, List.cons.injEq] at e4
                obtain ⟨c, hc⟩ := hm a z (by rw [e3, ← e4.1])
                left; exact ⟨c ++ ['%'], by rw [e4.2, hc]; rfl⟩
          · left; exact hm a d1 e2
        rcases start with ⟨c, hc⟩ | ⟨hd1, hdir⟩
        · rcases hr with ⟨hr, -⟩ | hr
          · exact hnb _ (by rw [hr, hc]; rfl)
          · match dir with
            | [] =>
              -- nothing was left to read: one mark only
              have : v = [] := hnil rfl
              have hd1 : d = ("%!(NOVERB)".toList, []) := by rw [← hd, this]; rfl
              have h1 : (l ++ d.1).count '%' = 1 := by
                rw [List.count_append, List.count_eq_zero.2 hl, hd1]; decide
              have h2 := congrArg (List.count '%') e1
              rw [h1] at h2
              simp only [List.count_append, List.count_cons_self] at h2
              omega
            | q :: dir =>
              rw [hc] at hr
              simp only [List.cons_append, List.cons.injEq] at hr
              exact hnb dir (by rw [hr.1])
        · rcases hr with ⟨hr, hn⟩ | hr
          · rw [hd1, List.nil_append] at hr; exact hn (hr ▸ hdir)
          · rw [hd1] at hr
            have := (List.append_eq_nil_iff.1 hr.symm).1
            rw [this] at hdir; simp at hdir
      have e5 : (l ++ d.1) ++ sprintf d.2 = (x ++ '%' :: (y ++ l ++ '%' :: dir)) ++ d.2 := by
        rw [List.append_assoc, e]
        conv => lhs; rw [ev]
        simp
      rcases List.append_eq_append_iff.1 e5 with ⟨z, e6, e7⟩ | ⟨z, e6, e7⟩
      · by_cases hz : '%' ∈ z
        · obtain ⟨a, b, ez, -⟩ := first_percent hz
          exact ih d.2 hlen a b (by rw [e7, ez]; simp)
        · -- the percent signs are all in what is printed for the directive
          have e8 : (l ++ d.1) ++ z = (x ++ '%' :: (y ++ l)) ++ '%' :: dir := by rw [← e6]; simp
          rcases List.append_eq_append_iff.1 e8 with ⟨q, e9, e10⟩ | ⟨q, e9, e10⟩
          · exact hz (by rw [e10]; simp)
          · match q with
            | [] => exact hz (by simp at e10; rw [← e10]; simp)
            | q0 :: q =>
              simp only [List.cons_append, List.cons.injEq] at e10
              exact fin q z (by rw [e9, ← e10.1]; simp) (.inl ⟨e10.2, hz⟩)
      · exact fin (dir ++ z) z (by rw [e6]; simp) (.inr rfl)
    · rw [sprintf_plain hp] at e
      have := congrArg List.length e
      simp at this
      omega

/-- A text is printed as it is exactly if it has no percent sign. -/
theorem sprintf_eq_self (t : Text) : sprintf t = t ↔ '%' ∉ t := by
  refine ⟨fun e hp => ?_, sprintf_plain⟩
  obtain ⟨l, v, rfl, hl⟩ := first_percent hp
  rw [sprintf_append hl, sprintf_percent] at e
  have e1 := List.append_cancel_left e
  obtain ⟨dir, ev, -, form⟩ := directive_form v
  obtain ⟨o, ho⟩ := directive_head v
  have bang : ∀ c, o ≠ '!' :: c := by
    rintro c rfl
    rw [ho] at e1
    have hv : v = '!' :: (c ++ sprintf (directive v).2) := by
      simpa using (List.cons.inj e1).2.symm
    generalize c ++ sprintf (directive v).2 = u at hv
    subst hv
    rw [directive_bang] at e1
    have : u = "!(MISSING)".toList ++ sprintf u := by
      rw [directive_bang] at ho
      have h12 : "%!!(MISSING)".toList = '%' :: '!' :: "!(MISSING)".toList := by decide
      rw [h12] at ho
      have hc : "!(MISSING)".toList = c := by simpa only [List.cons.injEq, true_and] using ho
      rw [hc]
      simpa using e1.symm
    exact not_missing _ u (Nat.le_refl _) this
  rcases form with ⟨m, em, hm, hdir⟩ | ⟨-, hm⟩
  · cases m with
    | nil =>
      rw [em] at e1
      have e2 : sprintf (directive v).2 = v := by simpa using e1
      obtain ⟨a, b, ea, -⟩ := first_percent hdir
      refine not_behind _ (directive v).2 (Nat.le_refl _) a b ?_
      conv => lhs; rw [e2, ev, ea]
      simp
    | cons q m =>
      rw [ho, List.cons_append, List.cons.injEq] at em
      obtain ⟨c, hc⟩ := hm [] m (by rw [← em.1]; rfl)
      exact bang (c ++ ['%']) (by rw [em.2, hc]; rfl)
  · obtain ⟨c, hc⟩ := hm [] o ho
    exact bang c hc

end Verif.Log
