import Verif.Lemmas.XmlLoose
/-!
# What the XML decoder accepts is loosely XML: tokens and trees
-/
set_option linter.unusedSimpArgs false
namespace Verif.Xml

theorem noAttrs_nil : readAttrs [] = none := by
  rw [readAttrs.eq_def]; rfl

theorem readAttrs_sound : ∀ (k : Nat) (t : Text) (as : List (Text × Text)) (e : Bool) (r : Text), t.length ≤ k → readAttrs t = some (as, e, r) →
    ∃ at_ sp, LooseAttrs at_ as ∧ Space sp ∧ t = at_ ++ (sp ++ ((if e then ['/', '>'] else ['>']) ++ r)) := by
  intro k
  induction k with
  | zero =>
    intro t as e r hk h
    have : t = [] := List.length_eq_zero_iff.1 (by omega)
    subst this
    rw [noAttrs_nil] at h; cases h
  | succ k ih =>
    intro t as e r hk h
    obtain ⟨sp, hsp, hst⟩ := skipSpace_split t
    rw [readAttrs.eq_def] at h
    split at h
    · rename_i r' hr
      simp only [Option.some.injEq, Prod.mk.injEq] at h
      obtain ⟨rfl, rfl, rfl⟩ := h
      exact ⟨[], sp, .nil, hsp, by rw [hst, hr]; rfl⟩
    · rename_i r' hr
      simp only [Option.some.injEq, Prod.mk.injEq] at h
      obtain ⟨rfl, rfl, rfl⟩ := h
      exact ⟨[], sp, .nil, hsp, by rw [hst, hr]; rfl⟩
    · cases h
    · rename_i u _ _ _
      split at h
      · cases h
      rename_i n v hn
      obtain ⟨e1, hn, -⟩ := readNsName_sound hn
      obtain ⟨sp1, hsp1, hs1⟩ := skipSpace_split v
      split at h
      · rename_i w hw
        obtain ⟨sp2, hsp2, hs2⟩ := skipSpace_split w
        split at h
        · rename_i q x hq
          split at h
          · rename_i hquote
            split at h
            · cases h
            rename_i s y hy
            split at h
            · rename_i hlen
              split at h
              · rename_i as' e' r' hrec
                simp only [Option.some.injEq, Prod.mk.injEq] at h
                obtain ⟨rfl, rfl, rfl⟩ := h
                obtain ⟨raw, rest, rfl, hstop, hch, -⟩ := textData_sound hy
                rcases hstop with rfl | ⟨rfl, rfl⟩
                · obtain ⟨at_, sp', h1, h2, rfl⟩ := ih y as' e' r' (by omega) hrec
                  refine ⟨sp ++ (n ++ (sp1 ++ '=' :: (sp2 ++ q :: (raw ++ q :: at_)))), sp', .cons hsp hn hsp1 hsp2 hquote hch h1, h2, ?_⟩
                  rw [hst, e1, hs1, hw, hs2, hq]
                  simp
                · rw [noAttrs_nil] at hrec; cases hrec
              · cases h
            · cases h
          · cases h
        · cases h
      · cases h

theorem readComment_sound {t r : Text} (h : readComment t = some r) : ∃ c, t = c ++ ("-->".toList ++ r) ∧ ¬ "--".toList <:+: c ++ ['-'] := by
  fun_induction readComment t with
  | case1 r' =>
    cases h
    exact ⟨[], rfl, by decide⟩
  | case2 => cases h
  | case3 x r' h1 h2 ih =>
    obtain ⟨c, rfl, hc⟩ := ih h
    refine ⟨x :: c, rfl, fun hi => ?_⟩
    rcases List.infix_cons_iff.1 hi with hp | hp
    · cases c with
      | nil =>
        simp only [String.reduceToList, List.nil_append, List.cons_prefix_cons] at hp
        obtain ⟨rfl, -⟩ := hp
        exact h2 ('-' :: '>' :: r) rfl (by simp)
      | cons y c =>
        change "--".toList <+: x :: y :: (c ++ ['-']) at hp
        simp only [String.reduceToList, List.cons_prefix_cons] at hp
        obtain ⟨rfl, rfl, -⟩ := hp
        exact h2 _ rfl rfl
    · exact hc hp
  | case4 => cases h

theorem readPI_sound {t d r : Text} (h : readPI t = some (d, r)) : t = d ++ ("?>".toList ++ r) ∧ ¬ "?>".toList <:+: d := by
  induction t generalizing d r with
  | nil => simp [readPI] at h
  | cons c t ih =>
    rw [readPI.eq_def] at h
    split at h
    · rename_i r' heq
      cases heq
      simp only [Option.some.injEq, Prod.mk.injEq] at h
      obtain ⟨rfl, rfl⟩ := h
      exact ⟨rfl, by simp⟩
    · rename_i c' r' hne heq
      cases heq
      obtain ⟨⟨d', r''⟩, h1, h2⟩ := Option.map_eq_some_iff.1 h
      simp only [Prod.mk.injEq] at h2
      obtain ⟨rfl, rfl⟩ := h2
      obtain ⟨rfl, h3⟩ := ih h1
      refine ⟨rfl, fun hi => ?_⟩
      rcases List.infix_cons_iff.1 hi with hp | hp
      · cases d' with
        | nil => simp [List.cons_prefix_cons] at hp
        | cons y d' =>
          simp only [String.reduceToList, List.cons_prefix_cons] at hp
          obtain ⟨rfl, rfl, -⟩ := hp
          exact hne _ rfl rfl
      · exact h3 hp
    · rename_i heq; cases heq

/-- The pieces between angle brackets that are closed before they are opened. -/
theorem readDirective_sound : ∀ (t r : Text),
    (∀ n, readDirective none n t = some r → ∃ ds : List Text, ds.length = n + 1 ∧ (∀ d ∈ ds, Inside d) ∧ t = ds.flatMap (· ++ ['>']) ++ r) ∧
    (∀ n q, readDirective (some q) n t = some r → ∃ (s : Text) (ds : List Text), q ∉ s ∧ ds.length = n + 1 ∧ (∀ d ∈ ds, Inside d) ∧
      t = s ++ q :: (ds.flatMap (· ++ ['>']) ++ r)) := by
  intro t
  induction t with
  | nil => intro r; constructor <;> (intros; simp_all [readDirective])
  | cons c t ih =>
    intro r
    -- the first piece grows
    have grow : ∀ {n t'} (p : Text), (∀ d, Inside d → Inside (p ++ d)) →
        (∃ ds : List Text, ds.length = n + 1 ∧ (∀ d ∈ ds, Inside d) ∧ t' = ds.flatMap (· ++ ['>']) ++ r) →
        ∃ ds : List Text, ds.length = n + 1 ∧ (∀ d ∈ ds, Inside d) ∧ p ++ t' = ds.flatMap (· ++ ['>']) ++ r := by
      rintro n t' p hp ⟨ds, h1, h2, rfl⟩
      cases ds with
      | nil => simp at h1
      | cons d ds =>
        refine ⟨(p ++ d) :: ds, by simpa using h1, ?_, by simp⟩
        intro x hx
        rcases List.mem_cons.1 hx with rfl | hx
        · exact hp _ (h2 d (by simp))
        · exact h2 x (List.mem_cons_of_mem _ hx)
    constructor
    · intro n h
      rw [readDirective] at h
      split at h
      · rename_i hc
        obtain ⟨-, rfl, rfl⟩ := hc
        cases h
        exact ⟨[[]], rfl, by simp [Inside.nil], by simp⟩
      rename_i hc
      simp only [reduceCtorEq, if_false, ne_eq, not_true_eq_false] at h
      split at h
      · rename_i hq
        obtain ⟨s, ds, h1, h2, h3, rfl⟩ := (ih r).2 n c h
        have := grow (c :: (s ++ [c])) (fun d hd => by
          have := Inside.quoted (q := c) (s := s) hq.symm h1 hd
          simpa using this) ⟨ds, h2, h3, rfl⟩
        simpa using this
      rename_i hq
      push Not at hq
      split at h
      · rename_i hgt
        subst hgt
        cases n with
        | zero => exact absurd ⟨rfl, rfl, rfl⟩ hc
        | succ n =>
          obtain ⟨ds, h1, h2, rfl⟩ := (ih r).1 n h
          refine ⟨[] :: ds, by simp [h1], ?_, by simp⟩
          intro x hx
          rcases List.mem_cons.1 hx with rfl | hx
          · exact .nil
          · exact h2 x hx
      rename_i hgt
      split at h
      · rename_i hlt
        subst hlt
        obtain ⟨ds, h1, h2, rfl⟩ := (ih r).1 (n + 1) h
        match ds, h1, h2 with
        | d1 :: d2 :: ds, h1, h2 =>
          refine ⟨('<' :: (d1 ++ '>' :: d2)) :: ds, by simpa using h1, ?_, by simp⟩
          intro x hx
          rcases List.mem_cons.1 hx with rfl | hx
          · exact .angle (h2 d1 (by simp)) (h2 d2 (by simp))
          · exact h2 x (by simp [hx])
      rename_i hlt
      obtain ⟨ds, h1, h2, rfl⟩ := (ih r).1 n h
      have := grow [c] (fun d hd => .char hlt hgt hq.2 hq.1 hd) ⟨ds, h1, h2, rfl⟩
      simpa using this
    · intro n q h
      rw [readDirective] at h
      simp only [reduceCtorEq, false_and, if_false, Option.some.injEq, ne_eq, not_false_eq_true, if_true] at h
      split at h
      · rename_i hqc
        subst hqc
        obtain ⟨ds, h1, h2, rfl⟩ := (ih r).1 n h
        exact ⟨[], ds, by simp, h1, h2, rfl⟩
      · rename_i hqc
        obtain ⟨s, ds, h1, h2, h3, rfl⟩ := (ih r).2 n q h
        exact ⟨c :: s, ds, by simp [h1, hqc], h2, h3, rfl⟩

/-! ### Declarations -/

theorem first_infix (p t : Text) (hp : p ≠ []) (h : p <:+: t) : ∃ pre u, t = pre ++ (p ++ u) ∧ ¬ p <:+: pre ++ p.dropLast := by
  have hl : p.dropLast.length < p.length := by
    have := List.length_pos_of_ne_nil hp
    simp; omega
  induction t with
  | nil => exact absurd (List.infix_nil.1 h) hp
  | cons c t ih =>
    by_cases hpre : p <+: c :: t
    · obtain ⟨u, hu⟩ := hpre
      exact ⟨[], u, hu.symm, fun hi => by have := hi.length_le; simp only [List.nil_append] at this; omega⟩
    · rcases List.infix_cons_iff.1 h with h | h
      · exact absurd h hpre
      · obtain ⟨pre, u, rfl, hn⟩ := ih h
        refine ⟨c :: pre, u, rfl, fun hi => ?_⟩
        rcases List.infix_cons_iff.1 hi with hi | hi
        · apply hpre
          refine List.IsPrefix.trans hi ⟨p.getLast hp :: u, ?_⟩
          conv_rhs => rw [← List.dropLast_append_getLast hp]
          simp
        · exact hn hi

theorem procInst_pre {p : Text} (hp : p ≠ []) (u : Text) : ∀ pre : Text, ¬ p <:+: pre ++ p.dropLast → procInst p (pre ++ (p ++ u)) = procInst p (p ++ u) := by
  intro pre
  induction pre with
  | nil => intro _; rfl
  | cons c pre ih =>
    intro hn
    rw [List.cons_append, procInst_skip]
    · exact ih fun hi => hn (hi.trans ⟨[c], [], by simp⟩)
    · rw [Bool.eq_false_iff]
      intro hpre
      apply hn
      rw [List.isPrefixOf_iff_prefix] at hpre
      have hw : p = p.dropLast ++ [p.getLast hp] := (List.dropLast_append_getLast hp).symm
      have : p <+: (c :: pre ++ p.dropLast) := by
        refine List.prefix_of_prefix_length_le hpre ⟨[p.getLast hp] ++ u, ?_⟩ ?_
        · conv_rhs => rw [hw]
          simp
        · have h0 : 0 < p.length := List.length_pos_of_ne_nil hp
          have : p.dropLast.length = p.length - 1 := by simp
          simp only [List.cons_append, List.length_cons, List.length_append]
          omega
      exact this.isInfix

theorem procInst_at {p : Text} (hp : p ≠ []) (u : Text) : procInst p (p ++ u) = match u with
    | [] => []
    | q :: w => if q = '"' ∨ q = '\'' then (if q ∈ w then w.takeWhile (· ≠ q) else []) else procInst p w := by
  cases p with
  | nil => exact absurd rfl hp
  | cons c p =>
    rw [List.cons_append, procInst.eq_def]
    simp only
    rw [if_pos ⟨by rw [← List.cons_append]; simp, by simp⟩, ← List.cons_append, List.drop_left]
    cases u with
    | nil => rfl
    | cons q w =>
      simp only
      have : List.drop (c :: p).length (p ++ q :: w) = w := by
        rw [show p ++ q :: w = (p ++ [q]) ++ w by simp]
        rw [List.drop_left' (by simp)]
      rw [this]

theorem procInst_absent {p d : Text} (h : ¬ p <:+: d) : procInst p d = [] := by
  induction d with
  | nil => rw [procInst.eq_def]
  | cons c d ih =>
    rw [procInst_skip]
    · exact ih fun hi => h (hi.trans ⟨[c], [], by simp⟩)
    · rw [Bool.eq_false_iff]
      intro hp
      rw [List.isPrefixOf_iff_prefix] at hp
      exact h hp.isInfix

theorem takeWhile_quote {q : Char} {v : Text} (hv : q ∉ v) (r : Text) : (v ++ q :: r).takeWhile (· ≠ q) = v := by
  induction v with
  | nil => simp
  | cons a v ih =>
    simp only [List.mem_cons, not_or] at hv
    rw [List.cons_append, List.takeWhile_cons, if_pos (by simpa using Ne.symm hv.1), ih hv.2]

theorem param_procInst {p d v : Text} (hp : p ≠ []) (h : Param p d v) : procInst p d = v := by
  induction h with
  | absent h => exact procInst_absent h
  | @quoted pre q v r h1 h2 h3 =>
    rw [procInst_pre hp _ _ h1, procInst_at hp]
    simp only [h2, if_true]
    rw [if_pos (by simp)]
    exact takeWhile_quote h3 r
  | @unclosed pre q r h1 h2 h3 =>
    rw [procInst_pre hp _ _ h1, procInst_at hp]
    simp only [h2, if_true]
    rw [if_neg h3]
  | @last pre h1 =>
    have := procInst_pre hp [] _ h1
    rw [List.append_nil] at this
    have h2 := procInst_at hp []
    rw [List.append_nil] at h2
    rw [this, h2]
  | @other pre c r v h1 h2 h3 _ ih =>
    rw [procInst_pre hp _ _ h1, procInst_at hp]
    simp only [h2, h3, or_self, if_false]
    exact ih

theorem mem_split_first {q : Char} {w : Text} (h : q ∈ w) : ∃ v r, w = v ++ q :: r ∧ q ∉ v := by
  induction w with
  | nil => cases h
  | cons a w ih =>
    by_cases ha : a = q
    · subst ha; exact ⟨[], w, rfl, by simp⟩
    · obtain ⟨v, r, rfl, hv⟩ := ih ((List.mem_cons.1 h).resolve_left (Ne.symm ha))
      exact ⟨a :: v, r, rfl, by simp [hv, Ne.symm ha]⟩

theorem param_ex {p : Text} (hp : p ≠ []) : ∀ (k : Nat) (d : Text), d.length ≤ k → ∃ v, Param p d v := by
  intro k
  induction k with
  | zero =>
    intro d hd
    have : d = [] := List.length_eq_zero_iff.1 (by omega)
    subst this
    exact ⟨[], .absent fun h => hp (List.infix_nil.1 h)⟩
  | succ k ih =>
    intro d hd
    by_cases hi : p <:+: d
    · obtain ⟨pre, u, rfl, hn⟩ := first_infix p d hp hi
      cases u with
      | nil => rw [List.append_nil]; exact ⟨[], .last hn⟩
      | cons q w =>
        by_cases hq : q = '"' ∨ q = '\''
        · by_cases hm : q ∈ w
          · obtain ⟨v, r, rfl, hv⟩ := mem_split_first hm
            exact ⟨v, .quoted hn hq hv⟩
          · exact ⟨[], .unclosed hn hq hm⟩
        · push Not at hq
          obtain ⟨v, hv⟩ := ih w (by simp at hd; omega)
          exact ⟨v, .other hn hq.1 hq.2 hv⟩
    · exact ⟨[], .absent hi⟩

theorem param_iff {p d v : Text} (hp : p ≠ []) : Param p d v ↔ procInst p d = v := by
  refine ⟨param_procInst hp, ?_⟩
  rintro rfl
  obtain ⟨v, hv⟩ := param_ex hp _ d le_rfl
  rw [param_procInst hp hv]
  exact hv

theorem space_v : Space ['v'] → False := fun h => by have := h 'v' (by simp); revert this; decide

theorem declOk_iff {sp d : Text} (hs : Space sp) : declOk d = true ↔
    (∃ v, Param "version=".toList (sp ++ d) v ∧ (v = [] ∨ v = "1.0".toList)) ∧
      ∃ e, Param "encoding=".toList (sp ++ d) e ∧ (e = [] ∨ e.map Char.toLower = "utf-8".toList) := by
  have e1 : ∀ v, Param "version=".toList (sp ++ d) v ↔ procInst "version=".toList d = v := fun v => by
    rw [param_iff (by simp), show procInst "version=".toList (sp ++ d) = procInst "version=".toList d from
      procInst_space (x := 'v') (p := "ersion=".toList) space_v hs d]
  have e2 : ∀ v, Param "encoding=".toList (sp ++ d) v ↔ procInst "encoding=".toList d = v := fun v => by
    rw [param_iff (by simp), show procInst "encoding=".toList (sp ++ d) = procInst "encoding=".toList d from
      procInst_space (x := 'e') (p := "ncoding=".toList) space_e hs d]
  simp only [e1, e2, exists_eq_left']
  unfold declOk
  simp only [Bool.and_eq_true, Bool.or_eq_true, beq_iff_eq]

/-! ### Tokens -/

/-- The text of a token. -/
inductive TokText : Tok → Text → Text → Prop where
  | start {n at_ as sp r} (e : Bool) : LooseQName n → LooseAttrs at_ as → Space sp → NameEnds (at_ ++ sp) →
      TokText (.start n as e) ('<' :: (n ++ (at_ ++ (sp ++ (if e then ['/', '>'] else ['>']))))) r
  | close {n sp r} : LooseQName n → Space sp → TokText (.close n) ('<' :: '/' :: (n ++ (sp ++ ['>']))) r
  | text {raw s r} : LooseText raw s r → TokText (.data s) raw r
  | cdata {raw s r} : LooseCData raw s → TokText (.data s) raw r
  | other {raw r} : Skipped raw → TokText .other raw r

theorem nameEnds_left {t u : Text} (h : NameEnds (t ++ u)) : NameEnds t := by
  rintro c r rfl
  exact h c (r ++ u) rfl

theorem rawToken_sound {t r : Text} {k : Tok} (h : rawToken t = some (k, r)) : ∃ raw, t = raw ++ r ∧ TokText k raw r := by
  unfold rawToken at h
  split at h
  · cases h
  · rename_i u
    split at h
    · rename_i n v hn
      obtain ⟨rfl, hn, -⟩ := readNsName_sound hn
      obtain ⟨sp, hsp, hs⟩ := skipSpace_split v
      split at h
      · rename_i r' hr
        simp only [Option.some.injEq, Prod.mk.injEq] at h
        obtain ⟨rfl, rfl⟩ := h
        refine ⟨_, ?_, .close hn hsp⟩
        rw [hs, hr]; simp
      · cases h
    · cases h
  · rename_i u
    split at h
    · rename_i n v hn
      obtain ⟨rfl, hn, hne⟩ := readName_sound hn
      obtain ⟨sp, hsp, hs⟩ := skipSpace_split v
      split at h
      · rename_i d r' hr
        split at h
        · cases h
        rename_i hdecl
        simp only [Option.some.injEq, Prod.mk.injEq] at h
        obtain ⟨rfl, rfl⟩ := h
        obtain ⟨e1, e2⟩ := readPI_sound hr
        refine ⟨"<?".toList ++ (n ++ ((sp ++ d) ++ "?>".toList)), ?_, .other (.inr (.inl ⟨n, sp ++ d, rfl, hn, ?_, ?_, ?_⟩))⟩
        · rw [hs, e1]; simp
        · intro hi
          apply e2
          clear hs
          induction sp with
          | nil => exact hi
          | cons c sp ih =>
            refine ih (fun x hx => hsp x (by simp [hx])) ?_
            rcases List.infix_cons_iff.1 hi with hp | hp
            · have hc : '?' = c := (List.cons_prefix_cons.1 hp).1
              exfalso
              have := hsp c (by simp)
              rw [← hc] at this
              exact absurd this (by decide)
            · exact hp
        · rw [hs, e1] at hne
          apply nameEnds_left (u := ['>'] ++ r')
          simpa using hne
        · rintro rfl
          refine (declOk_iff hsp).1 ?_
          by_contra hc
          exact hdecl ⟨rfl, by simpa using hc⟩
      · cases h
    · cases h
  · rename_i u
    split at h
    · rename_i v
      obtain ⟨r', h1, h2⟩ := Option.map_eq_some_iff.1 h
      simp only [Prod.mk.injEq] at h2
      obtain ⟨rfl, rfl⟩ := h2
      obtain ⟨c, rfl, hc⟩ := readComment_sound h1
      exact ⟨"<!--".toList ++ (c ++ "-->".toList), by simp, .other (.inl ⟨c, rfl, hc⟩)⟩
    · cases h
  · rename_i u
    split at h
    · rename_i hp
      rw [List.isPrefixOf_iff_prefix] at hp
      obtain ⟨w, rfl⟩ := hp
      obtain ⟨⟨s, r'⟩, h1, h2⟩ := Option.map_eq_some_iff.1 h
      simp only [Prod.mk.injEq] at h2
      obtain ⟨rfl, rfl⟩ := h2
      obtain ⟨raw, e1, e2, e3⟩ := textData_cdata h1
      have : w = raw ++ ("]]>".toList ++ r') := by simpa using e1
      subst this
      exact ⟨"<![CDATA[".toList ++ (raw ++ "]]>".toList), by simp, .cdata ⟨raw, rfl, e2, e3⟩⟩
    · cases h
  · rename_i u hn1 hn2
    split at h
    · rename_i c v
      obtain ⟨r', h1, h2⟩ := Option.map_eq_some_iff.1 h
      simp only [Prod.mk.injEq] at h2
      obtain ⟨rfl, rfl⟩ := h2
      obtain ⟨ds, e1, e2, rfl⟩ := (readDirective_sound v r').1 0 h1
      match ds, e1, e2 with
      | [d], _, e2 =>
        refine ⟨'<' :: '!' :: c :: (d ++ ['>']), by simp, .other (.inr (.inr ⟨c, d, rfl, ?_, ?_, e2 d (by simp)⟩))⟩
        · rintro rfl; exact hn1 _ rfl
        · rintro rfl; exact hn2 _ rfl
    · cases h
  · rename_i u _ _ _ _ _
    split at h
    · rename_i n v hn
      obtain ⟨rfl, hqn, hne⟩ := readNsName_sound hn
      split at h
      · rename_i as e r' hr
        simp only [Option.some.injEq, Prod.mk.injEq] at h
        obtain ⟨rfl, rfl⟩ := h
        obtain ⟨at_, sp, h1, h2, rfl⟩ := readAttrs_sound _ v as e r' le_rfl hr
        refine ⟨_, ?_, .start e hqn h1 h2 (nameEnds_left (u := (if e then ['/', '>'] else ['>']) ++ r') (by simpa using hne))⟩
        simp
      · cases h
    · cases h
  · rename_i hne _ _ _ _ _ hlt
    obtain ⟨⟨s, r'⟩, h1, h2⟩ := Option.map_eq_some_iff.1 h
    simp only [Prod.mk.injEq] at h2
    obtain ⟨rfl, rfl⟩ := h2
    obtain ⟨raw, rest, rfl, ⟨rfl, hs⟩, hc, hb⟩ := textData_sound h1
    refine ⟨raw, rfl, .text ⟨?_, hc, hb rfl, hs⟩⟩
    rintro rfl
    rcases hs with hs | hs
    · exact hne (by simpa using hs)
    · cases rest with
      | nil => cases hs
      | cons c rest => cases hs; exact hlt rest (by simp)

/-! ### Trees -/

/-- What must follow while elements are open. -/
def Follows : List Open → Text → XNode → Prop
  | [], t, n => LooseDocument t n
  | o :: os, t, n => ∃ raw ks sp t', t = raw ++ ('<' :: '/' :: (o.name ++ (sp ++ '>' :: t'))) ∧ LooseContent raw ks ∧ Space sp ∧ LooseQName o.name ∧
      match os with
      | [] => n = .elem o.name o.attrs (o.kids.reverse ++ ks)
      | o' :: os' => Follows ({ o' with kids := .elem o.name o.attrs (o.kids.reverse ++ ks) :: o'.kids } :: os') t' n
termination_by os => os.length

theorem follows_nil {t : Text} {n : XNode} : Follows [] t n ↔ LooseDocument t n := by rw [Follows]

/-- What follows after an element: the root ends the document. -/
def Then (os : List Open) (k : XNode) (t : Text) (n : XNode) : Prop :=
  match os with
  | [] => n = k
  | o :: os => Follows ({ o with kids := k :: o.kids } :: os) t n

theorem follows_cons {o : Open} {os : List Open} {t : Text} {n : XNode} : Follows (o :: os) t n ↔
    ∃ raw ks sp t', t = raw ++ ('<' :: '/' :: (o.name ++ (sp ++ '>' :: t'))) ∧ LooseContent raw ks ∧ Space sp ∧ LooseQName o.name ∧
      Then os (.elem o.name o.attrs (o.kids.reverse ++ ks)) t' n := by
  rw [Follows]
  cases os <;> rfl

/-- An element, and then the rest. -/
theorem follows_elem {st : List Open} {e t : Text} {k n : XNode} (he : LooseElement e k) (h : Then st k t n) : Follows st (e ++ t) n := by
  cases st with
  | nil =>
    cases h
    exact follows_nil.2 ⟨[], e, t, rfl, .nil, he⟩
  | cons o os =>
    obtain ⟨raw, ks, sp, t', rfl, h1, h2, h3, h4⟩ := follows_cons.1 h
    refine follows_cons.2 ⟨e ++ raw, k :: ks, sp, t', by simp, .elem he h1, h2, h3, ?_⟩
    simpa using h4

/-- Something that is skipped. -/
theorem follows_skipped {st : List Open} {raw t : Text} {n : XNode} (hr : Skipped raw) (h : Follows st t n) : Follows st (raw ++ t) n := by
  cases st with
  | nil =>
    obtain ⟨misc, root, rest, rfl, h1, h2⟩ := follows_nil.1 h
    exact follows_nil.2 ⟨raw ++ misc, root, rest, by simp, .skipped hr h1, h2⟩
  | cons o os =>
    obtain ⟨raw', ks, sp, t', rfl, h1, h2, h3, h4⟩ := follows_cons.1 h
    exact follows_cons.2 ⟨raw ++ raw', ks, sp, t', by simp, .skipped hr h1, h2, h3, h4⟩

/-- Character data in an element. -/
theorem follows_data {o : Open} {os : List Open} {raw s t : Text} {n : XNode} (hr : LooseText raw s t ∨ LooseCData raw s)
    (h : Follows ({ o with kids := .text s :: o.kids } :: os) t n) : Follows (o :: os) (raw ++ t) n := by
  obtain ⟨raw', ks, sp, t', rfl, h1, h2, h3, h4⟩ := follows_cons.1 h
  refine follows_cons.2 ⟨raw ++ raw', .text s :: ks, sp, t', by simp, ?_, h2, h3, by simpa using h4⟩
  rcases hr with ⟨e1, e2, e3, e4⟩ | hr
  · refine .text ⟨e1, e2, e3, ?_⟩ h1
    cases raw' with
    | nil => exact .inl rfl
    | cons c raw' => simpa using e4
  · exact .cdata hr h1

/-- Character data before the root. -/
theorem document_data {raw s t : Text} {n : XNode} (hr : LooseText raw s t ∨ LooseCData raw s) (h : LooseDocument t n) : LooseDocument (raw ++ t) n := by
  obtain ⟨misc, root, rest, rfl, h1, h2⟩ := h
  refine ⟨raw ++ misc, root, rest, by simp, ?_, h2⟩
  rcases hr with ⟨e1, e2, e3, e4⟩ | hr
  · refine .text (s := s) ⟨e1, e2, e3, ?_⟩ h1
    cases misc with
    | nil => exact .inl rfl
    | cons c misc => simpa using e4
  · exact .cdata hr h1

theorem readTree_sound : ∀ (k : Nat) (st : List Open) (t : Text) (n : XNode), t.length ≤ k → readTree st t = some n → Follows st t n := by
  intro k
  induction k with
  | zero =>
    intro st t n hk h
    have : t = [] := List.length_eq_zero_iff.1 (by omega)
    subst this
    rw [readTree] at h
    simp [rawToken] at h
  | succ k ih =>
    intro st t n hk h
    rw [readTree] at h
    split at h
    · cases h
    rename_i tok r htok
    obtain ⟨raw, rfl, ht⟩ := rawToken_sound htok
    -- what comes after a complete child
    have kid : ∀ (os : List Open) (x : XNode),
        (match some (addKid os x) with
          | none => none
          | some (Sum.inr n) => some n
          | some (Sum.inl st') => if r.length < (raw ++ r).length then readTree st' r else none) = some n → Then os x r n := by
      intro os x h
      cases os with
      | nil => simp only [addKid, Option.some.injEq] at h; exact h.symm
      | cons o os =>
        simp only [addKid] at h
        split at h
        · exact ih _ r n (by omega) h
        · cases h
    cases ht with
    | @start m at_ as sp _ e h1 h2 h3 h4 =>
      cases e with
      | true =>
        simp only [onToken, if_true] at h
        have := kid st (.elem m as []) h
        exact follows_elem (.empty h1 h2 h3 h4) this
      | false =>
        simp only [onToken, Bool.false_eq_true, if_false] at h
        split at h
        · obtain ⟨raw', ks, sp', t', rfl, g1, g2, g3, g4⟩ := follows_cons.1 (ih _ r n (by simp at hk; omega) h)
          simp only [List.reverse_nil, List.nil_append] at g4
          have := follows_elem (.full h1 h2 h3 h4 g1 g2) g4
          simpa using this
        · cases h
    | @close m sp _ h1 h2 =>
      cases st with
      | nil => simp [onToken] at h
      | cons o os =>
        simp only [onToken] at h
        by_cases hm : o.name = m
        · rw [if_pos hm] at h
          subst hm
          exact follows_cons.2 ⟨[], [], sp, r, by simp, .nil, h2, h1, by simpa using kid os _ h⟩
        · rw [if_neg hm] at h; cases h
    | @text _ s _ h1 =>
      cases st with
      | nil =>
        simp only [onToken] at h
        split at h
        · exact follows_nil.2 (document_data (.inl h1) (follows_nil.1 (ih _ r n (by omega) h)))
        · cases h
      | cons o os =>
        simp only [onToken] at h
        split at h
        · exact follows_data (.inl h1) (ih _ r n (by omega) h)
        · cases h
    | @cdata _ s _ h1 =>
      cases st with
      | nil =>
        simp only [onToken] at h
        split at h
        · exact follows_nil.2 (document_data (.inr h1) (follows_nil.1 (ih _ r n (by omega) h)))
        · cases h
      | cons o os =>
        simp only [onToken] at h
        split at h
        · exact follows_data (.inr h1) (ih _ r n (by omega) h)
        · cases h
    | other h1 =>
      simp only [onToken] at h
      split at h
      · exact follows_skipped h1 (ih _ r n (by omega) h)
      · cases h

/-- What the decoder accepts is loosely XML. -/
theorem parseXml_sound {t : Text} {n : XNode} (h : parseXml t = some n) : LooseDocument t n :=
  follows_nil.1 (readTree_sound _ [] t n le_rfl h)

end Verif.Xml
