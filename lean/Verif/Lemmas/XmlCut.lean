import Verif.Lemmas.XmlText
/-!
# Unfinished documents

What the reader makes of a text does not depend on what follows, so a strict prefix of a printed tree
is not read as a tree.
-/
set_option linter.unusedSimpArgs false
namespace Verif.Xml

/-! ### Tokens do not look ahead -/

theorem readText_ext (quote : Option Char) (cd : Bool) (e t : Text) : ∀ (acc : Text) (m : TextMode) (s r : Text),
    readText quote cd acc m t = some (s, r) → (cd = false ∧ r = []) ∨ readText quote cd acc m (t ++ e) = some (s, r ++ e) := by
  induction t with
  | nil =>
    intro acc m s r h
    cases m with
    | ent a => simp [readText] at h
    | plain b0 b1 =>
      simp only [readText] at h
      split at h
      · cases h
      · left
        simp only [Option.some.injEq, Prod.mk.injEq] at h
        exact ⟨by simpa using ‹¬ cd = true›, h.2.symm⟩
  | cons c t ih =>
    intro acc m s r h
    cases m with
    | ent a =>
      rw [List.cons_append]
      simp only [readText] at h ⊢
      split at h
      · rename_i hc
        simp only [hc, if_true]
        cases hx : entity a.reverse with
        | none => rw [hx] at h; cases h
        | some x => rw [hx] at h; exact ih _ _ _ _ h
      · rename_i hc
        simp only [hc, if_false]
        exact ih _ _ _ _ h
    | plain b0 b1 =>
      rw [List.cons_append]
      simp only [readText] at h ⊢
      repeat' split at h
      all_goals try (cases h; done)
      all_goals repeat' split
      all_goals first
        | contradiction
        | exact ih _ _ _ _ h
        | (right
           simp only [Option.some.injEq, Prod.mk.injEq] at h
           obtain ⟨rfl, rfl⟩ := h
           simp)

theorem textData_ext {quote : Option Char} {cd : Bool} {t s r : Text} (e : Text) (h : textData quote cd t = some (s, r)) :
    (cd = false ∧ r = []) ∨ textData quote cd (t ++ e) = some (s, r ++ e) := by
  unfold textData at h ⊢
  split at h
  · rename_i s' r' hr
    split at h
    · rename_i ha
      simp only [Option.some.injEq, Prod.mk.injEq] at h
      obtain ⟨rfl, rfl⟩ := h
      rcases readText_ext quote cd e t _ _ _ _ hr with h | h
      · exact Or.inl h
      · right
        rw [h]
        simp [ha]
    · cases h
  · cases h

theorem takeWhile_ext {p : Char → Bool} (t e : Text) (h : t.dropWhile p ≠ []) :
    (t ++ e).takeWhile p = t.takeWhile p ∧ (t ++ e).dropWhile p = t.dropWhile p ++ e := by
  induction t with
  | nil => simp at h
  | cons c t ih =>
    by_cases hc : p c = true
    · simp only [List.dropWhile_cons, hc, if_true] at h
      simp [hc, ih h]
    · simp [hc]

theorem readName_ext {t n r : Text} (e : Text) (h : readName t = some (n, r)) (hr : r ≠ []) :
    readName (t ++ e) = some (n, r ++ e) := by
  unfold readName at h
  split at h
  · cases h
  · rename_i c u hc
    split at h
    · rename_i hs
      simp only [Option.some.injEq, Prod.mk.injEq] at h
      obtain ⟨rfl, rfl⟩ := h
      obtain ⟨e1, e2⟩ := takeWhile_ext t e hr
      unfold readName
      rw [e1, e2, hc]
      simp [hs]
    · cases h

theorem readNsName_ext {t n r : Text} (e : Text) (h : readNsName t = some (n, r)) (hr : r ≠ []) :
    readNsName (t ++ e) = some (n, r ++ e) := by
  unfold readNsName at h
  split at h
  · rename_i n' r' hn
    split at h
    · rename_i hc
      simp only [Option.some.injEq, Prod.mk.injEq] at h
      obtain ⟨rfl, rfl⟩ := h
      unfold readNsName
      rw [readName_ext e hn hr]
      simp [hc]
    · cases h
  · cases h

theorem skipSpace_ext {t : Text} (e : Text) (h : skipSpace t ≠ []) : skipSpace (t ++ e) = skipSpace t ++ e :=
  (takeWhile_ext t e h).2

theorem skipSpace_ne {t : Text} (h : skipSpace t ≠ []) : t ≠ [] := by
  rintro rfl; exact h rfl

theorem readAttrs_nil : readAttrs [] = none := by
  rw [readAttrs]
  simp [skipSpace, readNsName, readName]

theorem readNsName_nil : readNsName [] = none := by simp [readNsName, readName]

/-- A start tag that has been read does not depend on what follows. -/
theorem readAttrs_ext (e : Text) (t : Text) {as : List (Text × Text)} {b : Bool} {r : Text}
    (h : readAttrs t = some (as, b, r)) : readAttrs (t ++ e) = some (as, b, r ++ e) := by
  generalize hn : t.length = k
  induction k using Nat.strongRecOn generalizing t as b r with
  | _ k IH =>
    subst hn
    rw [readAttrs] at h
    have hne : skipSpace t ≠ [] := by
      intro hx
      rw [hx] at h
      simp [readNsName_nil] at h
    have hsk := skipSpace_ext e hne
    rw [readAttrs, hsk]
    split at h
    · rename_i r' hu
      rw [hu]
      simp only [Option.some.injEq, Prod.mk.injEq] at h
      obtain ⟨rfl, rfl, rfl⟩ := h
      rfl
    · rename_i r' hu
      rw [hu]
      simp only [Option.some.injEq, Prod.mk.injEq] at h
      obtain ⟨rfl, rfl, rfl⟩ := h
      rfl
    · cases h
    · rename_i h1 h2 h3
      obtain ⟨c, u, hcu⟩ : ∃ c u, skipSpace t = c :: u := by
        cases hs : skipSpace t with
        | nil => exact absurd hs hne
        | cons c u => exact ⟨c, u, rfl⟩
      have hc1 : c ≠ '>' := by rintro rfl; exact h1 _ hcu
      have hc2 : c ≠ '/' := by rintro rfl; exact h3 _ hcu
      split
      · rename_i hh; rw [hcu] at hh; simp at hh; exact absurd hh.1 hc1
      · rename_i hh; rw [hcu] at hh; simp at hh; exact absurd hh.1 hc2
      · rename_i hh; rw [hcu] at hh; simp at hh; exact absurd hh.1 hc2
      · split at h
        · cases h
        · rename_i n v hnv
          split at h
          · rename_i w hw
            split at h
            · rename_i q x hq
              split at h
              · rename_i hqq
                split at h
                · cases h
                · rename_i s y hy
                  split at h
                  · rename_i hlt
                    split at h
                    · rename_i as' e' r' hrec
                      simp only [Option.some.injEq, Prod.mk.injEq] at h
                      obtain ⟨rfl, rfl, rfl⟩ := h
                      have hv : v ≠ [] := skipSpace_ne (by rw [hw]; simp)
                      have e1 := readNsName_ext e hnv hv
                      rw [e1]
                      simp only
                      have e2 : skipSpace (v ++ e) = '=' :: (w ++ e) := by
                        rw [skipSpace_ext e (by rw [hw]; simp), hw]; rfl
                      rw [e2]
                      simp only
                      have e3 : skipSpace (w ++ e) = q :: (x ++ e) := by
                        rw [skipSpace_ext e (by rw [hq]; simp), hq]; rfl
                      rw [e3]
                      simp only [hqq, if_true]
                      rcases textData_ext e hy with ⟨-, hy0⟩ | hy'
                      · rw [hy0, readAttrs_nil] at hrec; cases hrec
                      · rw [hy']
                        simp only
                        rw [if_pos (by simp; omega), IH _ hlt y hrec rfl]
                    · cases h
                  · cases h
              · cases h
            · cases h
          · cases h

theorem readPI_ext (e : Text) (t : Text) {d r : Text} (h : readPI t = some (d, r)) : readPI (t ++ e) = some (d, r ++ e) := by
  induction t using readPI.induct generalizing d r with
  | case1 r' =>
    simp only [readPI, Option.some.injEq, Prod.mk.injEq] at h
    obtain ⟨rfl, rfl⟩ := h
    simp [readPI]
  | case2 c t' hne ih =>
    rw [readPI] at h
    · cases hp : readPI t' with
      | none => rw [hp] at h; simp at h
      | some p =>
        rw [hp] at h
        simp only [Option.map_some, Option.some.injEq, Prod.mk.injEq] at h
        obtain ⟨rfl, rfl⟩ := h
        have := ih (d := p.1) (r := p.2) (by rw [hp])
        rw [List.cons_append, readPI]
        · rw [this]; rfl
        · intro r2 h1 h2
          cases t' with
          | nil => simp [readPI] at hp
          | cons x t'' =>
            simp only [List.cons_append, List.cons.injEq] at h2
            exact hne t'' h1 (by rw [h2.1])
    · exact hne
  | case3 => simp [readPI] at h

theorem readComment_ext (e : Text) (t : Text) {r : Text} (h : readComment t = some r) : readComment (t ++ e) = some (r ++ e) := by
  induction t using readComment.induct generalizing r with
  | case1 r' => simp [readComment] at h; subst h; simp [readComment]
  | case2 t' hne => rw [readComment] at h; cases h; exact hne
  | case3 c t' h1 h2 ih =>
    rw [readComment] at h
    · have := ih h
      rw [List.cons_append, readComment]
      · exact this
      · intro r2 a b
        cases t' with
        | nil => simp [readComment] at h
        | cons x t'' =>
          simp only [List.cons_append, List.cons.injEq] at b
          exact h2 t'' a (by rw [b.1])
      · intro r2 a b
        cases t' with
        | nil => simp [readComment] at h
        | cons x t'' =>
          simp only [List.cons_append, List.cons.injEq] at b
          exact h2 t'' a (by rw [b.1])
    all_goals assumption
  | case4 => simp [readComment] at h

theorem readDirective_ext (e : Text) (t : Text) : ∀ {q : Option Char} {n : Nat} {r : Text}, readDirective q n t = some r →
    readDirective q n (t ++ e) = some (r ++ e) := by
  induction t with
  | nil => intro q n r h; simp [readDirective] at h
  | cons c t ih =>
    intro q n r h
    rw [List.cons_append]
    simp only [readDirective] at h ⊢
    repeat' split at h
    all_goals repeat' split
    all_goals first
      | contradiction
      | exact ih h
      | (simp only [Option.some.injEq] at h; subst h; simp_all)

theorem isPrefixOf_ext {p u : Text} (e : Text) (h : p.isPrefixOf u = true) :
    p.isPrefixOf (u ++ e) = true ∧ (u ++ e).drop p.length = u.drop p.length ++ e := by
  rw [List.isPrefixOf_iff_prefix] at h
  obtain ⟨v, rfl⟩ := h
  refine ⟨?_, ?_⟩
  · rw [List.isPrefixOf_iff_prefix, List.append_assoc]
    exact ⟨_, rfl⟩
  · simp

/-- A token that has been read does not depend on what follows, unless it is character data at the end. -/
theorem rawToken_ext (e : Text) {t r : Text} {k : Tok} (h : rawToken t = some (k, r)) :
    (r = [] ∧ ∃ s, k = .data s) ∨ rawToken (t ++ e) = some (k, r ++ e) := by
  rw [rawToken.eq_def] at h
  split at h
  · cases h
  · right
    rename_i u
    split at h
    · rename_i n v hn
      split at h
      · rename_i r' hr
        simp only [Option.some.injEq, Prod.mk.injEq] at h
        obtain ⟨rfl, rfl⟩ := h
        have hv : v ≠ [] := skipSpace_ne (by rw [hr]; simp)
        simp only [List.cons_append, rawToken]
        rw [readNsName_ext e hn hv]
        simp only
        rw [skipSpace_ext e (by rw [hr]; simp), hr]
        rfl
      · cases h
    · cases h
  · right
    rename_i u
    split at h
    · rename_i n v hn
      split at h
      · rename_i d r' hr
        split at h
        · cases h
        · rename_i hd
          simp only [Option.some.injEq, Prod.mk.injEq] at h
          obtain ⟨rfl, rfl⟩ := h
          have hs : skipSpace v ≠ [] := by intro hx; rw [hx] at hr; simp [readPI] at hr
          simp only [List.cons_append, rawToken]
          rw [readName_ext e hn (skipSpace_ne hs)]
          simp only
          rw [skipSpace_ext e hs, readPI_ext e _ hr]
          simp only
          rw [if_neg hd]
      · cases h
    · cases h
  · right
    rename_i u
    split at h
    · rename_i v
      cases hc : readComment v with
      | none => rw [hc] at h; cases h
      | some r' =>
        rw [hc] at h
        simp only [Option.map_some, Option.some.injEq, Prod.mk.injEq] at h
        obtain ⟨rfl, rfl⟩ := h
        simp only [List.cons_append, rawToken]
        rw [readComment_ext e _ hc]
        rfl
    · cases h
  · rename_i u
    split at h
    · rename_i hp
      cases hc : textData none true (u.drop 6) with
      | none => rw [hc] at h; cases h
      | some p =>
        rw [hc] at h
        simp only [Option.map_some, Option.some.injEq, Prod.mk.injEq] at h
        obtain ⟨rfl, rfl⟩ := h
        rcases textData_ext (s := p.1) (r := p.2) e hc with ⟨h', -⟩ | h'
        · cases h'
        · right
          obtain ⟨e1, e2⟩ := isPrefixOf_ext e hp
          have e2' : (u ++ e).drop 6 = u.drop 6 ++ e := e2
          simp only [List.cons_append, rawToken]
          rw [if_pos e1, e2', h']
          rfl
    · cases h
  · right
    rename_i h1 h2 u
    split at h
    · rename_i c v
      cases hc : readDirective none 0 v with
      | none => rw [hc] at h; cases h
      | some r' =>
        rw [hc] at h
        simp only [Option.map_some, Option.some.injEq, Prod.mk.injEq] at h
        obtain ⟨rfl, rfl⟩ := h
        simp only [List.cons_append]
        rw [rawToken]
        · rw [readDirective_ext e _ hc]
          rfl
        · intro w hw; simp only [List.cons.injEq] at hw; obtain ⟨rfl, rfl⟩ := hw; simp at *
        · intro w hw; simp only [List.cons.injEq] at hw; obtain ⟨rfl, rfl⟩ := hw; simp at *
    · cases h
  · right
    rename_i u h1 h2 h3 h4 h5
    split at h
    · rename_i n v hn
      split at h
      · rename_i as b r' hr
        simp only [Option.some.injEq, Prod.mk.injEq] at h
        obtain ⟨rfl, rfl⟩ := h
        have hv : v ≠ [] := by rintro rfl; rw [readAttrs_nil] at hr; cases hr
        obtain ⟨c, w, rfl⟩ : ∃ c w, u = c :: w := by
          cases u with
          | nil => rw [readNsName_nil] at hn; cases hn
          | cons c w => exact ⟨c, w, rfl⟩
        simp only [List.cons_append]
        rw [rawToken]
        · have e1 := readNsName_ext e hn hv
          rw [List.cons_append] at e1
          rw [e1]
          simp only
          rw [readAttrs_ext e _ hr]
        all_goals (intro w' hw; simp only [List.cons.injEq] at hw; simp_all)
      · cases h
    · cases h
  · rename_i h0 h1 h2 h3 h4 h5 h6
    cases hc : textData none false t with
    | none => rw [hc] at h; cases h
    | some p =>
      rw [hc] at h
      simp only [Option.map_some, Option.some.injEq, Prod.mk.injEq] at h
      obtain ⟨rfl, rfl⟩ := h
      rcases textData_ext (s := p.1) (r := p.2) e hc with ⟨-, h'⟩ | h'
      · exact Or.inl ⟨h', _, rfl⟩
      · right
        obtain ⟨c, u, rfl⟩ : ∃ c u, t = c :: u := by
          cases t with
          | nil => exact absurd rfl h0
          | cons c u => exact ⟨c, u, rfl⟩
        have hc' : c ≠ '<' := by rintro rfl; exact h6 _ rfl
        rw [List.cons_append] at h' ⊢
        rw [rawToken]
        · rw [h']; rfl
        all_goals simp [hc']

/-! ### Trees -/

/-- `readTree`, with what it leaves unread. -/
def readRest (st : List Open) (t : Text) : Option (XNode × Text) :=
  match rawToken t with
  | none => none
  | some (k, r) =>
    match onToken st k with
    | none => none
    | some (.inr n) => some (n, r)
    | some (.inl st') => if r.length < t.length then readRest st' r else none
termination_by t.length

theorem readTree_rest (st : List Open) (t : Text) : readTree st t = (readRest st t).map Prod.fst := by
  generalize hn : t.length = k
  induction k using Nat.strongRecOn generalizing t st with
  | _ k IH =>
    subst hn
    rw [readTree, readRest]
    cases h1 : rawToken t with
    | none => rfl
    | some p =>
      obtain ⟨k, r⟩ := p
      simp only
      cases h2 : onToken st k with
      | none => rfl
      | some x =>
        cases x with
        | inr n => rfl
        | inl st' =>
          simp only
          split
          · rename_i hlt
            exact IH _ hlt _ _ rfl
          · rfl

theorem readRest_nil (st : List Open) : readRest st [] = none := by
  rw [readRest]; rfl

theorem onToken_data {st : List Open} {s : Text} {n : XNode} : onToken st (.data s) ≠ some (.inr n) := by
  cases st <;> simp [onToken]

/-- A tree that has been read does not depend on what follows. -/
theorem readRest_ext (e : Text) (st : List Open) (t : Text) {n : XNode} {r : Text} (h : readRest st t = some (n, r)) :
    readRest st (t ++ e) = some (n, r ++ e) := by
  generalize hn : t.length = k
  induction k using Nat.strongRecOn generalizing t st n r with
  | _ k IH =>
    subst hn
    rw [readRest] at h
    split at h
    · cases h
    · rename_i k r' hk
      split at h
      · cases h
      · rename_i n' hn'
        simp only [Option.some.injEq, Prod.mk.injEq] at h
        obtain ⟨rfl, rfl⟩ := h
        rcases rawToken_ext e hk with ⟨-, s, rfl⟩ | hk'
        · exact absurd hn' onToken_data
        · rw [readRest, hk']
          simp only [hn']
      · rename_i st' hst
        split at h
        · rename_i hlt
          rcases rawToken_ext e hk with ⟨rfl, -⟩ | hk'
          · rw [readRest_nil] at h; cases h
          · rw [readRest, hk']
            simp only [hst]
            rw [if_pos (by simp; omega)]
            exact IH _ hlt _ _ h rfl
        · cases h

/-- What the reader does next. -/
def goRest (x : List Open ⊕ XNode) (t : Text) : Option (XNode × Text) :=
  match x with
  | .inr n => some (n, t)
  | .inl st => readRest st t

theorem readRest_step {st : List Open} {t r : Text} {k : Tok} {x : List Open ⊕ XNode} (h1 : rawToken t = some (k, r))
    (h2 : onToken st k = some x) (h3 : r.length < t.length) : readRest st t = goRest x r := by
  rw [readRest, h1]
  simp only [h2]
  cases x with
  | inl st' => simp [goRest, h3]
  | inr n => rfl

mutual
theorem readRest_elem (st : List Open) (t : Text) (n : Text) (as : List (Text × Text)) (ks : List XNode)
    (h : tidy (.elem n as ks) = true) :
    readRest st (print (.elem n as ks) ++ t) = goRest (addKid st (cleanNode (.elem n as ks))) t := by
  simp only [tidy, Bool.and_eq_true] at h
  obtain ⟨⟨hn, ha⟩, hk⟩ := h
  have e : print (.elem n as ks) ++ t =
      '<' :: (n ++ (as.flatMap printAttr ++ '>' :: (prints ks ++ '<' :: '/' :: (n ++ '>' :: t)))) := by
    simp [print]
  rw [e, readRest_step (rawToken_start hn ha _) rfl (by simp; omega)]
  simp only [goRest, onToken]
  have := readRest_kids ⟨n, as.map (fun a => (a.1, cleanText a.2)), []⟩ st ('/' :: (n ++ '>' :: t)) false ks hk
  rw [this, readRest_step (rawToken_close hn t) (by simp [onToken]; rfl) (by simp; omega)]
  simp [cleanNode, goRest]
theorem readRest_kids (o : Open) (os : List Open) (t : Text) (prev : Bool) (ks : List XNode) (h : tidys prev ks = true) :
    readRest (o :: os) (prints ks ++ '<' :: t) =
      readRest ({ o with kids := (cleanNodes ks).reverse ++ o.kids } :: os) ('<' :: t) := by
  match ks with
  | [] => simp [prints, cleanNodes]
  | .text s :: ks =>
    simp only [tidys, Bool.and_eq_true, Bool.not_eq_true', List.isEmpty_eq_false_iff] at h
    have hs : s ≠ [] := h.1.2
    have hnext : ∃ w, prints ks ++ '<' :: t = '<' :: w := by
      match ks, h with
      | [], _ => exact ⟨t, rfl⟩
      | .text _ :: _, h => simp [tidys] at h
      | .elem _ _ _ :: _, _ => exact ⟨_, by simp [prints, print]; rfl⟩
    obtain ⟨w, hw⟩ := hnext
    have ih := readRest_kids { o with kids := .text (cleanText s) :: o.kids } os t true ks h.2
    rw [hw] at ih
    have hlen : ('<' :: w).length < (s.flatMap escape ++ '<' :: w).length := by
      cases s with
      | nil => exact absurd rfl hs
      | cons c s =>
        obtain ⟨d, u, hd, -⟩ := escape_head c
        simp [hd]; omega
    rw [prints, print, List.append_assoc, hw, readRest_step (rawToken_text hs w) rfl hlen]
    simp only [goRest]
    rw [ih]
    simp [cleanNodes, cleanNode]
  | .elem n as cs :: ks =>
    simp only [tidys, Bool.and_eq_true] at h
    have ih := readRest_kids { o with kids := cleanNode (.elem n as cs) :: o.kids } os t false ks h.2
    rw [prints, List.append_assoc, readRest_elem (o :: os) _ n as cs h.1]
    simp only [addKid, goRest]
    rw [ih]
    simp [cleanNodes]
end

/-- A document that breaks off is not read as a tree. -/
theorem parse_cut {n : XNode} (h : tidy n = true) (he : ∃ a b c, n = .elem a b c) {t e : Text} (ht : t ++ e = print n)
    (hne : e ≠ []) : parseXml t = none := by
  obtain ⟨a, b, c, rfl⟩ := he
  unfold parseXml
  rw [readTree_rest]
  cases hr : readRest [] t with
  | none => rfl
  | some p =>
    exfalso
    have h1 := readRest_ext e [] t (n := p.1) (r := p.2) hr
    have h2 := readRest_elem [] [] a b c h
    rw [List.append_nil, ← ht, h1] at h2
    simp only [addKid, goRest, Option.some.injEq, Prod.mk.injEq] at h2
    have := congrArg List.length h2.2
    simp only [List.length_append, List.length_nil] at this
    exact hne (List.eq_nil_of_length_eq_zero (by omega))

end Verif.Xml
