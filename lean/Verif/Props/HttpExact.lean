import Verif.Props.Http
import Mathlib.Tactic.IntervalCases
/-!
# Which identities can connect, and under which id (C41)
-/
namespace Verif.Http

/-- No control character. -/
def Printable (t : Text) : Prop := ∀ c ∈ t, 0x20 ≤ c.toNat ∧ c.toNat ≠ 0x7F

/-- `p` is the part of `t` before its first `?` or `#`. -/
def CutAt (t p : Text) : Prop :=
  (∀ c ∈ p, c ≠ '?' ∧ c ≠ '#') ∧ (t = p ∨ ∃ x r, (x = '?' ∨ x = '#') ∧ t = p ++ x :: r)

/-- The hexadecimal digit with this value. -/
def HexDigit (c : Char) (v : Nat) : Prop :=
  "0123456789abcdef".toList[v]? = some c ∨ "0123456789ABCDEF".toList[v]? = some c

/-- `t` with its percent escapes is a spelling of `u`. -/
inductive Spells : Text → Text → Prop where
  | nil : Spells [] []
  | plain {c t u} : c ≠ '%' → Spells t u → Spells (c :: t) (c :: u)
  | escape {a b x y t u} : HexDigit a x → HexDigit b y → Spells t u → Spells ('%' :: a :: b :: t) (Char.ofNat (16 * x + y) :: u)

/-- A segment that is neither empty nor a dot segment. -/
def GoodSegment (s : Text) : Prop := s ≠ [] ∧ s ≠ ['.'] ∧ s ≠ ['.', '.'] ∧ ∀ c ∈ s, c ≠ '/'

/-- Good segments separated by slashes, possibly with a slash at the end; or nothing. -/
def GoodPath (t : Text) : Prop :=
  t = [] ∨ ∃ ss : List Text, ss ≠ [] ∧ (∀ s ∈ ss, GoodSegment s) ∧ ('/' :: t = pathText ss ∨ '/' :: t = pathText ss ++ ['/'])

theorem unhex_iff (c : Char) (v : Nat) : unhex c = some v ↔ HexDigit c v := by
  constructor
  · intro h
    have hc : c = Char.ofNat c.toNat := by simp
    unfold unhex at h
    have hr : (48 ≤ c.toNat ∧ c.toNat ≤ 57) ∨ (97 ≤ c.toNat ∧ c.toNat ≤ 102) ∨ (65 ≤ c.toNat ∧ c.toNat ≤ 70) := by
      split at h
      · rename_i hx; exact .inl ⟨hx.1, hx.2⟩
      · split at h
        · rename_i hx; exact .inr (.inl ⟨hx.1, hx.2⟩)
        · split at h
          · rename_i hx; exact .inr (.inr ⟨hx.1, hx.2⟩)
          · cases h
    generalize c.toNat = n at hc hr
    subst hc
    have hn : n ≤ 102 := by omega
    unfold HexDigit
    rcases hr with ⟨h1, h2⟩ | ⟨h1, h2⟩ | ⟨h1, h2⟩ <;> interval_cases n <;> (simp at h; subst h; decide)
  · rintro (h | h)
    all_goals
      have hlt := (List.getElem?_eq_some_iff.1 h).1
      have hv : v < 16 := hlt
      interval_cases v <;> (simp at h; subst h; decide)

theorem unescape_iff (t u : Text) : unescape t = some u ↔ Spells t u := by
  constructor
  · intro h
    induction t using unescape.induct generalizing u with
    | case1 a b r ih =>
      simp only [unescape, Option.bind_eq_bind, Option.bind_eq_some_iff, Option.pure_def, Option.some.injEq] at h
      obtain ⟨x, hx, y, hy, t, ht, rfl⟩ := h
      exact .escape ((unhex_iff _ _).1 hx) ((unhex_iff _ _).1 hy) (ih _ ht)
    | case2 r hr =>
      rw [unescape.eq_def] at h
      split at h
      · rename_i heq; simp at heq; exact (hr _ _ _ heq).elim
      · cases h
      · rename_i h1 heq; simp only [List.cons.injEq] at heq; exact (h1 heq.1.symm).elim
      · rename_i heq; cases heq
    | case3 c r h1 h2 ih =>
      have hc : c ≠ '%' := h2
      rw [unescape.eq_def] at h
      split at h
      · rename_i heq; simp at heq; exact (hc heq.1).elim
      · rename_i heq; simp at heq; exact (hc heq.1).elim
      · rename_i heq
        simp only [List.cons.injEq] at heq
        obtain ⟨rfl, rfl⟩ := heq
        simp only [Option.map_eq_map, Option.map_eq_some_iff] at h
        obtain ⟨t, ht, rfl⟩ := h
        exact .plain hc (ih _ ht)
      · rename_i heq; cases heq
    | case4 =>
      simp [unescape] at h; subst h; exact .nil
  · intro h
    induction h with
    | nil => simp [unescape]
    | @plain c t u hc _ ih =>
      rw [unescape.eq_def]
      split
      · rename_i heq; simp at heq; exact (hc heq.1).elim
      · rename_i heq; simp at heq; exact (hc heq.1).elim
      · rename_i heq
        simp only [List.cons.injEq] at heq
        obtain ⟨rfl, rfl⟩ := heq
        rw [ih]; rfl
      · rename_i heq; cases heq
    | @escape a b x y t u ha hb _ ih =>
      simp [unescape, (unhex_iff _ _).2 ha, (unhex_iff _ _).2 hb, ih]

theorem segments_noslash (t : Text) : ∀ s ∈ segments t, ∀ c ∈ s, c ≠ '/' := by
  induction t with
  | nil => simp [segments]
  | cons c r ih =>
    rw [segments]
    split
    · intro s hs
      simp only [List.mem_cons] at hs
      rcases hs with rfl | hs
      · simp
      · exact ih s hs
    · rename_i hc
      split
      · simp [hc]
      · rename_i s ss heq
        rw [heq] at ih
        intro s' hs' d hd
        simp only [List.mem_cons] at hs'
        rcases hs' with rfl | hs'
        · rcases List.mem_cons.1 hd with rfl | hd
          · exact hc
          · exact ih s (by simp) d hd
        · exact ih s' (by simp [hs']) d hd

theorem cleanSegs_good (ss acc : List Text) (ha : ∀ s ∈ acc, GoodSegment s) (hs : ∀ s ∈ ss, ∀ c ∈ s, c ≠ '/') :
    ∀ s ∈ cleanSegs acc ss, GoodSegment s := by
  induction ss generalizing acc with
  | nil => simpa [cleanSegs] using ha
  | cons s ss ih =>
    have hs' : ∀ s ∈ ss, ∀ c ∈ s, c ≠ '/' := fun x hx => hs x (by simp [hx])
    rw [cleanSegs]
    split
    · exact ih acc ha hs'
    · rename_i h1
      split
      · exact ih acc.tail (fun x hx => ha x (List.mem_of_mem_tail hx)) hs'
      · rename_i h2
        refine ih (s :: acc) ?_ hs'
        intro x hx
        rcases List.mem_cons.1 hx with rfl | hx
        · exact ⟨fun h => h1 (.inl h), fun h => h1 (.inr h), h2, hs x (by simp)⟩
        · exact ha x hx

theorem segments_trailing (ss : List Text) (h : ∀ s ∈ ss, ∀ c ∈ s, c ≠ '/') :
    segments (pathText ss ++ ['/']) = [] :: ss ++ [[]] := by
  induction ss with
  | nil => simp [pathText, segments]
  | cons s ss ih =>
    have ih := ih (fun s hm => h s (by simp [hm]))
    have e : pathText (s :: ss) ++ ['/'] = '/' :: (s ++ (pathText ss ++ ['/'])) := by simp [pathText]
    obtain ⟨r, hr⟩ : ∃ r, pathText ss ++ ['/'] = '/' :: r := by
      cases ss with
      | nil => exact ⟨[], rfl⟩
      | cons a b => exact ⟨a ++ (pathText b ++ ['/']), by simp [pathText]⟩
    rw [hr, segments_slash] at ih
    rw [e, hr, segments_slash, segments_plain_append _ _ (h s (by simp))]
    simp only [List.cons_append, List.cons.injEq, true_and] at ih
    rw [ih]; simp

theorem cleanPath_slash (t : Text) : cleanPath ('/' :: t) = '/' :: t ↔ GoodPath t := by
  have e : cleanPath ('/' :: t) = (let np := joinSegs (cleanSegs [] (segments ('/' :: t)));
      if np = [] then ['/'] else if ('/' :: t).getLast? = some '/' then np ++ ['/'] else np) := rfl
  rw [e]
  constructor
  · intro h
    have hg := cleanSegs_good (segments ('/' :: t)) [] (by simp) (segments_noslash _)
    generalize cleanSegs [] (segments ('/' :: t)) = ss at h hg
    simp only at h
    have hj : joinSegs ss = pathText ss := rfl
    split at h
    · left; simpa using h.symm
    · rename_i hne
      have hss : ss ≠ [] := by rintro rfl; exact hne rfl
      split at h
      · exact .inr ⟨ss, hss, hg, .inr (by rw [← h, hj])⟩
      · exact .inr ⟨ss, hss, hg, .inl (by rw [← h, hj])⟩
  · rintro (rfl | ⟨ss, hss, hg, h | h⟩)
    · rfl
    · rw [h]
      have hseg := segments_pathText ss hss (fun s hs => (hg s hs).2.2.2)
      have hc : cleanSegs [] ([] :: ss) = ss := by
        simp only [cleanSegs, true_or, if_true]
        rw [cleanSegs_plain [] ss (fun s hm => ⟨(hg s hm).1, (hg s hm).2.1, (hg s hm).2.2.1⟩)]; simp
      have hlast := getLast?_pathText ss hss (fun s hm => ⟨(hg s hm).1, (hg s hm).2.2.2⟩)
      have hne : pathText ss ≠ [] := by rw [← h]; simp
      have hj : joinSegs ss = pathText ss := rfl
      simp only [hseg, hc, hj, if_neg hne, if_neg hlast]
    · rw [h]
      have hseg := segments_trailing ss (fun s hs => (hg s hs).2.2.2)
      have hc : cleanSegs [] ([] :: ss ++ [[]]) = ss := by
        have : ∀ acc, cleanSegs acc (ss ++ [[]]) = acc.reverse ++ ss := by
          clear h hss hseg
          induction ss with
          | nil => simp [cleanSegs]
          | cons s ss ih =>
            intro acc
            obtain ⟨h1, h2, h3, -⟩ := hg s (by simp)
            simp [cleanSegs, h1, h2, h3, ih (fun s hm => hg s (by simp [hm]))]
        simp only [List.cons_append, cleanSegs, true_or, if_true]
        rw [this]; rfl
      have hne : pathText ss ≠ [] := by
        cases ss with
        | nil => exact absurd rfl hss
        | cons s ss => simp [pathText]
      have hj : joinSegs ss = pathText ss := rfl
      simp only [hseg, hc, hj, if_neg hne]
      simp

theorem cutAt_iff (t p : Text) : before '?' (before '#' t) = p ↔ CutAt t p := by
  have key : ∀ t, CutAt t (before '?' (before '#' t)) := by
    intro t
    induction t with
    | nil => exact ⟨by simp [before], .inl rfl⟩
    | cons c r ih =>
      obtain ⟨h1, h2⟩ := ih
      by_cases hc : c = '#'
      · subst hc
        exact ⟨by simp [before], .inr ⟨'#', r, .inr rfl, by simp [before]⟩⟩
      · by_cases hq : c = '?'
        · subst hq
          exact ⟨by simp [before], .inr ⟨'?', r, .inl rfl, by simp [before]⟩⟩
        · have e : before '?' (before '#' (c :: r)) = c :: before '?' (before '#' r) := by
            simp [before, hc, hq]
          rw [e]
          refine ⟨?_, ?_⟩
          · intro d hd
            rcases List.mem_cons.1 hd with rfl | hd
            · exact ⟨hq, hc⟩
            · exact h1 d hd
          · rcases h2 with h2 | ⟨x, s, hx, h2⟩
            · exact .inl (by rw [← h2])
            · exact .inr ⟨x, s, hx, by rw [List.cons_append, ← h2]⟩
  have uniq : ∀ t p q, CutAt t p → CutAt t q → p = q := by
    intro t
    induction t with
    | nil =>
      rintro p q ⟨-, h1⟩ ⟨-, h2⟩
      rcases h1 with h1 | ⟨_, _, _, h1⟩ <;> rcases h2 with h2 | ⟨_, _, _, h2⟩ <;> simp_all
    | cons c r ih =>
      have shape : ∀ p, CutAt (c :: r) p → (p = [] ∧ (c = '?' ∨ c = '#')) ∨ (∃ p', p = c :: p' ∧ CutAt r p' ∧ c ≠ '?' ∧ c ≠ '#') := by
        rintro p ⟨h1, h2⟩
        cases p with
        | nil =>
          rcases h2 with h2 | ⟨x, s, hx, h2⟩
          · cases h2
          · simp at h2; obtain ⟨rfl, rfl⟩ := h2; exact .inl ⟨rfl, hx⟩
        | cons d p' =>
          have hd : d = c := by rcases h2 with h2 | ⟨x, s, hx, h2⟩ <;> simp at h2 <;> exact h2.1.symm
          subst hd
          refine .inr ⟨p', rfl, ⟨fun e he => h1 e (by simp [he]), ?_⟩, h1 d (by simp)⟩
          rcases h2 with h2 | ⟨x, s, hx, h2⟩ <;> simp at h2
          · exact .inl h2
          · exact .inr ⟨x, s, hx, h2⟩
      intro p q hp hq
      rcases shape p hp with ⟨rfl, h1⟩ | ⟨p', rfl, h1, h2⟩ <;> rcases shape q hq with ⟨rfl, h3⟩ | ⟨q', rfl, h3, h4⟩
      · rfl
      · rcases h1 with h1 | h1
        · exact absurd h1 h4.1
        · exact absurd h1 h4.2
      · rcases h3 with h3 | h3
        · exact absurd h3 h2.1
        · exact absurd h3 h2.2
      · rw [ih p' q' h1 h3]
  exact ⟨fun h => h ▸ key t, fun h => uniq t _ _ (key t) h⟩

open Classical in
/-- **C41** Which charge points can connect, and how they are known: a charge point that dials a plain host is registered as `id` exactly
if its identity has no control character, the part of the identity before its first `?` or `#` is a spelling of `id` (with percent
escapes decoded), and `id` consists of good segments (it may be empty, or end in a slash).  All others cannot connect. -/
theorem C41_exact (host : Text) (hh : PlainHost host) (identity id : Text) :
    registeredAs host identity = some id ↔ Printable identity ∧ (∃ p, CutAt identity p ∧ Spells p id) ∧ GoodPath id := by
  have hctl : (host ++ '/' :: identity).any (fun c => c.toNat < 0x20 || c.toNat == 0x7F) = false ↔ Printable identity := by
    rw [List.any_eq_false]
    simp only [List.mem_append, List.mem_cons, Bool.or_eq_true, decide_eq_true_eq, beq_iff_eq, not_or, Printable]
    constructor
    · intro h c hc
      have := h c (.inr (.inr hc)); exact ⟨by omega, this.2⟩
    · rintro h c (hc | rfl | hc)
      · have := hh c hc; exact ⟨by omega, this.2.2.2.2⟩
      · decide
      · have := h c hc; exact ⟨by omega, this.2⟩
  have hcut : before '?' (before '#' (host ++ '/' :: identity)) = host ++ '/' :: before '?' (before '#' identity) := by
    rw [before_append_of_not_mem '#' _ _ (fun c hc => (hh c hc).2.2.1)]
    have e : before '#' ('/' :: identity) = '/' :: before '#' identity := by simp [before]
    rw [e, before_append_of_not_mem '?' _ _ (fun c hc => (hh c hc).2.1)]
    simp [before]
  have hauth : ∀ r, before '/' (host ++ '/' :: r) = host := by
    intro r
    rw [before_append_of_not_mem _ _ _ (fun c hc => (hh c hc).1)]
    simp [before]
  have hparse : parseRest (host ++ '/' :: identity) =
      if Printable identity then (fun p => (host, '/' :: p)) <$> unescape (before '?' (before '#' identity)) else none := by
    unfold parseRest
    by_cases hp : Printable identity
    · rw [hctl.2 hp, if_pos hp]
      simp only [Bool.false_eq_true, if_false]
      rw [hcut, hauth]
      simp only [List.drop_left]
      have e : unescape ('/' :: before '?' (before '#' identity)) = ('/' :: ·) <$> unescape (before '?' (before '#' identity)) := by
        rw [unescape.eq_def]
        split
        · rename_i heq; simp at heq
        · rename_i heq; simp at heq
        · rename_i heq; simp only [List.cons.injEq] at heq; obtain ⟨rfl, rfl⟩ := heq; rfl
        · rename_i heq; cases heq
      rw [e]
      cases unescape (before '?' (before '#' identity)) <;> rfl
    · rw [if_neg hp]
      have : (host ++ '/' :: identity).any (fun c => c.toNat < 0x20 || c.toNat == 0x7F) = true := by
        rw [← Bool.not_eq_false]; exact fun h => hp (hctl.1 h)
      rw [this]; rfl
  have hserve : ∀ p id, (match serve (dialRequest ('/' :: p)) with | .websocket i => some i | _ => none) = some id ↔ p = id ∧ GoodPath id := by
    intro p id
    have hup : Request.isUpgrade (dialRequest ('/' :: p)) = true := by
      show (["Upgrade"].any (fun t : String => t.toList.map Char.toLower == "upgrade".toList) &&
        ["websocket"].any (fun t : String => t.toList.map Char.toLower == "websocket".toList)) = true
      decide
    unfold serve
    have hm : (dialRequest ('/' :: p)).method ≠ "CONNECT" := by simp [dialRequest]
    by_cases hg : GoodPath p
    · have hcl : cleanPath (dialRequest ('/' :: p)).path = (dialRequest ('/' :: p)).path := (cleanPath_slash p).2 hg
      rw [if_neg (by rw [hcl]; simp)]
      simp only [handler, hup, if_true]
      simp only [dialRequest, trimSlash, Option.some.injEq]
      constructor
      · rintro rfl; exact ⟨rfl, hg⟩
      · exact fun h => h.1
    · have hcl : cleanPath (dialRequest ('/' :: p)).path ≠ (dialRequest ('/' :: p)).path := fun h => hg ((cleanPath_slash p).1 h)
      rw [if_pos ⟨hm, hcl⟩]
      simp only [reduceCtorEq, false_iff]
      rintro ⟨rfl, h⟩; exact hg h
  unfold registeredAs dial
  rw [hparse]
  by_cases hp : Printable identity
  · rw [if_pos hp]
    have e : (∃ p, CutAt identity p ∧ Spells p id) ↔ unescape (before '?' (before '#' identity)) = some id := by
      rw [unescape_iff]
      constructor
      · rintro ⟨p, h1, h2⟩; rw [← cutAt_iff] at h1; rw [h1]; exact h2
      · intro h; exact ⟨_, (cutAt_iff _ _).1 rfl, h⟩
    rw [e]
    simp only [hp, true_and]
    cases hu : unescape (before '?' (before '#' identity)) with
    | none => simp
    | some u =>
      simp only [Option.map_eq_map, Option.map_some, Option.some.injEq]
      exact hserve u id
  · rw [if_neg hp]
    simp [hp]

/-- A charge point with an identity of two segments, one with an escaped space and slash. -/
example : registeredAs "h:80".toList "garage%202%2Fa/b".toList = some "garage 2/a/b".toList := by decide
/-- The empty identity connects, as the empty id. -/
example : registeredAs "h:80".toList [] = some [] := by decide
/-- An identity with an empty segment does not. -/
example : registeredAs "h:80".toList "a//b".toList = none := by decide

/-! ## What becomes of any request (C42) -/

/-- The request asks for an upgrade to the websocket protocol: letter case does not matter. -/
def AsksUpgrade (r : Request) : Prop :=
  (∃ t ∈ r.connection, t.toList.map Char.toLower = "upgrade".toList) ∧
  (∃ t ∈ r.upgrade, t.toList.map Char.toLower = "websocket".toList)

/-- A path as clean as the mux wants it. -/
def CleanPath (p : Text) : Prop := ∃ t, p = '/' :: t ∧ GoodPath t

/-- Simplifying the segments of a path: empty and `.` segments go, `..` goes with the segment before it, and at the root alone. -/
inductive Simplify : List Text → List Text → Prop where
  | done (ss) : Simplify ss ss
  | empty {xs ys zs} : Simplify (xs ++ ys) zs → Simplify (xs ++ [] :: ys) zs
  | dot {xs ys zs} : Simplify (xs ++ ys) zs → Simplify (xs ++ ['.'] :: ys) zs
  | up {xs s ys zs} : GoodSegment s → Simplify (xs ++ ys) zs → Simplify (xs ++ s :: ['.', '.'] :: ys) zs
  | root {ys zs} : Simplify ys zs → Simplify (['.', '.'] :: ys) zs

/-- The clean form of a path: its segments simplified as far as possible, and a slash at the end if there was one. -/
def CleanForm (p q : Text) : Prop :=
  ∃ ss, Simplify (segments p) ss ∧ (∀ s ∈ ss, GoodSegment s) ∧
    q = if ss = [] then ['/'] else if p.getLast? = some '/' then pathText ss ++ ['/'] else pathText ss

theorem cleanSegs_simplify (ss acc : List Text) (ha : ∀ s ∈ acc, GoodSegment s) (hs : ∀ s ∈ ss, ∀ c ∈ s, c ≠ '/') :
    Simplify (acc.reverse ++ ss) (cleanSegs acc ss) := by
  induction ss generalizing acc with
  | nil => simpa [cleanSegs] using Simplify.done _
  | cons s ss ih =>
    have hs' : ∀ s ∈ ss, ∀ c ∈ s, c ≠ '/' := fun x hx => hs x (by simp [hx])
    rw [cleanSegs]
    split
    · rename_i h
      rcases h with rfl | rfl
      · exact .empty (ih acc ha hs')
      · exact .dot (ih acc ha hs')
    · rename_i h1
      split
      · rename_i h2
        subst h2
        cases acc with
        | nil => exact .root (ih [] (by simp) hs')
        | cons a acc =>
          have h := ih acc (fun x hx => ha x (by simp [hx])) hs'
          have := Simplify.up (xs := acc.reverse) (ha a (by simp)) h
          simpa using this
      · rename_i h2
        have h := ih (s :: acc) ?_ hs'
        · simpa using h
        · intro x hx
          rcases List.mem_cons.1 hx with rfl | hx
          · exact ⟨fun h => h1 (.inl h), fun h => h1 (.inr h), h2, hs x (by simp)⟩
          · exact ha x hx

theorem isUpgrade_iff (r : Request) : r.isUpgrade = true ↔ AsksUpgrade r := by
  simp [Request.isUpgrade, AsksUpgrade]

theorem cleanPath_unrooted (c : Char) (t : Text) (hc : c ≠ '/') : cleanPath (c :: t) = cleanPath ('/' :: c :: t) := by
  unfold cleanPath
  split
  · rename_i heq; simp at heq; exact (hc heq.1).elim
  · rfl

theorem cleanPath_head (t : Text) : ∃ r, cleanPath ('/' :: t) = '/' :: r := by
  have e : cleanPath ('/' :: t) = (let np := joinSegs (cleanSegs [] (segments ('/' :: t)));
      if np = [] then ['/'] else if ('/' :: t).getLast? = some '/' then np ++ ['/'] else np) := rfl
  rw [e]
  generalize cleanSegs [] (segments ('/' :: t)) = ss
  cases ss with
  | nil => exact ⟨[], rfl⟩
  | cons s ss =>
    have hj : joinSegs (s :: ss) = '/' :: (s ++ joinSegs ss) := rfl
    simp only [hj]
    rw [if_neg (by simp)]
    split
    · exact ⟨_, rfl⟩
    · exact ⟨_, rfl⟩

theorem cleanPath_iff (p : Text) : cleanPath p = p ↔ CleanPath p := by
  constructor
  · intro h
    cases p with
    | nil => simp [cleanPath, segments, cleanSegs, joinSegs] at h
    | cons c t =>
      by_cases hc : c = '/'
      · subst hc; exact ⟨t, rfl, (cleanPath_slash t).1 h⟩
      · exfalso
        rw [cleanPath_unrooted c t hc] at h
        obtain ⟨r, hr⟩ := cleanPath_head (c :: t)
        rw [hr] at h
        simp at h; exact hc h.1.symm
  · rintro ⟨t, rfl, h⟩; exact (cleanPath_slash t).2 h

/-- **C42** The whole dispatch.  A request other than `CONNECT` whose path is not clean is redirected, to the clean form of its path;
any other request is a websocket connection, for the charge point named by the path after its slash, exactly if it asks for the
upgrade, and otherwise the landing page exactly if it is a `GET`, and otherwise SOAP. -/
theorem C42_serve (r : Request) :
    ((∃ q, serve r = .redirect q) ↔ r.method ≠ "CONNECT" ∧ ¬ CleanPath r.path) ∧
    (∀ q, serve r = .redirect q → CleanPath q ∧ (∀ t, r.path = '/' :: t → CleanForm r.path q)) ∧
    (∀ id, serve r = .websocket id ↔ (r.method = "CONNECT" ∨ CleanPath r.path) ∧ AsksUpgrade r ∧
      (r.path = '/' :: id ∨ (r.path = id ∧ ∀ t, id ≠ '/' :: t))) ∧
    (serve r = .landing ↔ CleanPath r.path ∧ ¬ AsksUpgrade r ∧ r.method = "GET") ∧
    (serve r = .soap ↔ (r.method = "CONNECT" ∨ CleanPath r.path) ∧ ¬ AsksUpgrade r ∧ r.method ≠ "GET") := by
  have hform : ∀ t, CleanForm ('/' :: t) (cleanPath ('/' :: t)) := by
    intro t
    have hs := segments_noslash ('/' :: t)
    refine ⟨_, by simpa using cleanSegs_simplify _ [] (by simp) hs, cleanSegs_good _ [] (by simp) hs, ?_⟩
    show (let np := joinSegs (cleanSegs [] (segments ('/' :: t)));
      if np = [] then ['/'] else if ('/' :: t).getLast? = some '/' then np ++ ['/'] else np) = _
    generalize cleanSegs [] (segments ('/' :: t)) = ss
    cases ss with
    | nil => rfl
    | cons s ss =>
      have hj : joinSegs (s :: ss) = pathText (s :: ss) := rfl
      simp only [hj]
      rw [if_neg (show ¬ pathText (s :: ss) = [] by simp [pathText]), if_neg (show ¬ s :: ss = [] by simp)]
  have hgood : ∀ p, CleanPath (cleanPath p) := by
    intro p
    have key : ∀ t, CleanPath (cleanPath ('/' :: t)) := by
      intro t
      obtain ⟨ss, -, hg, hq⟩ := hform t
      rw [hq]
      cases ss with
      | nil => exact ⟨[], rfl, .inl rfl⟩
      | cons s ss =>
        rw [if_neg (by simp)]
        split
        · exact ⟨s ++ pathText ss ++ ['/'], by simp [pathText], .inr ⟨s :: ss, by simp, hg, .inr (by simp [pathText])⟩⟩
        · exact ⟨s ++ pathText ss, by simp [pathText], .inr ⟨s :: ss, by simp, hg, .inl (by simp [pathText])⟩⟩
    cases p with
    | nil => exact key []
    | cons c t =>
      by_cases hc : c = '/'
      · subst hc; exact key t
      · rw [cleanPath_unrooted c t hc]; exact key _
  have htrim : ∀ p id, trimSlash p = id ↔ (p = '/' :: id ∨ (p = id ∧ ∀ t, id ≠ '/' :: t)) := by
    intro p id
    unfold trimSlash
    split
    · rename_i r
      constructor
      · rintro rfl; exact .inl rfl
      · rintro (h | ⟨h1, h2⟩)
        · simpa using h
        · exact (h2 _ h1.symm).elim
    · rename_i h
      constructor
      · rintro rfl; exact .inr ⟨rfl, fun t => h t⟩
      · rintro (h1 | ⟨h1, -⟩)
        · exact (h _ h1).elim
        · exact h1
  have hu := isUpgrade_iff r
  by_cases hr : r.method ≠ "CONNECT" ∧ ¬ CleanPath r.path
  · have hs : serve r = .redirect (cleanPath r.path) := by
      unfold serve; rw [if_pos ⟨hr.1, fun h => hr.2 ((cleanPath_iff _).1 h)⟩]
    rw [hs]
    refine ⟨⟨fun _ => hr, fun _ => ⟨_, rfl⟩⟩, ?_, ?_, ?_, ?_⟩
    · intro q hq
      cases hq
      exact ⟨hgood _, fun t ht => by rw [ht]; exact hform t⟩
    · intro id
      simp only [reduceCtorEq, false_iff]
      rintro ⟨h | h, -⟩
      · exact hr.1 h
      · exact hr.2 h
    · simp only [reduceCtorEq, false_iff]
      rintro ⟨h, -⟩; exact hr.2 h
    · simp only [reduceCtorEq, false_iff]
      rintro ⟨h | h, -⟩
      · exact hr.1 h
      · exact hr.2 h
  · have hs : serve r = handler r := by
      unfold serve; rw [if_neg (fun h => hr ⟨h.1, fun h' => h.2 ((cleanPath_iff _).2 h')⟩)]
    have hr' : r.method = "CONNECT" ∨ CleanPath r.path := by
      by_cases h : r.method = "CONNECT"
      · exact .inl h
      · exact .inr (by_contra fun h' => hr ⟨h, h'⟩)
    have hget : r.method = "GET" → CleanPath r.path := by
      intro h
      rcases hr' with h' | h'
      · rw [h] at h'; exact absurd h' (by decide)
      · exact h'
    rw [hs]
    unfold handler
    by_cases hup : r.isUpgrade = true
    · have := hu.1 hup
      simp only [hup, if_true, reduceCtorEq, exists_false, false_iff, Action.websocket.injEq]
      exact ⟨hr, fun q h => h.elim, fun id => by rw [htrim]; exact ⟨fun h => ⟨hr', this, h⟩, fun h => h.2.2⟩,
        fun h => h.2.1 this, fun h => h.2.1 this⟩
    · have hn : ¬ AsksUpgrade r := fun h => hup (hu.2 h)
      rw [if_neg hup]
      by_cases hm : r.method = "GET"
      · rw [if_pos hm]
        simp only [reduceCtorEq, exists_false, false_iff, true_iff]
        exact ⟨hr, fun q h => h.elim, fun id h => hn h.2.1, ⟨hget hm, hn, hm⟩, fun h => h.2.2 hm⟩
      · rw [if_neg hm]
        simp only [reduceCtorEq, exists_false, false_iff, true_iff]
        exact ⟨hr, fun q h => h.elim, fun id h => hn h.2.1, fun h => hm h.2.2, hr', hn, hm⟩

/-- A `GET` of a path with dot segments is redirected. -/
example : serve { method := "GET", path := "/a/./b/..//c/".toList, connection := [], upgrade := [] } = .redirect "/a/c/".toList := by decide
/-- An upgrade in other letter case. -/
example : serve { method := "GET", path := "/cp1".toList, connection := ["keep-alive", "UPGRADE"], upgrade := ["WebSocket"] } =
    .websocket "cp1".toList := by decide

end Verif.Http
