import Verif.Model.Http
/-!
# Identity and HTTP dispatch: properties C41, C42
-/
namespace Verif.Http

/-- RFC 3986 unreserved characters. -/
def Unreserved (c : Char) : Prop :=
  c.isAlphanum = true ∨ c = '-' ∨ c = '.' ∨ c = '_' ∨ c = '~'

/-- A path segment that needs no escaping and is no dot segment. -/
def PlainSegment (t : Text) : Prop :=
  t ≠ [] ∧ (∀ c ∈ t, Unreserved c) ∧ t ≠ ['.'] ∧ t ≠ ['.', '.']

/-- A host (with optional port): no slash, query, fragment or control character. -/
def PlainHost (t : Text) : Prop :=
  ∀ c ∈ t, c ≠ '/' ∧ c ≠ '?' ∧ c ≠ '#' ∧ 0x20 ≤ c.toNat ∧ c.toNat ≠ 0x7F

theorem unreserved_facts {c : Char} (h : Unreserved c) :
    c ≠ '/' ∧ c ≠ '?' ∧ c ≠ '#' ∧ c ≠ '%' ∧ 0x20 ≤ c.toNat ∧ c.toNat ≠ 0x7F := by
  rcases h with h | rfl | rfl | rfl | rfl
  · simp only [Char.isAlphanum, Char.isAlpha, Char.isUpper, Char.isLower, Char.isDigit,
      Bool.or_eq_true, Bool.and_eq_true, decide_eq_true_eq] at h
    have hn : (65 ≤ c.toNat ∧ c.toNat ≤ 90) ∨ (97 ≤ c.toNat ∧ c.toNat ≤ 122) ∨
        (48 ≤ c.toNat ∧ c.toNat ≤ 57) := by
      simp only [ge_iff_le, UInt32.le_iff_toNat_le] at h
      rcases h with (h | h) | h
      · exact .inl h
      · exact .inr (.inl h)
      · exact .inr (.inr h)
    refine ⟨?_, ?_, ?_, ?_, by omega, by omega⟩ <;> (rintro rfl; revert hn; decide)
  all_goals decide

theorem unescape_plain (t : Text) (h : ∀ c ∈ t, c ≠ '%') : unescape t = some t := by
  induction t with
  | nil => simp [unescape]
  | cons c r ih =>
    have hc : c ≠ '%' := h c (by simp)
    rw [unescape.eq_def]
    split
    · rename_i heq; simp at heq; exact absurd heq.1 hc
    · rename_i heq; simp at heq; exact absurd heq.1 hc
    · rename_i heq; simp at heq; obtain ⟨rfl, rfl⟩ := heq
      rw [ih (fun c hm => h c (by simp [hm]))]; rfl
    · rename_i heq; simp at heq

theorem before_append_of_not_mem (c : Char) (a b : Text) (h : ∀ x ∈ a, x ≠ c) :
    before c (a ++ b) = a ++ before c b := by
  unfold before
  rw [List.takeWhile_append_of_pos]
  intro x hx; simpa using h x hx

theorem before_not_mem (c : Char) (a : Text) (h : ∀ x ∈ a, x ≠ c) : before c a = a := by
  have := before_append_of_not_mem c a [] h
  simpa [before] using this

/-- The text of a path with the given segments. -/
def pathText (ss : List Text) : Text := ss.flatMap ('/' :: ·)

theorem segments_slash (t : Text) : segments ('/' :: t) = [] :: segments t := by
  simp [segments]

theorem segments_ne_nil (t : Text) : segments t ≠ [] := by
  cases t with
  | nil => simp [segments]
  | cons c r =>
    rw [segments]
    split
    · simp
    · split <;> simp

theorem segments_plain_append (a b : Text) (h : ∀ c ∈ a, c ≠ '/') :
    segments (a ++ '/' :: b) = a :: segments b := by
  induction a with
  | nil => simp [segments]
  | cons c r ih =>
    have hc : c ≠ '/' := h c (by simp)
    simp only [List.cons_append, segments, hc, if_false]
    rw [ih (fun c hm => h c (by simp [hm]))]

theorem segments_plain (a : Text) (h : ∀ c ∈ a, c ≠ '/') : segments a = [a] := by
  induction a with
  | nil => simp [segments]
  | cons c r ih =>
    have hc : c ≠ '/' := h c (by simp)
    simp only [segments, hc, if_false]
    rw [ih (fun c hm => h c (by simp [hm]))]

theorem segments_pathText (ss : List Text) (hne : ss ≠ []) (h : ∀ s ∈ ss, ∀ c ∈ s, c ≠ '/') :
    segments (pathText ss) = [] :: ss := by
  induction ss with
  | nil => exact absurd rfl hne
  | cons s ss ih =>
    simp only [pathText, List.flatMap_cons, List.cons_append, segments_slash]
    congr 1
    cases ss with
    | nil => simp [segments_plain s (h s (by simp))]
    | cons s' ss' =>
      have := ih (by simp) (fun s hm => h s (by simp [hm]))
      simp only [pathText, List.flatMap_cons, List.cons_append] at this ⊢
      rw [segments_plain_append _ _ (h s (by simp))]
      rw [segments_slash] at this
      simp at this ⊢
      exact this

theorem cleanSegs_plain (acc ss : List Text)
    (h : ∀ s ∈ ss, s ≠ [] ∧ s ≠ ['.'] ∧ s ≠ ['.', '.']) : cleanSegs acc ss = acc.reverse ++ ss := by
  induction ss generalizing acc with
  | nil => simp [cleanSegs]
  | cons s ss ih =>
    obtain ⟨h1, h2, h3⟩ := h s (by simp)
    simp [cleanSegs, h1, h2, h3, ih _ (fun s hm => h s (by simp [hm]))]

theorem getLast?_pathText (ss : List Text) (hne : ss ≠ [])
    (h : ∀ s ∈ ss, s ≠ [] ∧ ∀ c ∈ s, c ≠ '/') : (pathText ss).getLast? ≠ some '/' := by
  induction ss with
  | nil => exact absurd rfl hne
  | cons s ss ih =>
    cases ss with
    | nil =>
      obtain ⟨h1, h2⟩ := h s (by simp)
      simp only [pathText, List.flatMap_cons, List.flatMap_nil, List.append_nil]
      intro hl
      have hmem : '/' ∈ s := by
        cases s with
        | nil => exact absurd rfl h1
        | cons c r =>
          rw [List.getLast?_cons_cons] at hl
          exact List.mem_of_getLast? hl
      exact h2 _ hmem rfl
    | cons s' ss' =>
      have := ih (by simp) (fun s hm => h s (by simp [hm]))
      intro hl
      apply this
      have hne' : pathText (s' :: ss') ≠ [] := by simp [pathText]
      have heq : pathText (s :: s' :: ss') = ('/' :: s) ++ pathText (s' :: ss') := by
        simp [pathText]
      rw [heq, List.getLast?_append] at hl
      cases hg : (pathText (s' :: ss')).getLast? with
      | none => rw [List.getLast?_eq_none_iff] at hg; exact absurd hg hne'
      | some x => rw [hg] at hl; simpa using hl

theorem cleanPath_plain (ss : List Text) (hne : ss ≠ []) (h : ∀ s ∈ ss, PlainSegment s) :
    cleanPath (pathText ss) = pathText ss := by
  have hs : ∀ s ∈ ss, ∀ c ∈ s, c ≠ '/' := fun s hm c hc => (unreserved_facts ((h s hm).2.1 c hc)).1
  have hseg := segments_pathText ss hne hs
  have hlast := getLast?_pathText ss hne (fun s hm => ⟨(h s hm).1, hs s hm⟩)
  have hclean : cleanSegs [] ([] :: ss) = ss := by
    simp only [cleanSegs, true_or, if_true]
    rw [cleanSegs_plain [] ss (fun s hm => ⟨(h s hm).1, (h s hm).2.2⟩)]; simp
  unfold cleanPath
  cases hp : pathText ss with
  | nil =>
    cases ss with
    | nil => exact absurd rfl hne
    | cons s ss => simp [pathText] at hp
  | cons c r =>
    have hc : c = '/' := by
      cases ss with
      | nil => exact absurd rfl hne
      | cons s ss => simp [pathText] at hp; exact hp.1.symm
    subst hc
    have hj : joinSegs ss = pathText ss := rfl
    simp only
    rw [← hp, hseg, hclean, hj, if_neg hlast, if_neg (by rw [hp]; simp)]

theorem dial_plain (host : Text) (hh : PlainHost host) (ss : List Text) (hne : ss ≠ [])
    (h : ∀ s ∈ ss, PlainSegment s) :
    parseRest (host ++ pathText ss) = some (host, pathText ss) := by
  have hp : ∀ c ∈ pathText ss, c = '/' ∨ Unreserved c := by
    intro c hc
    simp only [pathText, List.mem_flatMap, List.mem_cons] at hc
    obtain ⟨s, hs, rfl | hc⟩ := hc
    · exact .inl rfl
    · exact .inr ((h s hs).2.1 c hc)
  have hp' : ∀ c ∈ pathText ss, c ≠ '?' ∧ c ≠ '#' ∧ c ≠ '%' ∧ 0x20 ≤ c.toNat ∧ c.toNat ≠ 0x7F := by
    intro c hc
    rcases hp c hc with rfl | hu
    · decide
    · exact (unreserved_facts hu).2
  unfold parseRest
  have hctl : (host ++ pathText ss).any (fun c => c.toNat < 0x20 || c.toNat == 0x7F) = false := by
    rw [List.any_eq_false]
    intro c hc
    rw [List.mem_append] at hc
    simp only [Bool.or_eq_true, decide_eq_true_eq, beq_iff_eq, not_or]
    rcases hc with hc | hc
    · have := hh c hc; exact ⟨by omega, this.2.2.2.2⟩
    · have := hp' c hc; exact ⟨by omega, this.2.2.2.2⟩
  rw [hctl]
  simp only [Bool.false_eq_true, if_false]
  have h1 : before '#' (host ++ pathText ss) = host ++ pathText ss := by
    apply before_not_mem
    intro c hc
    rw [List.mem_append] at hc
    rcases hc with hc | hc
    · exact (hh c hc).2.2.1
    · exact (hp' c hc).2.1
  have h2 : before '?' (host ++ pathText ss) = host ++ pathText ss := by
    apply before_not_mem
    intro c hc
    rw [List.mem_append] at hc
    rcases hc with hc | hc
    · exact (hh c hc).2.1
    · exact (hp' c hc).1
  have h3 : before '/' (host ++ pathText ss) = host := by
    rw [before_append_of_not_mem _ _ _ (fun c hc => (hh c hc).1)]
    cases ss with
    | nil => exact absurd rfl hne
    | cons s ss => simp [pathText, before]
  rw [h1, h2, h3]
  simp only [List.drop_left]
  rw [unescape_plain _ (fun c hc => (hp' c hc).2.2.1)]
  rfl

/-- **C41** A charge point whose identity is a plain path segment and that dials `host` + `base`, a
URL whose path (possibly empty) consists of plain segments, is registered under the base path's
segments and its identity joined by slashes; with an empty path that is exactly its identity. -/
theorem C41_identity (host : Text) (hh : PlainHost host) (base : List Text)
    (hb : ∀ s ∈ base, PlainSegment s) (identity : Text) (hi : PlainSegment identity) :
    registeredAs (host ++ pathText base) identity =
      some ((pathText (base ++ [identity])).tail) ∧
    registeredAs host identity = some identity := by
  have key : ∀ base : List Text, (∀ s ∈ base, PlainSegment s) →
      registeredAs (host ++ pathText base) identity =
        some ((pathText (base ++ [identity])).tail) := by
    intro base hb
    have hall : ∀ s ∈ base ++ [identity], PlainSegment s := by
      intro s hs
      simp only [List.mem_append, List.mem_singleton] at hs
      rcases hs with hs | rfl
      · exact hb s hs
      · exact hi
    have htext : host ++ pathText base ++ '/' :: identity = host ++ pathText (base ++ [identity]) := by
      simp [pathText]
    have hcons : ∃ r, pathText (base ++ [identity]) = '/' :: r := by
      cases base with
      | nil => exact ⟨_, rfl⟩
      | cons s ss => exact ⟨_, rfl⟩
    obtain ⟨r, hr⟩ := hcons
    unfold registeredAs dial
    rw [htext, dial_plain host hh _ (by simp) hall]
    simp only [Option.map_eq_map, Option.map_some, serve]
    have hcl : cleanPath (dialRequest (pathText (base ++ [identity]))).path =
      (dialRequest (pathText (base ++ [identity]))).path := cleanPath_plain _ (by simp) hall
    rw [hcl]
    have hup : Request.isUpgrade (dialRequest (pathText (base ++ [identity]))) = true := by
      show (["Upgrade"].any (fun t : String => t.toList.map Char.toLower == "upgrade".toList) &&
        ["websocket"].any (fun t : String => t.toList.map Char.toLower == "websocket".toList)) = true
      decide
    simp [handler, hup]
    simp [dialRequest, hr, trimSlash]
  refine ⟨key base hb, ?_⟩
  have := key [] (by simp)
  simpa [pathText] using this

/-- **C41** Distinct plain identities are registered under distinct ids. -/
theorem C41_identities_distinct (host : Text) (hh : PlainHost host) (a b : Text)
    (ha : PlainSegment a) (hb : PlainSegment b) (h : registeredAs host a = registeredAs host b) :
    a = b := by
  rw [(C41_identity host hh [] (by simp) a ha).2, (C41_identity host hh [] (by simp) b hb).2] at h
  exact Option.some.inj h

/-- **C41**, where it ends: what follows a `?` or a `#` in an identity is lost, so that charge points
with different identities are registered under the same id. -/
theorem C41_identity_cut (host : Text) (hh : PlainHost host) (identity rest : Text)
    (hi : PlainSegment identity) (hr : ∀ c ∈ rest, 0x20 ≤ c.toNat ∧ c.toNat ≠ 0x7F) :
    registeredAs host (identity ++ '?' :: rest) = some identity ∧
    registeredAs host (identity ++ '#' :: rest) = some identity := by
  have hone := dial_plain host hh [identity] (by simp) (by simpa using hi)
  have hid := (C41_identity host hh [] (by simp) identity hi).2
  have hf : ∀ c ∈ host ++ '/' :: identity, c ≠ '?' ∧ c ≠ '#' := by
    intro c hc
    rw [List.mem_append, List.mem_cons] at hc
    rcases hc with hc | rfl | hc
    · exact ⟨(hh c hc).2.1, (hh c hc).2.2.1⟩
    · decide
    · have := unreserved_facts (hi.2.1 c hc); exact ⟨this.2.1, this.2.2.1⟩
  have key : ∀ x : Char, (x = '?' ∨ x = '#') →
      parseRest (host ++ '/' :: (identity ++ x :: rest)) = parseRest (host ++ '/' :: identity) := by
    intro x hx
    have hctl0 : (host ++ '/' :: identity).any (fun c => c.toNat < 0x20 || c.toNat == 0x7F) = false := by
      unfold parseRest at hone
      split at hone
      · simp at hone
      · rename_i h; simpa [pathText] using h
    have hctl : (host ++ '/' :: (identity ++ x :: rest)).any
        (fun c => c.toNat < 0x20 || c.toNat == 0x7F) = false := by
      have heq : host ++ '/' :: (identity ++ x :: rest) = (host ++ '/' :: identity) ++ x :: rest := by simp
      rw [heq, List.any_append, hctl0, List.any_cons]
      have h1 : (decide (x.toNat < 0x20) || x.toNat == 0x7F) = false := by
        rcases hx with rfl | rfl <;> decide
      rw [h1]
      simp only [Bool.false_or]
      rw [List.any_eq_false]
      intro c hc
      have := hr c hc
      simp only [Bool.or_eq_true, decide_eq_true_eq, beq_iff_eq, not_or]
      exact ⟨by omega, this.2⟩
    have heq : host ++ '/' :: (identity ++ x :: rest) = (host ++ '/' :: identity) ++ x :: rest := by simp
    have hq : before '?' (host ++ '/' :: identity) = host ++ '/' :: identity :=
      before_not_mem _ _ (fun c hc => (hf c hc).1)
    have hs : before '#' (host ++ '/' :: identity) = host ++ '/' :: identity :=
      before_not_mem _ _ (fun c hc => (hf c hc).2)
    have hcut : before '?' (before '#' (host ++ '/' :: (identity ++ x :: rest))) =
        host ++ '/' :: identity := by
      rw [heq, before_append_of_not_mem '#' _ _ (fun c hc => (hf c hc).2)]
      rcases hx with rfl | rfl
      · rw [before_append_of_not_mem '?' _ _ (fun c hc => (hf c hc).1)]
        simp [before]
      · simp only [before, List.takeWhile_cons, bne_self_eq_false, Bool.false_eq_true, if_false,
          List.append_nil]
        exact hq
    unfold parseRest
    rw [hctl, hctl0]
    simp only [Bool.false_eq_true, if_false]
    rw [hcut, hs, hq]
  unfold registeredAs dial at hid ⊢
  constructor
  · rw [key '?' (.inl rfl)]; exact hid
  · rw [key '#' (.inr rfl)]; exact hid

example : PlainHost "central.example:8080".toList := by
  unfold PlainHost; decide
example : PlainSegment "CP-001_a.b~c".toList := by
  refine ⟨by decide, ?_, by decide, by decide⟩
  unfold Unreserved; decide
example : registeredAs "h:8080/ocpp".toList "CP 1".toList = some "ocpp/CP 1".toList := by decide
example : registeredAs "h:8080".toList "a/../b".toList = none := by decide
example : registeredAs "h:8080".toList "50%".toList = none := by decide
example : registeredAs "h:8080".toList "a%2Fb".toList = some "a/b".toList := by decide

/-- **C42** What the central system does with a request: unless the mux redirects it, it is a
websocket connection iff it is an upgrade request, else the landing page iff its method is GET, else
SOAP. -/
theorem C42_dispatch (r : Request) (hc : cleanPath r.path = r.path) :
    ((∃ id, serve r = .websocket id) ↔ r.isUpgrade = true) ∧
    (serve r = .landing ↔ r.isUpgrade = false ∧ r.method = "GET") ∧
    (serve r = .soap ↔ r.isUpgrade = false ∧ r.method ≠ "GET") := by
  unfold serve handler
  simp only [hc, ne_eq, not_true_eq_false, and_false, if_false]
  cases r.isUpgrade <;> by_cases hm : r.method = "GET" <;> simp [hm]

example : cleanPath "/any/path".toList = "/any/path".toList := by decide

/-- Several `Run`s in one process, one after the other. -/
def runs (m : Mux) : List String → Mux × List (GoRes Unit)
  | [] => (m, [])
  | l :: ls => let (m', r) := run m l; let (m'', rs) := runs m' ls; (m'', r :: rs)

theorem runs_taken (ls : List String) : ∀ r ∈ (runs ⟨true⟩ ls).2, r.isPanic = true := by
  induction ls with
  | nil => simp [runs]
  | cons l ls ih =>
    intro r hr
    simp only [runs, run, if_true, List.mem_cons] at hr
    rcases hr with rfl | hr
    · rfl
    · exact ih r hr

/-- **C42** Of any number of `Run`s in a process (of whatever central systems, and whether or not the
earlier ones have returned), all but the first panic. -/
theorem C42_second_run_panics (l : String) (ls : List String) :
    ∃ r rs, (runs ⟨false⟩ (l :: ls)).2 = r :: rs ∧ r.isErr = true ∧ rs.length = ls.length ∧
      ∀ x ∈ rs, x.isPanic = true := by
  refine ⟨_, _, rfl, rfl, ?_, ?_⟩
  · clear l
    have : ∀ m, (runs m ls).2.length = ls.length := by
      induction ls with
      | nil => simp [runs]
      | cons l ls ih => intro m; simp [runs, ih]
    exact this _
  · simpa [run] using runs_taken ls

end Verif.Http
