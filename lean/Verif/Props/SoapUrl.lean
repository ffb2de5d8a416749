import Verif.Props.SoapNet
/-!
# SOAP calls: what an error means (C86), and which URLs reach a handler (C88)
-/
namespace Verif.Soap
open Xml Ocppj

variable {G : FloatText} {atCs : Bool}

/-- **C86** An error from `Send` does not tell what happened.  With a peer that works, for any error text: there are schedules in which
the handler has received the request and returned a proper response without an error; in which it is called only after `Send` has
returned; and in which it is not called. -/
theorem C86_error_ambiguous (G : FloatText) (atCs : Bool) {svc : Service} (hf : front atCs svc.url = some true) {r : Req}
    (hb : bound (.req r.type) = true) (hv : HasTy r.type.ty r.val) (hp : r.val.TimesAll GoTime.Plain) (hd : r.type.isChargePoint = atCs)
    (x : Resp) (m : Text) :
    let call := NetEv.called 0 ⟨r.type, soapTrip r.type.ty r.val⟩ (cleanText svc.identity)
    (∃ s, NetExec G atCs [.send 0 svc r, call, .handlerRet 0 (some x) none, .returned 0 (.err m)] s) ∧
    (∃ s, NetExec G atCs [.send 0 svc r, .returned 0 (.err m), call] s) ∧
    (∃ s, NetExec G atCs [.send 0 svc r, .returned 0 (.err m)] s) := by
  have hu := url_ne_nil hf
  obtain ⟨body, h1, -⟩ := C48_request G ⟨svc.url, '/' :: r.type.action, [], svc.sender, svc.identity⟩ r hb hv hp
  have hpost : posted G svc.url [] svc.sender svc.identity r = .ok body := by rw [posted, if_neg hu]; exact h1
  have hbeg := begin_whole hv hp hb hd hpost
  have s1 := NetStep.send (G := G) (atCs := atCs) (s := .init) (svc := svc) (by simp [NetSt.init]) hpost
  have s2 := NetStep.fail (G := G) (atCs := atCs) (s := ⟨[⟨svc, r, .waiting body, none⟩], []⟩) (i := 0) m rfl (by simp) rfl
  have s3 := NetStep.arrive (G := G) (atCs := atCs) (s := ⟨[⟨svc, r, .waiting body, some (.err m)⟩], []⟩) (i := 0)
    (c := ⟨svc, r, .waiting body, some (.err m)⟩) rfl rfl hf (List.prefix_refl _) hbeg
  have t0 := start_run (G := G) .init (by simp [NetSt.init]) hf hb hv hp hd
  have t1 := NetStep.handlerRet (G := G) (atCs := atCs) (s := ⟨[⟨svc, r, .handling, none⟩], []⟩) (i := 0) (some x) none rfl rfl
  have t2 := NetStep.fail (G := G) (atCs := atCs) (s := (⟨[⟨svc, r, .handling, none⟩], []⟩ : NetSt).set 0
    ⟨svc, r, .over (answerOf (encodeReply G (some x) none)), none⟩) (i := 0) m rfl (by simp [NetSt.set]) rfl
  exact ⟨⟨_, .snoc (.snoc t0 t1) t2⟩, ⟨_, .snoc (.snoc (.snoc .nil s1) s2) s3⟩, ⟨_, .snoc (.snoc .nil s1) s2⟩⟩

/-! ### URLs -/

/-- A `POST` to the URL is a request for the path: it is an `http` or `https` URL with a host and no control character, and the part
between the host and the first `?` or `#` is a spelling of the path (nothing stands for `/`). -/
def PostedTo (url path : Text) : Prop :=
  ∃ scheme host tail p, url = scheme ++ (host ++ tail) ∧
    (scheme.map Char.toLower = "http://".toList ∨ scheme.map Char.toLower = "https://".toList) ∧
    Http.Printable (host ++ tail) ∧ host ≠ [] ∧ (∀ c ∈ host, c ≠ '/' ∧ c ≠ '?' ∧ c ≠ '#') ∧
    (∀ c ∈ tail.head?, c = '/' ∨ c = '?' ∨ c = '#') ∧
    Http.CutAt tail p ∧ (Http.Spells p path ∧ p ≠ [] ∨ p = [] ∧ path = ['/'])

theorem httpRest_iff (url rest : Text) : httpRest url = some rest ↔
    ∃ scheme, url = scheme ++ rest ∧ (scheme.map Char.toLower = "http://".toList ∨ scheme.map Char.toLower = "https://".toList) := by
  unfold httpRest
  constructor
  · intro h
    split at h
    · rename_i h1
      cases h
      exact ⟨url.take 7, (List.take_append_drop 7 url).symm, .inl h1⟩
    · split at h
      · rename_i h1
        cases h
        exact ⟨url.take 8, (List.take_append_drop 8 url).symm, .inr h1⟩
      · cases h
  · rintro ⟨scheme, rfl, h | h⟩
    · have hl : scheme.length = 7 := by simpa using congrArg List.length h
      rw [if_pos (by rw [← hl, List.take_left]; exact h), ← hl, List.drop_left]
    · have hl : scheme.length = 8 := by simpa using congrArg List.length h
      have hn : ¬ ((scheme ++ rest).take 7).map Char.toLower = "http://".toList := by
        rw [List.take_append_of_le_length (by omega), List.map_take, h]
        decide
      rw [if_neg hn, if_pos (by rw [← hl, List.take_left]; exact h), ← hl, List.drop_left]

theorem before_spec (c : Char) (t : Text) : ∃ r, t = Http.before c t ++ r ∧ (∀ x ∈ Http.before c t, x ≠ c) ∧ ∀ x ∈ r.head?, x = c := by
  refine ⟨t.dropWhile (· != c), ?_, ?_, ?_⟩
  · exact (List.takeWhile_append_dropWhile (p := (· != c)) (l := t)).symm
  · intro x hx
    have := List.all_takeWhile (p := (· != c)) (l := t)
    rw [List.all_eq_true] at this
    simpa using this x hx
  · intro x hx
    have hx' : (t.dropWhile (· != c)).head? = some x := hx
    have := List.head?_dropWhile_not (p := (· != c)) (l := t)
    rw [hx'] at this
    simpa using this

theorem before_head (c : Char) (a b : Text) (ha : ∀ x ∈ a, x ≠ c) (hb : ∀ x ∈ b.head?, x = c) : Http.before c (a ++ b) = a := by
  rw [Http.before_append_of_not_mem c a b ha]
  cases b with
  | nil => simp [Http.before]
  | cons x b => simp [Http.before, hb x rfl]

theorem spells_nil_left {u : Text} (h : Http.Spells [] u) : u = [] := by cases h; rfl

theorem spells_nil_right {p : Text} (h : Http.Spells p []) : p = [] := by cases h; rfl

/-- **C88** The path that a `POST` to the URL asks for, exactly. -/
theorem C88_url (url path : Text) : urlPath url = some path ↔ PostedTo url path := by
  unfold urlPath PostedTo
  -- the cut of what follows the scheme
  have key : ∀ host tail : Text, (∀ c ∈ host, c ≠ '/' ∧ c ≠ '?' ∧ c ≠ '#') → (∀ c ∈ tail.head?, c = '/' ∨ c = '?' ∨ c = '#') →
      Http.before '?' (Http.before '#' (host ++ tail)) = host ++ Http.before '?' (Http.before '#' tail) ∧
      Http.before '/' (host ++ Http.before '?' (Http.before '#' tail)) = host := by
    intro host tail h1 h2
    have e1 : Http.before '?' (Http.before '#' (host ++ tail)) = host ++ Http.before '?' (Http.before '#' tail) := by
      rw [Http.before_append_of_not_mem '#' _ _ (fun c hc => (h1 c hc).2.2), Http.before_append_of_not_mem '?' _ _ (fun c hc => (h1 c hc).2.1)]
    refine ⟨e1, before_head _ _ _ (fun c hc => (h1 c hc).1) ?_⟩
    intro x hx
    cases tail with
    | nil => simp [Http.before] at hx
    | cons y t =>
      have hy := h2 y rfl
      rcases hy with rfl | rfl | rfl
      · simp [Http.before] at hx; exact hx.symm
      · simp [Http.before] at hx
      · simp [Http.before] at hx
  constructor
  · intro h
    cases hr : httpRest url with
    | none => rw [hr] at h; cases h
    | some rest =>
      rw [hr] at h
      simp only at h
      obtain ⟨scheme, hu, hs⟩ := (httpRest_iff _ _).1 hr
      unfold Http.parseRest at h
      by_cases hp : rest.any (fun c => c.toNat < 0x20 || c.toNat == 0x7F) = true
      · rw [if_pos hp] at h; cases h
      · rw [if_neg hp] at h
        have hprint : Http.Printable rest := by
          intro c hc
          simp only [List.any_eq_true, not_exists, not_and, Bool.not_eq_true, Bool.or_eq_false_iff, decide_eq_false_iff_not, beq_eq_false_iff_ne] at hp
          have := hp c hc
          exact ⟨by omega, this.2⟩
        simp only at h
        -- host and tail
        obtain ⟨q, hq, hq1, hq2⟩ := before_spec '#' rest
        obtain ⟨q', hq', hq1', hq2'⟩ := before_spec '?' (Http.before '#' rest)
        obtain ⟨t, ht, ht1, ht2⟩ := before_spec '/' (Http.before '?' (Http.before '#' rest))
        generalize hbb : Http.before '/' (Http.before '?' (Http.before '#' rest)) = host at *
        generalize hb1 : Http.before '?' (Http.before '#' rest) = cut at *
        generalize hb2 : Http.before '#' rest = cut' at *
        have hrest : rest = host ++ (t ++ (q' ++ q)) := by rw [hq, hq', ht]; simp
        have hhost : ∀ c ∈ host, c ≠ '/' ∧ c ≠ '?' ∧ c ≠ '#' := by
          intro c hc
          have h1 : c ∈ cut := by rw [ht]; simp [hc]
          have h2 : c ∈ cut' := by rw [hq']; simp [h1]
          exact ⟨ht1 c hc, hq1' c h1, hq1 c h2⟩
        have htail : ∀ c ∈ (t ++ (q' ++ q)).head?, c = '/' ∨ c = '?' ∨ c = '#' := by
          intro c hc
          cases t with
          | cons y t => simp at hc; subst hc; exact .inl (ht2 _ rfl)
          | nil =>
            cases q' with
            | cons y q' => simp at hc; subst hc; exact .inr (.inl (hq2' _ rfl))
            | nil => exact .inr (.inr (hq2 _ (by simpa using hc)))
        have hcut : Http.before '?' (Http.before '#' (t ++ (q' ++ q))) = t := by
          have := (key host _ hhost htail).1
          rw [← hrest, hb2, hb1] at this
          exact (List.append_cancel_left (ht.symm.trans this)).symm
        have hdrop : cut.drop host.length = t := by rw [ht, List.drop_left]
        rw [hdrop] at h
        cases hun : Http.unescape t with
        | none => rw [hun] at h; simp at h
        | some u =>
          rw [hun] at h
          simp only [Option.map_eq_map, Option.map_some] at h
          split at h
          · cases h
          · rename_i hne
            have hsp := (Http.unescape_iff _ _).1 hun
            refine ⟨scheme, host, t ++ (q' ++ q), t, by rw [← hrest]; exact hu, hs, by rw [← hrest]; exact hprint, hne, hhost, htail,
              (Http.cutAt_iff _ _).1 hcut, ?_⟩
            by_cases hu0 : u = []
            · subst hu0
              simp only [if_true, Option.some.injEq] at h
              exact .inr ⟨spells_nil_right hsp, h.symm⟩
            · rw [if_neg hu0] at h
              cases h
              exact .inl ⟨hsp, fun h0 => hu0 (by subst h0; exact spells_nil_left hsp)⟩
  · rintro ⟨scheme, host, tail, p, rfl, hs, hprint, hne, hhost, htail, hcut, hsp⟩
    rw [(httpRest_iff _ (host ++ tail)).2 ⟨scheme, rfl, hs⟩]
    simp only
    obtain ⟨k1, k2⟩ := key host tail hhost htail
    have hcut' := (Http.cutAt_iff _ _).2 hcut
    unfold Http.parseRest
    have hp : ¬ (host ++ tail).any (fun c => c.toNat < 0x20 || c.toNat == 0x7F) = true := by
      simp only [List.any_eq_true, not_exists, not_and, Bool.not_eq_true, Bool.or_eq_false_iff, decide_eq_false_iff_not, beq_eq_false_iff_ne]
      intro c hc
      have := hprint c hc
      exact ⟨by omega, this.2⟩
    rw [if_neg hp]
    simp only
    rw [k1, k2, List.drop_left, hcut']
    rcases hsp with ⟨hsp, h0⟩ | ⟨rfl, rfl⟩
    · rw [(Http.unescape_iff _ _).2 hsp]
      simp only [Option.map_eq_map, Option.map_some]
      have : path ≠ [] := fun hn => h0 (by subst hn; exact spells_nil_right hsp)
      rw [if_neg hne, if_neg this]
    · have : Http.unescape [] = some [] := rfl
      rw [this]
      simp only [Option.map_eq_map, Option.map_some, if_true, if_neg hne]

/-- The URL leads to a handler: at a central system only if the path is clean (no empty segment, no `.`, no `..`). -/
def Leads (atCs : Bool) (url : Text) : Prop := ∃ path, PostedTo url path ∧ (atCs = true → Http.CleanPath path)

theorem front_leads (atCs : Bool) (url : Text) : front atCs url = some true ↔ Leads atCs url := by
  rw [(front_iff atCs url).1]
  simp only [C88_url, Leads]

/-- **C88** With a URL that does not lead to a handler, whatever happens: the handler is not called, and `Send`, if it returns, returns an
error.  That is so at a central system for every URL with a path that is not clean, although net/http answers the request (with a
redirect, which `http.Client` follows to the landing page). -/
theorem C88_lost {tr : List NetEv} {s : NetSt} (h : NetExec G atCs tr s) (ht : TypedNet tr) {i : Nat} {svc : Service} {r : Req}
    (hs : NetEv.send i svc r ∈ tr) (hl : ¬ Leads atCs svc.url) :
    (∀ r' id, NetEv.called i r' id ∉ tr) ∧ ∀ x, NetEv.returned i x ∈ tr → ∃ t, x = .err t := by
  have hno : ∀ r' id, NetEv.called i r' id ∉ tr := by
    intro r' id hc
    obtain ⟨c, hc1, hi⟩ := NetExec.call_of h hc
    change CallInv G atCs i c (own i tr) at hi
    obtain ⟨hr, -⟩ := callInv_called hi (mem_own.2 ⟨hc, rfl⟩)
    obtain ⟨rest, e1, -, h3⟩ := hi
    have hmo := mem_own.2 ⟨hs, rfl⟩
    change NetEv.send i svc r ∈ own i tr at hmo
    rw [e1] at hmo
    rcases List.mem_cons.1 hmo with hmo | hmo
    · cases hmo
      exact hl ((front_leads _ _).1 hr.1)
    · have : NetEv.send i svc r ∈ rest.filter fun e => !e.server := List.mem_filter.2 ⟨hmo, rfl⟩
      rw [h3] at this
      simp at this
  refine ⟨hno, fun x hx => ?_⟩
  by_contra hne
  push Not at hne
  obtain ⟨svc', r', resp, h1, -⟩ := result_origin h ht hx hne
  exact hno ⟨r'.type, soapTrip r'.type.ty r'.val⟩ (cleanText svc'.identity) (h1.subset (by simp))

/-- **C88** Which URLs can reach a handler, exactly, for a request that can be received at all. -/
theorem C88_exact (G : FloatText) (atCs : Bool) (svc : Service) {r : Req} (hb : bound (.req r.type) = true) (hv : HasTy r.type.ty r.val)
    (hp : r.val.TimesAll GoTime.Plain) (hd : r.type.isChargePoint = atCs) :
    (∃ tr s i r' id, NetExec G atCs tr s ∧ TypedNet tr ∧ NetEv.send i svc r ∈ tr ∧ NetEv.called i r' id ∈ tr) ↔ Leads atCs svc.url := by
  constructor
  · rintro ⟨tr, s, i, r', id, h, ht, h1, h2⟩
    by_contra hl
    exact (C88_lost h ht h1 hl).1 _ _ h2
  · intro hl
    refine ⟨_, _, 0, _, _, start_run (G := G) .init (by simp [NetSt.init]) ((front_leads _ _).2 hl) hb hv hp hd, ⟨?_, ?_⟩, by simp [NetSt.init], by simp [NetSt.init]; exact ⟨rfl, rfl⟩⟩
    · intro i svc' r' hm
      simp only [List.mem_cons, NetEv.send.injEq, reduceCtorEq, List.not_mem_nil, or_false] at hm
      obtain ⟨-, -, rfl⟩ := hm
      exact ⟨hv, hp⟩
    · intro i x e hm
      simp at hm

/-! ### Cases -/

/-- A service with this URL. -/
def sampleService (url : String) : Service := ⟨0, url.toList, "http://cp.example/".toList, "CP1".toList⟩

theorem leads_sample : Leads true (sampleService "http://cs.example:8080/ocpp/CP1").url := by
  rw [← front_leads]; decide

/-- A doubled slash. -/
theorem not_leads_sample : ¬ Leads true (sampleService "http://cs.example//CP1").url := by
  rw [← front_leads]; decide

/-- A charge point's server takes it. -/
theorem leads_cp_sample : Leads false (sampleService "http://cs.example//CP1").url := by
  rw [← front_leads]; decide

theorem tagResp_ok : HasTy tagResp.type.ty tagResp.val ∧ tagResp.val.TimesAll GoTime.Plain :=
  ⟨⟨⟨trivial, trivial, trivial, trivial⟩, trivial⟩, by simp [tagResp, Val.TimesAll, Val.TimesAlls]⟩

/-- Two handler calls for the same charge point that do not end (C87), and a `Send` with a response at the same time (C86, C87). -/
example (G : FloatText) : ∃ tr s i x, NetExec G true tr s ∧ TypedNet tr ∧ NetEv.returned i (.ok x) ∈ tr ∧
    (∃ r id, NetEv.called 0 r id ∈ tr ∧ NetEv.called 1 r id ∈ tr) := by
  have hf := (front_leads _ _).2 leads_sample
  obtain ⟨tr, s, h1, h2, h3, h4⟩ := C87_concurrent G true hf tagReq_ok.1 tagReq_ok.2.1 tagReq_ok.2.2 rfl 2
  have hal : (sampleService "http://cs.example:8080/ocpp/CP1").proc ∉ s.dead := by
    rw [C87_crash h1 h2]
    rintro ⟨i, svc, r, m, -, -, hm⟩
    exact (h4 i).2.2 _ hm
  obtain ⟨s', hr, -⟩ := C87_progress h1 hal hf tagReq_ok.1 tagReq_ok.2.1 tagReq_ok.2.2 rfl (x := tagResp) rfl tagResp_ok.1 tagResp_ok.2
  refine ⟨_, s', s.calls.length, ⟨tagResp.type, soapTrip tagResp.type.ty tagResp.val⟩, NetRun.append h1 hr, ⟨?_, ?_⟩, by simp, _, _,
    List.mem_append_left _ (h3 0 (by omega)), List.mem_append_left _ (h3 1 (by omega))⟩
  · intro i svc r hm
    rcases List.mem_append.1 hm with hm | hm
    · exact h2.req _ _ _ hm
    · simp only [List.mem_cons, NetEv.send.injEq, reduceCtorEq, List.not_mem_nil, or_false] at hm
      obtain ⟨-, -, rfl⟩ := hm
      exact tagReq_ok.2
  · intro i x e hm
    rcases List.mem_append.1 hm with hm | hm
    · exact h2.resp _ _ _ hm
    · simp only [List.mem_cons, NetEv.handlerRet.injEq, reduceCtorEq, List.not_mem_nil, or_false, false_or, Option.some.injEq] at hm
      obtain ⟨-, rfl, -⟩ := hm
      exact tagResp_ok

/-- Two handler calls under way: they can end in either order (`C87_independent`, `C87_server`). -/
example (G : FloatText) : ∃ tr s s₁ s₂, NetExec G true tr s ∧ NetStep G true s (.handlerRet 0 (some tagResp) none) s₁ ∧ NetStep G true s (.handlerPanic 1) s₂ := by
  have hf := (front_leads _ _).2 leads_sample
  have h0 := start_run (G := G) .init (svc := sampleService "http://cs.example:8080/ocpp/CP1") (by simp [NetSt.init]) hf tagReq_ok.1 tagReq_ok.2.1 tagReq_ok.2.2 rfl
  have h1 := start_run (G := G) ⟨[⟨sampleService "http://cs.example:8080/ocpp/CP1", tagReq, .handling, none⟩], []⟩
    (svc := sampleService "http://cs.example:8080/ocpp/CP1") (by simp) hf tagReq_ok.1 tagReq_ok.2.1 tagReq_ok.2.2 rfl
  exact ⟨_, _, _, _, NetRun.append h0 h1, .handlerRet _ _ rfl rfl, .handlerPanic rfl rfl⟩

/-- A handler that returns neither a response nor an error: `Send` panics (C86), and its process is gone (C87). -/
example (G : FloatText) : ∃ tr s m, NetExec G true tr s ∧ NetEv.returned 0 (.panic m) ∈ tr ∧ 0 ∈ s.dead := by
  have hf := (front_leads _ _).2 leads_sample
  have h0 := start_run (G := G) .init (svc := sampleService "http://cs.example:8080/ocpp/CP1") (by simp [NetSt.init]) hf tagReq_ok.1 tagReq_ok.2.1 tagReq_ok.2.2 rfl
  have s1 := NetStep.handlerRet (G := G) (atCs := true) (s := ⟨[⟨sampleService "http://cs.example:8080/ocpp/CP1", tagReq, .handling, none⟩], []⟩)
    (i := 0) none none rfl rfl
  have hp := (C51_panic tagReq (.got 200 (print (envelopeNode none [] none) ++ []))).2 ⟨_, _, _, rfl, decode_empty none none [], rfl, by simp⟩
  obtain ⟨m, hp⟩ := hp
  rw [List.append_nil] at hp
  have s2 := NetStep.receive (G := G) (atCs := true) (s := (⟨[⟨sampleService "http://cs.example:8080/ocpp/CP1", tagReq, .handling, none⟩], []⟩ : NetSt).set 0
    ⟨sampleService "http://cs.example:8080/ocpp/CP1", tagReq, .over (answerOf (encodeReply G none none)), none⟩) (i := 0)
    (a := .got 200 (print (envelopeNode none [] none))) rfl (by simp [NetSt.set]) rfl rfl .whole
  simp only [hp, Result.crash, if_true] at s2
  refine ⟨_, _, m, .snoc (.snoc h0 s1) s2, by simp, by simp [sampleService]⟩

/-- A `Send` to a URL with a doubled slash can be made, and ends in an error (C88). -/
example (G : FloatText) : ∃ tr s, NetExec G true tr s ∧ NetEv.send 0 (sampleService "http://cs.example//CP1") tagReq ∈ tr ∧
    ¬ Leads true (sampleService "http://cs.example//CP1").url := by
  obtain ⟨body, h1, -⟩ := C48_request G ⟨(sampleService "http://cs.example//CP1").url, '/' :: tagReq.type.action, [],
    (sampleService "http://cs.example//CP1").sender, (sampleService "http://cs.example//CP1").identity⟩ tagReq tagReq_ok.1 tagReq_ok.2.1 tagReq_ok.2.2
  have hpost : posted G (sampleService "http://cs.example//CP1").url [] (sampleService "http://cs.example//CP1").sender
      (sampleService "http://cs.example//CP1").identity tagReq = .ok body := by rw [posted, if_neg (by decide)]; exact h1
  exact ⟨_, _, .snoc .nil (NetStep.send (s := .init) (by simp [NetSt.init]) hpost), by simp [NetSt.init], not_leads_sample⟩

end Verif.Soap
