import Verif.Lemmas.Soap3
import Verif.Spec.SoapBody
import Verif.Model.Service
/-!
# SOAP

Properties C18, C47 (the SOAP parts), C48 to C56, C59 to C61.
-/
set_option linter.unusedSimpArgs false
namespace Verif.Soap
open Xml Ocppj

/-! ### C48: messages arrive -/

/-- **C48** Any request that can be received, sent by `Call`, is decoded by the peer as the same request up to `soapTrip`, together
with the header. -/
theorem C48_request (G : FloatText) (h : Header) (r : Req) (hb : bound (.req r.type) = true) (hv : HasTy r.type.ty r.val)
    (hp : r.val.TimesAll GoTime.Plain) :
    ∃ body, encodeCall G h r = .ok body ∧
      decode body = .ok ⟨some (headerVal h), ⟨some (.req r.type, soapTrip r.type.ty r.val), none⟩⟩ := by
  obtain ⟨c, h1, h2⟩ := decode_message G hb (v := r.val) hv hp (some h) none []
  refine ⟨_, by rw [encodeCall, h1]; rfl, ?_⟩
  rw [List.append_nil] at h2
  exact h2

/-- **C48** The same for responses. -/
theorem C48_response (G : FloatText) (r : Resp) (hb : bound (.resp r.type) = true) (hv : HasTy r.type.ty r.val)
    (hp : r.val.TimesAll GoTime.Plain) :
    ∃ body, encodeReply G (some r) none = .ok body ∧
      decode body = .ok ⟨none, ⟨some (.resp r.type, soapTrip r.type.ty r.val), none⟩⟩ := by
  obtain ⟨c, h1, h2⟩ := decode_message G hb (v := r.val) hv hp none none []
  refine ⟨_, by rw [encodeReply, h1]; rfl, ?_⟩
  rw [List.append_nil] at h2
  exact h2

theorem cleanText_id_iff (s : Text) : cleanText s = s ↔ ∀ c ∈ s, IsXmlChar c := by
  induction s with
  | nil => simp [cleanText]
  | cons c s ih =>
    have h1 : cleanChar c = c ↔ IsXmlChar c := by
      unfold cleanChar
      split
      · simp [*]
      · rename_i h
        refine ⟨fun e => ?_, fun e => absurd e h⟩
        rw [← e]
        decide
    have ih' : s.map cleanChar = s ↔ ∀ x ∈ s, IsXmlChar x := ih
    simp [cleanText, h1, ih']

theorem listOf_eq_slice {l vs : List Val} : listOf l = .slice vs ↔ l = vs ∧ vs ≠ [] := by
  cases l with
  | nil => simp [listOf]
  | cons x l => simp only [listOf, Val.slice.injEq]; constructor
                · rintro rfl; simp
                · exact fun h => h.1

theorem kept_iff {f : Val → Val} : ∀ {vs : List Val}, (vs.filter Val.present).map f = vs ↔ ∀ v ∈ vs, v.present = true ∧ f v = v
  | [] => by simp
  | v :: vs => by
    rw [List.filter_cons]
    split
    · rename_i h
      simp only [List.map_cons, List.cons.injEq, kept_iff (vs := vs), List.forall_mem_cons, h, true_and]
    · rename_i h
      constructor
      · intro e
        have hl := congrArg List.length e
        simp only [List.length_map, List.length_cons] at hl
        have := List.length_filter_le Val.present vs
        omega
      · intro e
        exact absurd (e v (by simp)).1 h

mutual
theorem soapTrip_id (t : Ty) (ht : wfTy t = true) (v : Val) (hv : HasTy t v) : soapTrip t v = v ↔ Intact t v := by
  match t with
  | .str =>
    cases v <;> (try simp only [HasTy] at hv)
    simp only [soapTrip, Intact, Val.str.injEq]
    exact cleanText_id_iff _
  | .int b => cases v <;> simp [soapTrip, Intact]
  | .float => cases v <;> simp [soapTrip, Intact]
  | .bool => cases v <;> simp [soapTrip, Intact]
  | .time => cases v <;> simp [soapTrip, Intact]
  | .ptr t =>
    cases v <;> (try simp only [HasTy] at hv)
    case nil => simp [soapTrip, Intact]
    case ptr v =>
      simp only [soapTrip, Intact, Val.ptr.injEq]
      exact soapTrip_id t ht v hv
  | .slice t =>
    cases v <;> (try simp only [HasTy] at hv)
    case nil => simp [soapTrip, Intact]
    case slice vs =>
      simp only [soapTrip, Intact, listOf_eq_slice, kept_iff]
      constructor
      · rintro ⟨h, hne⟩
        exact ⟨hne, fun v hm => ⟨(h v hm).1, (soapTrip_id t ht v (hv v hm)).1 (h v hm).2⟩⟩
      · rintro ⟨hne, h⟩
        exact ⟨fun v hm => ⟨(h v hm).1, (soapTrip_id t ht v (hv v hm)).2 (h v hm).2⟩, hne⟩
  | .struct info ts =>
    cases v <;> (try simp only [HasTy] at hv)
    simp only [wfTy, Bool.and_eq_true, beq_iff_eq] at ht
    simp only [soapTrip, Intact, Val.struct.injEq]
    exact soapTrips_id info.fields ts ht.1 ht.2 _ hv
theorem soapTrips_id (fs : List FieldInfo) (ts : List Ty) (hl : fs.length = ts.length) (ht : wfTys ts = true) (vs : List Val)
    (hv : HasTys ts vs) : soapTrips fs ts vs = vs ↔ Intacts fs ts vs := by
  match fs, ts, vs with
  | [], [], [] => simp [soapTrips, Intacts]
  | f :: fs, t :: ts, v :: vs =>
    simp only [wfTys, Bool.and_eq_true] at ht
    simp only [soapTrips, Intacts, List.cons.injEq]
    have h1 := soapTrips_id fs ts (by simpa using hl) ht.2 vs hv.2
    have h2 := soapTrip_id t ht.1 v hv.1
    rw [h1]
    split
    · rw [eq_comm]
    · rw [h2]
  | [], _ :: _, _ => simp at hl
  | _ :: _, [], _ => simp at hl
  | _, [], _ :: _ => exact absurd hv (by simp [HasTys])
  | _, _ :: _, [] => exact absurd hv (by simp [HasTys])
end

/-- **C48** A message arrives unchanged exactly if it is `Intact`: no characters that XML lacks, no empty lists, nil entries or
empty strings in lists, no phase of a sampled value. -/
theorem C48_intact (m : MsgType) (v : Val) (hv : HasTy m.ty v) : soapTrip m.ty v = v ↔ Intact m.ty v :=
  soapTrip_id m.ty (wf_msg m) v hv

/-- A request that meets the hypotheses, with markup and a control character in its identifier. -/
def tagReq : Req := ⟨.cpreqAuthorize, .struct [.str ['<', '/', '&', Char.ofNat 1]]⟩

theorem tagReq_ok : bound (.req tagReq.type) = true ∧ HasTy tagReq.type.ty tagReq.val ∧ tagReq.val.TimesAll GoTime.Plain :=
  ⟨rfl, ⟨trivial, trivial⟩, ⟨trivial, trivial⟩⟩

/-- What arrives of it. -/
theorem tagReq_trip : soapTrip tagReq.type.ty tagReq.val = .struct [.str ['<', '/', '&', '\uFFFD']] := rfl

example : ¬ Intact tagReq.type.ty tagReq.val := by
  intro h
  have := (soapTrip_id _ (wf_msg (.req tagReq.type)) _ tagReq_ok.2.1).2 h
  rw [show (MsgType.req tagReq.type).ty = tagReq.type.ty from rfl, tagReq_trip] at this
  simp only [tagReq, Val.struct.injEq, List.cons.injEq, Val.str.injEq, and_true, true_and] at this
  revert this
  decide

/-- A response that meets the hypotheses. -/
def tagResp : Resp := ⟨.cprespAuthorize, .struct [.ptr (.struct [.nil, .str [], .str "Accepted".toList])]⟩

/-! ### C49: bodies -/

theorem readBody_iff (ks : List RNode) (b0 b : Body) : readBody ks b0 = .ok b ↔
    ∃ items, List.Forall₂ ReadsAs ks items ∧ b.content = (lastMessage items).or b0.content ∧ b.fault = (lastFault items).or b0.fault := by
  induction ks generalizing b0 with
  | nil =>
    rw [readBody]
    constructor
    · intro h; cases h; exact ⟨[], .nil, rfl, rfl⟩
    · rintro ⟨items, h, h1, h2⟩
      cases h
      obtain ⟨c, f⟩ := b0
      obtain ⟨c', f'⟩ := b
      simp only [lastMessage, lastFault, List.filterMap_nil, List.getLast?_nil, Option.none_or] at h1 h2
      rw [h1, h2]
  | cons k ks ih =>
    have hcons : ∀ (x : Option Item) (items : List (Option Item)),
        lastMessage (x :: items) = (lastMessage items).or (match x with | some (.message m v) => some (m, v) | _ => none) ∧
        lastFault (x :: items) = (lastFault items).or (match x with | some (.fault f) => some f | _ => none) := by
      intro x items
      unfold lastMessage lastFault
      rw [List.filterMap_cons, List.filterMap_cons]
      rcases x with _ | (⟨m, v⟩ | f)
      · simp
      · simp [List.getLast?_cons]
      · simp [List.getLast?_cons]
    cases k with
    | text s =>
      rw [readBody, ih]
      constructor
      · rintro ⟨items, h, h1, h2⟩
        refine ⟨none :: items, .cons .text h, ?_, ?_⟩
        · rw [(hcons none items).1, Option.or_none]; exact h1
        · rw [(hcons none items).2, Option.or_none]; exact h2
      · rintro ⟨items, h, h1, h2⟩
        cases h with
        | cons hr h =>
          cases hr
          rw [(hcons none _).1, Option.or_none] at h1
          rw [(hcons none _).2, Option.or_none] at h2
          exact ⟨_, h, h1, h2⟩
    | elem n as cs =>
      rw [readBody]
      by_cases hF : n.loc = "Fault".toList
      · rw [if_pos hF]
        cases hf : fromXml faultTy n as cs (zeroVal faultTy) with
        | ok f =>
          simp only [GoRes.bind]
          rw [ih]
          constructor
          · rintro ⟨items, h, h1, h2⟩
            refine ⟨some (.fault f) :: items, .cons (.fault hF hf) h, ?_, ?_⟩
            · rw [(hcons _ items).1, Option.or_none]; exact h1
            · rw [(hcons _ items).2, Option.or_assoc]; exact h2
          · rintro ⟨items, h, h1, h2⟩
            cases h with
            | cons hr h =>
              cases hr with
              | fault hn hf' =>
                rw [hf] at hf'
                cases hf'
                rw [(hcons _ _).1, Option.or_none] at h1
                rw [(hcons _ _).2, Option.or_assoc] at h2
                exact ⟨_, h, h1, h2⟩
              | message hb hn hf' => exact absurd (hn.symm.trans hF) (name_msg _).1
        | err e =>
          refine ⟨fun h => by simp at h, ?_⟩
          rintro ⟨items, h, -⟩
          cases h with
          | cons hr h =>
            cases hr with
            | fault hn hf' => rw [hf] at hf'; cases hf'
            | message hb hn hf' => exact absurd (hn.symm.trans hF) (name_msg _).1
        | panic e =>
          refine ⟨fun h => by simp at h, ?_⟩
          rintro ⟨items, h, -⟩
          cases h with
          | cons hr h =>
            cases hr with
            | fault hn hf' => rw [hf] at hf'; cases hf'
            | message hb hn hf' => exact absurd (hn.symm.trans hF) (name_msg _).1
      · rw [if_neg hF]
        cases hl : bodyTable.lookup n.loc with
        | none =>
          refine ⟨fun h => by simp at h, ?_⟩
          rintro ⟨items, h, -⟩
          cases h with
          | cons hr h =>
            cases hr with
            | fault hn hf' => exact absurd hn hF
            | message hb hn hf' => rw [hn, table_bound _ hb] at hl; cases hl
        | some m =>
          obtain ⟨hb, hn⟩ := (lookup_iff _ _).1 hl
          simp only
          have huniq : ∀ {m' : MsgType}, bound m' = true → n.loc = (nameOf m'.ty).loc → m' = m := by
            intro m' hb' hn'
            rw [hn', table_bound _ hb'] at hl
            cases hl; rfl
          cases hf : fromXml m.ty n as cs (zeroVal m.ty) with
          | ok v =>
            simp only [GoRes.bind]
            rw [ih]
            constructor
            · rintro ⟨items, h, h1, h2⟩
              refine ⟨some (.message m v) :: items, .cons (.message hb hn.symm hf) h, ?_, ?_⟩
              · rw [(hcons _ items).1, Option.or_assoc]; exact h1
              · rw [(hcons _ items).2, Option.or_none]; exact h2
            · rintro ⟨items, h, h1, h2⟩
              cases h with
              | cons hr h =>
                cases hr with
                | fault hn hf' => exact absurd hn hF
                | message hb' hn' hf' =>
                  cases huniq hb' hn'
                  rw [hf] at hf'
                  cases hf'
                  rw [(hcons _ _).1, Option.or_assoc] at h1
                  rw [(hcons _ _).2, Option.or_none] at h2
                  exact ⟨_, h, h1, h2⟩
          | err e =>
            refine ⟨fun h => by simp at h, ?_⟩
            rintro ⟨items, h, -⟩
            cases h with
            | cons hr h =>
              cases hr with
              | fault hn hf' => exact absurd hn hF
              | message hb' hn' hf' => cases huniq hb' hn'; rw [hf] at hf'; cases hf'
          | panic e =>
            refine ⟨fun h => by simp at h, ?_⟩
            rintro ⟨items, h, -⟩
            cases h with
            | cons hr h =>
              cases hr with
              | fault hn hf' => exact absurd hn hF
              | message hb' hn' hf' => cases huniq hb' hn'; rw [hf] at hf'; cases hf'

/-- **C49** A body is accepted exactly if every element in it is a fault or a message that can be received, by its local name; of
several messages (or faults) the last counts. -/
theorem C49_body (ks : List RNode) (b : Body) : readBody ks ⟨none, none⟩ = .ok b ↔
    ∃ items, List.Forall₂ ReadsAs ks items ∧ b.content = lastMessage items ∧ b.fault = lastFault items := by
  rw [readBody_iff]
  simp

/-- **C49** No two message types share a local name, and none is called Fault: an element stands for at most one thing. -/
theorem C49_unique {k : RNode} {x y : Option Item} (hx : ReadsAs k x) (hy : ReadsAs k y) : x = y := by
  cases hx with
  | text => cases hy; rfl
  | fault h1 h2 =>
    cases hy with
    | fault h3 h4 => rw [h2] at h4; cases h4; rfl
    | message h3 h4 h5 => exact absurd (h4.symm.trans h1) (name_msg _).1
  | message h1 h2 h3 =>
    cases hy with
    | fault h4 h5 => exact absurd (h2.symm.trans h4) (name_msg _).1
    | message h4 h5 h6 =>
      have := table_bound _ h1
      rw [← h2, h5, table_bound _ h4] at this
      cases this
      rw [h3] at h6
      cases h6
      rfl

/-- A body with a message, and then a fault. -/
example : ∃ b, readBody (resolves [] (cleanNodes [faultNode "x".toList])) ⟨none, none⟩ = .ok b ∧ b.fault = some (zeroVal faultTy) :=
  ⟨_, readBody_fault _ _ _, rfl⟩

/-! ### C50: messages without a binding -/

theorem decode_nil : decode [] = .err "XML syntax error" := by
  have : parseXml [] = none := by rw [parseXml, readTree]; rfl
  rw [decode, this]

/-- **C50** A request outside `bound` is written, but no receiver of this library can read it: its handler is not called and the
caller's `Send` fails. -/
theorem C50_request (G : FloatText) (url msgId sender identity : Text) (hu : url ≠ []) (atCs : Bool) (h : Req → Text → HandlerResult)
    (r : Req) (hb : bound (.req r.type) = false) (hv : HasTy r.type.ty r.val) (hp : r.val.TimesAll GoTime.Plain) :
    (∃ body e, posted G url msgId sender identity r = .ok body ∧ decode body = .err e) ∧
    ∃ e, exchange G url msgId sender identity atCs h r = ([], .err e) := by
  obtain ⟨c, h1, e, h2⟩ := decode_stray G hb (v := r.val) hv hp (some ⟨url, '/' :: r.type.action, msgId, sender, identity⟩) none []
  rw [List.append_nil] at h2
  have hpost : posted G url msgId sender identity r =
      .ok (print (envelopeNode (some ⟨url, '/' :: r.type.action, msgId, sender, identity⟩) c none)) := by
    rw [posted, if_neg hu, encodeCall, h1]; rfl
  refine ⟨⟨_, e, hpost, h2⟩, ?_⟩
  have hd := decode_nil
  have hs : serve G atCs h (print (envelopeNode (some ⟨url, '/' :: r.type.action, msgId, sender, identity⟩) c none)) = ⟨[], .err e⟩ := by
    rw [serve, h2]
  refine ⟨"XML syntax error".toList, ?_⟩
  rw [exchange, send, hpost]
  simp only [hs, answerOf, receive, hd]
  rw [if_neg (by simp)]

/-- **C50** Nor can the answer to such a request be read. -/
theorem C50_response (G : FloatText) (r : Resp) (hb : bound (.resp r.type) = false) (hv : HasTy r.type.ty r.val)
    (hp : r.val.TimesAll GoTime.Plain) :
    ∃ body e, encodeReply G (some r) none = .ok body ∧ decode body = .err e := by
  obtain ⟨c, h1, e, h2⟩ := decode_stray G hb (v := r.val) hv hp none none []
  rw [List.append_nil] at h2
  exact ⟨_, e, by rw [encodeReply, h1]; rfl, h2⟩

example : bound (.req .cpreqDataTransfer) = false ∧ HasTy (ReqType.ty .cpreqDataTransfer) (.struct [.str "v".toList, .str [], .str []]) :=
  ⟨rfl, trivial, trivial, trivial, trivial⟩

/-! ### C51: outcomes of a call -/

/-- **C51** `Send` succeeds exactly if the answer is an envelope without fault whose message is of the request's response type; it
returns that message. -/
theorem C51_ok (r : Req) (a : Answer) (resp : Resp) : receive r a = .ok resp ↔
    ∃ status body env, a = .got status body ∧ decode body = .ok env ∧ env.body.fault = none ∧
      env.body.content = some (.resp r.type.response, resp.val) ∧ resp.type = r.type.response := by
  obtain ⟨ty, val⟩ := resp
  cases a with
  | failed m => simp [receive]
  | got status body =>
    have hnil : ∀ env, decode body = .ok env → ¬ (body = [] ∧ status ≠ 200) := by
      rintro env h ⟨rfl, -⟩
      rw [decode_nil] at h; cases h
    constructor
    · intro h
      rw [receive] at h
      split at h
      · cases h
      · cases hd : decode body with
        | err m => rw [hd] at h; cases h
        | panic m => rw [hd] at h; cases h
        | ok env =>
          rw [hd] at h
          simp only at h
          cases hf : env.body.fault with
          | some f => rw [hf] at h; cases h
          | none =>
            rw [hf] at h
            simp only at h
            cases hc : env.body.content with
            | none => rw [hc] at h; cases h
            | some x =>
              obtain ⟨m, v⟩ := x
              rw [hc] at h
              simp only at h
              split at h
              · rename_i hm
                cases h
                exact ⟨status, body, env, rfl, hd, hf, by rw [hc, hm], rfl⟩
              · cases h
    · rintro ⟨status', body', env, e, hd, hf, hc, ht⟩
      cases e
      simp only at ht hc
      subst ht
      rw [receive, if_neg (hnil env hd), hd]
      simp only [hf, hc, if_true]

/-- **C51** `Send` panics exactly if the answer is an envelope without fault and without a message of the right type. -/
theorem C51_panic (r : Req) (a : Answer) : (∃ m, receive r a = .panic m) ↔
    ∃ status body env, a = .got status body ∧ decode body = .ok env ∧ env.body.fault = none ∧
      ∀ v, env.body.content ≠ some (.resp r.type.response, v) := by
  cases a with
  | failed m => simp [receive]
  | got status body =>
    have hnil : ∀ env, decode body = .ok env → ¬ (body = [] ∧ status ≠ 200) := by
      rintro env h ⟨rfl, -⟩
      rw [decode_nil] at h; cases h
    constructor
    · rintro ⟨msg, h⟩
      rw [receive] at h
      split at h
      · cases h
      · cases hd : decode body with
        | err m => rw [hd] at h; cases h
        | panic m => have := decode_noPanic body; rw [hd] at this; cases this
        | ok env =>
          rw [hd] at h
          simp only at h
          cases hf : env.body.fault with
          | some f => rw [hf] at h; cases h
          | none =>
            rw [hf] at h
            simp only at h
            refine ⟨status, body, env, rfl, hd, hf, fun v hc => ?_⟩
            rw [hc] at h
            simp at h
    · rintro ⟨status', body', env, e, hd, hf, hc⟩
      cases e
      rw [receive, if_neg (hnil env hd), hd]
      simp only [hf]
      cases hx : env.body.content with
      | none => exact ⟨_, rfl⟩
      | some x =>
        obtain ⟨m, v⟩ := x
        simp only
        rw [if_neg]
        · exact ⟨_, rfl⟩
        · rintro rfl
          exact hc v hx

/-- **C51** It returns an error exactly if there is no answer, the answer is not an envelope, or it has a fault. -/
theorem C51_err (r : Req) (a : Answer) : (∃ t, receive r a = .err t) ↔
    (∃ m, a = .failed m) ∨ ∃ status body, a = .got status body ∧ ∀ env, decode body = .ok env → env.body.fault ≠ none := by
  constructor
  · rintro ⟨t, h⟩
    cases a with
    | failed m => exact Or.inl ⟨m, rfl⟩
    | got status body =>
      refine Or.inr ⟨status, body, rfl, fun env hd hf => ?_⟩
      by_cases hc : ∃ v, env.body.content = some (.resp r.type.response, v)
      · obtain ⟨v, hc⟩ := hc
        rw [(C51_ok r _ ⟨r.type.response, v⟩).2 ⟨status, body, env, rfl, hd, hf, hc, rfl⟩] at h
        cases h
      · obtain ⟨m, h'⟩ := (C51_panic r (.got status body)).2 ⟨status, body, env, rfl, hd, hf, fun v hv => hc ⟨v, hv⟩⟩
        rw [h] at h'
        cases h'
  · intro h
    cases hr : receive r a with
    | err t => exact ⟨t, rfl⟩
    | ok resp =>
      obtain ⟨status, body, env, rfl, hd, hf, -⟩ := (C51_ok r a resp).1 hr
      rcases h with ⟨m, e⟩ | ⟨s', b', e, h⟩
      · cases e
      · cases e; exact absurd hf (h env hd)
    | panic m =>
      obtain ⟨status, body, env, rfl, hd, hf, -⟩ := (C51_panic r a).1 ⟨m, hr⟩
      rcases h with ⟨m, e⟩ | ⟨s', b', e, h⟩
      · cases e
      · cases e; exact absurd hf (h env hd)

/-- An answer without a message: the caller crashes. -/
example (r : Req) : ∃ m, receive r (.got 200 (print (envelopeNode none [] none) ++ [])) = .panic m :=
  (C51_panic r _).2 ⟨_, _, _, rfl, decode_empty none none [], rfl, by simp⟩

/-- **C18** Over SOAP a response is of the type that belongs to the request, and its side: the services' assertion succeeds. -/
theorem C18_soap (G : FloatText) (url msgId sender identity : Text) (net : Text → Answer) (r : Req) (resp : Resp)
    (h : send G url msgId sender identity net r = .ok resp) :
    resp.type = r.type.response ∧ assertResponse r.type.isChargePoint resp = some resp := by
  have h1 : resp.type = r.type.response := by
    rw [send] at h
    split at h
    · cases h
    · cases h
    · obtain ⟨_, _, _, _, _, _, _, ht⟩ := (C51_ok _ _ _).1 h
      exact ht
  refine ⟨h1, ?_⟩
  have : ∀ q : ReqType, q.response.isChargePoint = q.isChargePoint := by intro q; cases q <;> rfl
  unfold assertResponse
  rw [h1, this, if_pos rfl]

/-! ### C53: the server -/

/-- **C53** The handler is called exactly if the request text is an envelope with a header and a request of the right direction,
with that request and the header's identity, and then once. -/
theorem C53_called (G : FloatText) (atCs : Bool) (h : Req → Text → HandlerResult) (body : Text) (r : Req) (id : Text) :
    (r, id) ∈ (serve G atCs h body).calls ↔
      ∃ env hd, decode body = .ok env ∧ env.header = some hd ∧ identityOf hd = id ∧ env.body.content = some (.req r.type, r.val) ∧
        r.type.isChargePoint = atCs := by
  obtain ⟨ty, val⟩ := r
  unfold serve
  cases hd : decode body with
  | err m => simp
  | panic m => simp
  | ok env =>
    simp only
    cases hc : env.body.content with
    | none => simp [hc]
    | some x =>
      obtain ⟨m, v⟩ := x
      cases m with
      | resp t => simp [hc]
      | req t =>
        simp only
        cases hh : env.header with
        | none => simp [hh]
        | some w =>
          simp only [direct]
          split
          · rename_i hdir
            simp only [List.mem_singleton, Prod.mk.injEq, Req.mk.injEq]
            constructor
            · rintro ⟨⟨rfl, rfl⟩, rfl⟩
              exact ⟨env, w, rfl, hh, rfl, hc, hdir⟩
            · rintro ⟨env', w', e, hh', rfl, hc', -⟩
              cases e
              rw [hh] at hh'; cases hh'
              rw [hc] at hc'; cases hc'
              exact ⟨⟨rfl, rfl⟩, rfl⟩
          · rename_i hdir
            simp only [List.not_mem_nil, false_iff]
            rintro ⟨env', w', e, hh', rfl, hc', hd'⟩
            cases e
            rw [hc] at hc'; cases hc'
            exact hdir hd'

/-- **C53** At most one call. -/
theorem C53_once (G : FloatText) (atCs : Bool) (h : Req → Text → HandlerResult) (body : Text) :
    (serve G atCs h body).calls.length ≤ 1 := by
  unfold serve
  split
  · simp
  · simp
  · split
    · split
      · simp
      · simp only [direct]; split <;> simp
    · simp

theorem encodeReply_noPanic (G : FloatText) (resp : Option Resp) (err : Option Text)
    (hv : ∀ r, resp = some r → HasTy r.type.ty r.val) : (encodeReply G resp err).isPanic = false := by
  unfold encodeReply
  cases resp with
  | none => rfl
  | some r => exact bind_noPanic (content_noPanic G (.resp r.type) (hv r rfl)) fun _ => rfl

/-- **C53** `Handle` panics exactly on a request in an envelope without header. -/
theorem C53_panic (G : FloatText) (atCs : Bool) (h : Req → Text → HandlerResult)
    (hh : ∀ r id resp, (h r id).resp = some resp → HasTy resp.type.ty resp.val) (body : Text) :
    (serve G atCs h body).result.isPanic = true ↔
      ∃ env q v, decode body = .ok env ∧ env.header = none ∧ env.body.content = some (.req q, v) := by
  unfold serve
  cases hd : decode body with
  | err m => simp
  | panic m => have := decode_noPanic body; rw [hd] at this; cases this
  | ok env =>
    simp only
    cases hc : env.body.content with
    | none => simp [hc, GoRes.isPanic]
    | some x =>
      obtain ⟨m, v⟩ := x
      cases m with
      | resp t => simp [hc, GoRes.isPanic]
      | req t =>
        simp only
        cases hw : env.header with
        | none => exact ⟨fun _ => ⟨env, t, v, rfl, hw, hc⟩, fun _ => rfl⟩
        | some w =>
          have hn : ∀ (p : List (Req × Text) × HandlerResult), p = direct atCs h ⟨t, v⟩ (identityOf w) →
              (encodeReply G p.2.resp p.2.err).isPanic = false := by
            rintro p rfl
            apply encodeReply_noPanic
            unfold direct
            split
            · exact fun r hr => hh _ _ r hr
            · intro r hr; cases hr
          have := hn _ rfl
          simp only
          rw [this]
          constructor
          · intro x; cases x
          · rintro ⟨env', q, v', e, hw', -⟩
            cases e
            rw [hw] at hw'; cases hw'

/-- **C53** When it answers, the answer is the encoding of what the handler returned, or of the refusal of a request of the wrong
direction. -/
theorem C53_reply (G : FloatText) (atCs : Bool) (h : Req → Text → HandlerResult) (body reply : Text)
    (he : (serve G atCs h body).result = .ok reply) :
    (∃ r id, (r, id) ∈ (serve G atCs h body).calls ∧ encodeReply G (h r id).resp (h r id).err = .ok reply) ∨
    (∃ env q v, decode body = .ok env ∧ env.body.content = some (.req q, v) ∧ q.isChargePoint ≠ atCs ∧
      encodeReply G none (some "request is not a cprequest".toList) = .ok reply) := by
  unfold serve at he ⊢
  cases hd : decode body with
  | err m => rw [hd] at he; cases he
  | panic m => rw [hd] at he; cases he
  | ok env =>
    rw [hd] at he
    simp only at he ⊢
    cases hc : env.body.content with
    | none => rw [hc] at he; cases he
    | some x =>
      obtain ⟨m, v⟩ := x
      cases m with
      | resp t => rw [hc] at he; cases he
      | req t =>
        rw [hc] at he
        simp only at he ⊢
        cases hw : env.header with
        | none => rw [hw] at he; cases he
        | some w =>
          rw [hw] at he
          simp only [direct] at he ⊢
          by_cases hdir : t.isChargePoint = atCs
          · rw [if_pos hdir] at he ⊢
            exact Or.inl ⟨_, _, List.mem_singleton.2 rfl, he⟩
          · rw [if_neg hdir] at he
            exact Or.inr ⟨env, t, v, rfl, hc, hdir, he⟩

/-! ### C54, C59: a call between two ends of this library -/

theorem exchange_eq (G : FloatText) (url msgId sender identity : Text) (hu : url ≠ []) (atCs : Bool) (h : Req → Text → HandlerResult)
    (r : Req) (hb : bound (.req r.type) = true) (hv : HasTy r.type.ty r.val) (hp : r.val.TimesAll GoTime.Plain) :
    exchange G url msgId sender identity atCs h r =
      ((direct atCs h ⟨r.type, soapTrip r.type.ty r.val⟩ (cleanText identity)).1,
        receive r (answerOf (encodeReply G (direct atCs h ⟨r.type, soapTrip r.type.ty r.val⟩ (cleanText identity)).2.resp
          (direct atCs h ⟨r.type, soapTrip r.type.ty r.val⟩ (cleanText identity)).2.err))) := by
  obtain ⟨body, h1, h2⟩ := C48_request G ⟨url, '/' :: r.type.action, msgId, sender, identity⟩ r hb hv hp
  have hpost : posted G url msgId sender identity r = .ok body := by rw [posted, if_neg hu]; exact h1
  have hs : serve G atCs h body = ⟨(direct atCs h ⟨r.type, soapTrip r.type.ty r.val⟩ (cleanText identity)).1,
      encodeReply G (direct atCs h ⟨r.type, soapTrip r.type.ty r.val⟩ (cleanText identity)).2.resp
          (direct atCs h ⟨r.type, soapTrip r.type.ty r.val⟩ (cleanText identity)).2.err⟩ := by
    rw [serve, h2]
    rfl
  rw [exchange, send, hpost]
  simp only [hs]

/-- **C54** The identity configured at the caller is the identity the handler gets (up to characters XML lacks), with the request
sent. -/
theorem C54_identity (G : FloatText) (url msgId sender identity : Text) (hu : url ≠ []) (atCs : Bool) (h : Req → Text → HandlerResult)
    (r : Req) (hb : bound (.req r.type) = true) (hv : HasTy r.type.ty r.val) (hp : r.val.TimesAll GoTime.Plain)
    (hdir : r.type.isChargePoint = atCs) :
    (exchange G url msgId sender identity atCs h r).1 = [(⟨r.type, soapTrip r.type.ty r.val⟩, cleanText identity)] := by
  rw [exchange_eq G url msgId sender identity hu atCs h r hb hv hp]
  simp only [direct]
  rw [if_pos hdir]

/-- **C59** End to end: the response the handler returns is what the caller's `Send` returns (both up to `soapTrip`). -/
theorem C59_response (G : FloatText) (url msgId sender identity : Text) (hu : url ≠ []) (atCs : Bool) (h : Req → Text → HandlerResult)
    (r : Req) (hb : bound (.req r.type) = true) (hv : HasTy r.type.ty r.val) (hp : r.val.TimesAll GoTime.Plain)
    (hdir : r.type.isChargePoint = atCs) (resp : Resp)
    (hret : h ⟨r.type, soapTrip r.type.ty r.val⟩ (cleanText identity) = ⟨some resp, none⟩)
    (ht : resp.type = r.type.response) (hv' : HasTy resp.type.ty resp.val) (hp' : resp.val.TimesAll GoTime.Plain) :
    exchange G url msgId sender identity atCs h r =
      ([(⟨r.type, soapTrip r.type.ty r.val⟩, cleanText identity)], .ok ⟨resp.type, soapTrip resp.type.ty resp.val⟩) := by
  have hbr : bound (.resp resp.type) = true := by
    have : ∀ q : ReqType, bound (.req q) = true → bound (.resp q.response) = true := by
      intro q; cases q <;> decide
    rw [ht]; exact this _ hb
  rw [exchange_eq G url msgId sender identity hu atCs h r hb hv hp]
  simp only [direct]
  rw [if_pos hdir]
  simp only [hret]
  obtain ⟨body, h1, h2⟩ := C48_response G resp hbr hv' hp'
  rw [h1]
  refine Prod.ext rfl ?_
  simp only [answerOf]
  exact (C51_ok _ _ _).2 ⟨200, body, _, rfl, h2, rfl, by rw [ht], ht⟩

/-- **C59** A handler that returns no response and no error, or a response of another type, makes the caller's `Send` panic. -/
theorem C59_crash (G : FloatText) (url msgId sender identity : Text) (hu : url ≠ []) (atCs : Bool) (h : Req → Text → HandlerResult)
    (r : Req) (hb : bound (.req r.type) = true) (hv : HasTy r.type.ty r.val) (hp : r.val.TimesAll GoTime.Plain)
    (hdir : r.type.isChargePoint = atCs)
    (hret : h ⟨r.type, soapTrip r.type.ty r.val⟩ (cleanText identity) = ⟨none, none⟩ ∨
      ∃ resp : Resp, h ⟨r.type, soapTrip r.type.ty r.val⟩ (cleanText identity) = ⟨some resp, none⟩ ∧ resp.type ≠ r.type.response ∧
        bound (.resp resp.type) = true ∧ HasTy resp.type.ty resp.val ∧ resp.val.TimesAll GoTime.Plain) :
    ∃ m, (exchange G url msgId sender identity atCs h r).2 = .panic m := by
  rw [exchange_eq G url msgId sender identity hu atCs h r hb hv hp]
  simp only [direct]
  rw [if_pos hdir]
  rcases hret with hret | ⟨resp, hret, hne, hbr, hv', hp'⟩
  · simp only [hret]
    have hd := decode_empty none none []
    rw [List.append_nil] at hd
    exact (C51_panic _ _).2 ⟨200, _, _, rfl, hd, rfl, by simp⟩
  · simp only [hret]
    obtain ⟨body, h1, h2⟩ := C48_response G resp hbr hv' hp'
    rw [h1]
    refine (C51_panic _ _).2 ⟨200, body, _, rfl, h2, rfl, ?_⟩
    intro v hc
    simp only [Option.some.injEq, Prod.mk.injEq, MsgType.resp.injEq] at hc
    exact hne hc.1

/-! ### C52: handler errors -/

/-- **C52** If the handler returns an error, with or without a response, the caller's `Send` returns an error. -/
theorem C52_error (G : FloatText) (url msgId sender identity : Text) (hu : url ≠ []) (atCs : Bool) (h : Req → Text → HandlerResult)
    (r : Req) (hb : bound (.req r.type) = true) (hv : HasTy r.type.ty r.val) (hp : r.val.TimesAll GoTime.Plain)
    (hdir : r.type.isChargePoint = atCs) (resp : Option Resp) (e : Text)
    (hret : h ⟨r.type, soapTrip r.type.ty r.val⟩ (cleanText identity) = ⟨resp, some e⟩)
    (hv' : ∀ x, resp = some x → HasTy x.type.ty x.val ∧ x.val.TimesAll GoTime.Plain) :
    ∃ t, (exchange G url msgId sender identity atCs h r).2 = .err t ∧
      ((∀ x, resp = some x → bound (.resp x.type) = true) → t = []) := by
  rw [exchange_eq G url msgId sender identity hu atCs h r hb hv hp]
  simp only [direct]
  rw [if_pos hdir]
  simp only [hret]
  cases resp with
  | none =>
    have hd := decode_empty none (some e) []
    rw [List.append_nil] at hd
    refine ⟨[], ?_, fun _ => rfl⟩
    simp only [encodeReply, answerOf, receive, hd]
    rw [if_neg (by simp)]
    rfl
  | some x =>
    obtain ⟨g1, g2⟩ := hv' x rfl
    cases hbx : bound (.resp x.type) with
    | true =>
      obtain ⟨c, h1, h2⟩ := decode_message G hbx (v := x.val) g1 g2 none (some e) []
      rw [List.append_nil] at h2
      refine ⟨[], ?_, fun _ => rfl⟩
      simp only [encodeReply, h1, GoRes.bind, answerOf, receive, h2]
      rw [if_neg (by simp)]
      rfl
    | false =>
      obtain ⟨c, h1, e', h2⟩ := decode_stray G hbx (v := x.val) g1 g2 none (some e) []
      rw [List.append_nil] at h2
      refine ⟨e'.toList, ?_, fun hx => ?_⟩
      · simp only [encodeReply, h1, GoRes.bind, answerOf, receive, h2]
        rw [if_neg (by simp)]
      · rw [hx x rfl] at hbx; cases hbx

/-- **C47** Over SOAP a request of the wrong direction does not reach the handler, and the caller's `Send` fails with the (empty)
text of a fault. -/
theorem C47_soap (G : FloatText) (url msgId sender identity : Text) (hu : url ≠ []) (atCs : Bool) (h : Req → Text → HandlerResult)
    (r : Req) (hb : bound (.req r.type) = true) (hv : HasTy r.type.ty r.val) (hp : r.val.TimesAll GoTime.Plain)
    (hdir : r.type.isChargePoint ≠ atCs) : exchange G url msgId sender identity atCs h r = ([], .err []) := by
  rw [exchange_eq G url msgId sender identity hu atCs h r hb hv hp]
  simp only [direct]
  rw [if_neg hdir]
  refine Prod.ext rfl ?_
  have hd := decode_empty none (some "request is not a cprequest".toList) []
  rw [List.append_nil] at hd
  simp only [encodeReply, answerOf, receive, hd]
  rw [if_neg (by simp)]
  rfl

/-- The hypotheses of the theorems on exchanges are met. -/
example (G : FloatText) (id : Text) : exchange G "http://x".toList [] [] id true (fun _ _ => ⟨some tagResp, none⟩) tagReq =
    ([(⟨.cpreqAuthorize, .struct [.str ['<', '/', '&', '\uFFFD']]⟩, cleanText id)], .ok tagResp) :=
  C59_response G _ _ _ id (by simp) true _ tagReq tagReq_ok.1 tagReq_ok.2.1 tagReq_ok.2.2 rfl tagResp rfl rfl
    ⟨⟨trivial, trivial, trivial, trivial⟩, trivial⟩ (by simp [tagResp, Val.TimesAll, Val.TimesAlls])

/-! ### C55: replies are not compressed -/

/-- **C55** Replies are declared as deflated, but no reply is a zlib stream. -/
theorem C55_plain (G : FloatText) (atCs : Bool) (h : Req → Text → HandlerResult) (body reply : Text)
    (he : (serve G atCs h body).result = .ok reply) :
    ("Content-Encoding", "deflate") ∈ replyHeaders ∧ ¬ ZlibStart (utf8 reply) := by
  refine ⟨by decide, ?_⟩
  have hr : ∃ resp err, encodeReply G resp err = .ok reply := by
    rcases C53_reply G atCs h body reply he with ⟨r, id, -, hx⟩ | ⟨_, _, _, _, _, _, hx⟩
    · exact ⟨_, _, hx⟩
    · exact ⟨_, _, hx⟩
  have hs : ∃ t, reply = '<' :: t := by
    obtain ⟨resp, err, hx⟩ := hr
    cases resp with
    | none =>
      rw [encodeReply] at hx
      cases hx
      exact ⟨_, rfl⟩
    | some r =>
      simp only [encodeReply] at hx
      cases hc : contentNodes G (.resp r.type) r.val with
      | ok c => rw [hc] at hx; cases hx; exact ⟨_, rfl⟩
      | err m => rw [hc] at hx; cases hx
      | panic m => rw [hc] at hx; cases hx
  obtain ⟨t, rfl⟩ := hs
  rintro ⟨cmf, flg, r, hb, hm, -⟩
  have : utf8 ('<' :: t) = 60 :: utf8 t := rfl
  rw [this] at hb
  injection hb with hb1 hb2
  subst hb1
  revert hm
  decide

/-- There are replies. -/
example (G : FloatText) : ∃ body reply, (serve G true (fun _ _ => ⟨none, some []⟩) body).result = .ok reply := by
  obtain ⟨body, _, h⟩ := C48_request G ⟨[], [], [], [], []⟩ tagReq tagReq_ok.1 tagReq_ok.2.1 tagReq_ok.2.2
  refine ⟨body, print (envelopeNode none [] (some [])), ?_⟩
  rw [serve, h]
  rfl

/-! ### C56: two misnamed elements -/

theorem setKids_keep {info : StructInfo} {decs : List ElemDec} {i : Nat} : ∀ {ks : List RNode} {vs vs' : List Val},
    (∀ n as cs, RNode.elem n as cs ∈ ks → Xml.fieldOf info n ≠ some i) → setKids info decs ks vs = .ok vs' → vs'[i]? = vs[i]?
  | [], vs, vs', _, h => by rw [setKids] at h; cases h; rfl
  | .text _ :: ks, vs, vs', hk, h => by
    rw [setKids] at h
    exact setKids_keep (fun n as cs hm => hk n as cs (by simp [hm])) h
  | .elem n as cs :: ks, vs, vs', hk, h => by
    have hk' : ∀ n as cs, RNode.elem n as cs ∈ ks → Xml.fieldOf info n ≠ some i := fun n as cs hm => hk n as cs (by simp [hm])
    rw [setKids] at h
    cases hf : Xml.fieldOf info n with
    | none =>
      rw [hf] at h
      exact setKids_keep hk' h
    | some j =>
      rw [hf] at h
      simp only [GoRes.bind_eq_ok] at h
      obtain ⟨v, -, h⟩ := h
      rw [setKids_keep hk' h, List.getElem?_set_ne]
      rintro rfl
      exact hk n as cs (by simp) hf

/-- A field that no child element is for stays zero. -/
theorem field_unset {info : StructInfo} {ts : List Ty} (hk : ∀ f ∈ info.fields, f.xmlKind = .elem) {n : XName} {as : List (XName × Text)}
    {cs : List RNode} {v : Val} {i : Nat} (hc : ∀ n as cs', RNode.elem n as cs' ∈ cs → Xml.fieldOf info n ≠ some i)
    (h : fromXml (.struct info ts) n as cs (zeroVal (.struct info ts)) = .ok v) :
    ∃ vs, v = .struct vs ∧ vs[i]? = (zeroVals ts)[i]? := by
  rw [fromXml, show zeroVal (.struct info ts) = .struct (zeroVals ts) from rfl] at h
  simp only [setAttrs_eq, Codec.fieldsOf] at h
  rw [attrsFold_other fun a _ f hf hfk => by rw [hk f hf] at hfk; cases hfk] at h
  simp only [GoRes.bind_eq_ok] at h
  obtain ⟨_, -, vs1, e1, vs2, e2, vs3, e3, e4⟩ := h
  cases e1
  rw [setData_none fun f hf => by rw [hk f hf]; simp] at e3
  cases e3
  cases e4
  exact ⟨_, rfl, setKids_keep hc e2⟩

/-- **C56** The idTagInfo of a StopTransaction response is written as `IdTagInfo`. -/
theorem C56_stop_written (G : FloatText) (w : Val) (c : List XNode)
    (h : contentNodes G (.resp .cprespStopTransaction) (.struct [.ptr w]) = .ok c) :
    ∃ as k as' ks', c = [.elem "stopTransactionResponse".toList as [k]] ∧ k = .elem "IdTagInfo".toList as' ks' := by
  cases w with
  | struct vs =>
    rw [contentNodes, show (MsgType.resp .cprespStopTransaction).ty = .struct cpresp.StopTransaction.info [.ptr cpresp.IdTagInfo] from rfl,
      toXml] at h
    simp only [GoRes.bind_eq_ok] at h
    obtain ⟨as, -, ks, e2, e3⟩ := h
    cases e3
    rw [show cpresp.StopTransaction.info.fields = [⟨"IdTagInfo", "idTagInfo".toList, false, .elem, "IdTagInfo".toList, false⟩] from rfl] at e2
    simp only [kidsOf, toXmls, cpresp.StopTransaction.info, List.zip_cons_cons, List.zip_nil_left, List.map_cons, List.map_nil, joinAll,
      kidOf, GoRes.bind_eq_ok] at e2
    obtain ⟨k, e4, _, e5, e6⟩ := e2
    cases e5
    cases e6
    rw [toXml, cpresp.IdTagInfo, toXml] at e4
    simp only [GoRes.bind_eq_ok] at e4
    obtain ⟨as', -, ks', -, e7⟩ := e4
    cases e7
    exact ⟨_, _, _, _, rfl, rfl⟩
  | _ => cases h

/-- **C56** What is sent as `idTagInfo`, or under any other name, is dropped. -/
theorem C56_stop_dropped (n : XName) (as : List (XName × Text)) (cs : List RNode) (v : Val)
    (hc : ∀ n as cs', RNode.elem n as cs' ∈ cs → n.loc ≠ "IdTagInfo".toList)
    (h : fromXml (RespType.ty .cprespStopTransaction) n as cs (zeroVal (RespType.ty .cprespStopTransaction)) = .ok v) :
    ∃ vs, v = .struct vs ∧ vs[0]? = some .nil := by
  refine field_unset (info := cpresp.StopTransaction.info) (ts := [.ptr cpresp.IdTagInfo]) (by decide) ?_ h
  intro n as cs' hm hf
  have := hc n as cs' hm
  simp [Xml.fieldOf, cpresp.StopTransaction.info, fieldName, matches_, List.findIdx?_cons] at hf
  exact this hf.symm

/-- **C56** The data of a DataTransfer response is written as `Data`. -/
theorem C56_data_written (G : FloatText) (w st : Text) (c : List XNode)
    (h : contentNodes G (.resp .cprespDataTransfer) (.struct [.str w, .str st]) = .ok c) :
    ∃ as ks, c = [.elem "dataTransferResponse".toList as (.elem "Data".toList [] (txt w) :: ks)] := by
  rw [contentNodes, show (MsgType.resp .cprespDataTransfer).ty = .struct cpresp.DataTransfer.info [.str, .str] from rfl, toXml] at h
  simp only [GoRes.bind_eq_ok] at h
  obtain ⟨as, -, ks, e2, e3⟩ := h
  cases e3
  rw [show cpresp.DataTransfer.info.fields = [⟨"Data", "data".toList, false, .elem, "Data".toList, false⟩,
    ⟨"Status", "status".toList, false, .elem, "status".toList, true⟩] from rfl] at e2
  simp only [kidsOf, toXmls, cpresp.DataTransfer.info, List.zip_cons_cons, List.zip_nil_left, List.map_cons, List.map_nil, joinAll,
    kidOf, GoRes.bind_eq_ok, toXml_simple G (t := .str) rfl] at e2
  obtain ⟨k, e4, ks', e5, e6⟩ := e2
  cases e6
  rw [if_neg (by simp)] at e4
  cases e4
  exact ⟨_, ks', rfl⟩

/-- **C56** What is sent as `data`, or under any other name, is dropped. -/
theorem C56_data_dropped (n : XName) (as : List (XName × Text)) (cs : List RNode) (v : Val)
    (hc : ∀ n as cs', RNode.elem n as cs' ∈ cs → n.loc ≠ "Data".toList)
    (h : fromXml (RespType.ty .cprespDataTransfer) n as cs (zeroVal (RespType.ty .cprespDataTransfer)) = .ok v) :
    ∃ vs, v = .struct vs ∧ vs[0]? = some (.str []) := by
  refine field_unset (info := cpresp.DataTransfer.info) (ts := [.str, .str]) (by decide) ?_ h
  intro n as cs' hm hf
  have := hc n as cs' hm
  simp [Xml.fieldOf, cpresp.DataTransfer.info, fieldName, matches_, List.findIdx?_cons] at hf
  exact this hf.symm

/-- The standard's `idTagInfo` is read and dropped. -/
example : ∃ v, fromXml (RespType.ty .cprespStopTransaction) ⟨"urn://Ocpp/Cs/2012/06/".toList, "stopTransactionResponse".toList⟩ []
    [.elem ⟨"urn://Ocpp/Cs/2012/06/".toList, "idTagInfo".toList⟩ [] []] (zeroVal (RespType.ty .cprespStopTransaction)) = .ok v :=
  ⟨.struct [.nil], rfl⟩

/-! ### C60: nothing that is received can crash the decoder -/

/-- **C60** No text whatever makes the decoding of SOAP panic. -/
theorem C60_decode (t : Text) : (decode t).isPanic = false := decode_noPanic t

/-- **C60** Nor does any typed message make the encoding panic: it succeeds or reports an error. -/
theorem C60_encode (G : FloatText) (h : Header) (r : Req) (hv : HasTy r.type.ty r.val) : (encodeCall G h r).isPanic = false :=
  bind_noPanic (content_noPanic G (.req r.type) hv) fun _ => rfl

/-- **C60** Nor does the encoding of a reply: a typed response, or a fault with any text. -/
theorem C60_encodeReply (G : FloatText) (resp : Option Resp) (err : Option Text) (hv : ∀ r, resp = some r → HasTy r.type.ty r.val) :
    (encodeReply G resp err).isPanic = false := by
  cases resp with
  | none => cases err <;> rfl
  | some r => cases err with
    | none => exact bind_noPanic (content_noPanic G (.resp r.type) (hv _ rfl)) fun _ => rfl
    | some e => first | rfl | exact bind_noPanic (content_noPanic G (.resp r.type) (hv _ rfl)) fun _ => rfl

end Verif.Soap
