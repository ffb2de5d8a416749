import Verif.Lemmas.SoapSent
/-!
# C70, C72: SOAP documents of other implementations

What this library makes of a SOAP document depends on what the document says (`Spec.SoapDoc`, `Spec.SoapMeans`) and not on how that
is spelled (`Spec.XmlDoc`, `Spec.Infoset`).
-/
namespace Verif.Soap
open Xml Ocppj

theorem decode_noPanic' {t : Text} {m : String} : decode t ≠ .panic m := by
  intro h
  have := C60_decode t
  rw [h] at this
  cases this

/-- Two spellings of the same document are decoded alike. -/
theorem decode_same {t t' : Text} {i : Info} (h : SoapDoc t i) (h' : SoapDoc t' i) {env : Envelope} (he : decode t = .ok env) :
    ∃ env', decode t' = .ok env' ∧ env'.body.content = env.body.content ∧
      env'.body.fault.map faultText = env.body.fault.map faultText ∧ (env'.header = none ↔ env.header = none) ∧
      ∀ hd hd', env.header = some hd → env'.header = some hd' → identityOf hd = identityOf hd' := by
  obtain ⟨l, h1, h2, h3, h4, h5⟩ := (decode_says h).1 env he
  obtain ⟨env', h6, h7, h8⟩ := (decode_says h').2 l h1
  obtain ⟨-, -, -, -, h9, h10⟩ := (decode_says h').1 env' h6
  exact ⟨env', h6, by rw [h7, h2], by rw [h8, h3], by rw [h9, h4], fun hd hd' a b => by rw [h5 hd a, h10 hd' b]⟩

theorem serve_same (G : FloatText) (atCs : Bool) (h : Req → Text → HandlerResult) {t t' : Text} {env env' : Envelope}
    (he : decode t = .ok env) (he' : decode t' = .ok env') (hc : env'.body.content = env.body.content)
    (hh : env'.header = none ↔ env.header = none)
    (hi : ∀ hd hd', env.header = some hd → env'.header = some hd' → identityOf hd = identityOf hd') :
    serve G atCs h t = serve G atCs h t' := by
  unfold serve
  rw [he, he']
  simp only [hc]
  cases hcc : env.body.content with
  | none => rfl
  | some mv =>
    obtain ⟨m, v⟩ := mv
    cases m with
    | resp r => rfl
    | req r =>
      cases h1 : env.header with
      | none => rw [hh.2 h1]
      | some hd =>
        cases h2 : env'.header with
        | none => rw [hh.1 h2] at h1; cases h1
        | some hd' => simp only [hi hd hd' h1 h2]

/-- **C70** Two spellings of the same document have the same effect at a server: the same calls of the handler and the same
answer. -/
theorem C70_serve (G : FloatText) (atCs : Bool) (h : Req → Text → HandlerResult) {t t' : Text} {i : Info} (ht : SoapDoc t i)
    (ht' : SoapDoc t' i) :
    (serve G atCs h t).calls = (serve G atCs h t').calls ∧
      answerOf (serve G atCs h t).result = answerOf (serve G atCs h t').result := by
  cases he : decode t with
  | ok env =>
    obtain ⟨env', he', hc, -, hh, hi⟩ := decode_same ht ht' he
    rw [serve_same G atCs h he he' hc hh hi]
    exact ⟨rfl, rfl⟩
  | panic m => exact absurd he decode_noPanic'
  | err m =>
    cases he' : decode t' with
    | ok env =>
      obtain ⟨env', h1, -⟩ := decode_same ht' ht he'
      rw [h1] at he; cases he
    | panic m => exact absurd he' decode_noPanic'
    | err m' => simp [serve, he, he', answerOf]

/-- The result of `Send` up to the text of an error. -/
inductive Alike : Result → Result → Prop where
  | ok {r} : Alike (.ok r) (.ok r)
  | err {s t} : Alike (.err s) (.err t)
  | panic {m} : Alike (.panic m) (.panic m)

theorem document_ne {t : Text} {i : Info} (h : SoapDoc t i) : t ≠ [] := by
  rintro rfl
  obtain ⟨x, hx, -⟩ := h
  have h1 := document_read hx
  have h2 : parseXml [] = none := by unfold parseXml; rw [readTree.eq_def]; rfl
  rw [h2] at h1
  cases h1

/-- **C70** And they have the same effect as the answer to a `Send`: the same response, an error (with the same text if it is a fault)
or the same panic. -/
theorem C70_send (r : Req) (status : Nat) {t t' : Text} {i : Info} (ht : SoapDoc t i) (ht' : SoapDoc t' i) :
    Alike (receive r (.got status t)) (receive r (.got status t')) ∧
      (∀ env, decode t = .ok env → receive r (.got status t) = receive r (.got status t')) := by
  have hok : ∀ env, decode t = .ok env → receive r (.got status t) = receive r (.got status t') := by
    intro env he
    obtain ⟨env', he', hc, hf, -⟩ := decode_same ht ht' he
    unfold receive
    simp only [document_ne ht, document_ne ht', false_and, if_false, he, he', hc]
    cases h1 : env.body.fault with
    | none =>
      rw [h1] at hf
      cases h2 : env'.body.fault with
      | none => rfl
      | some f => rw [h2] at hf; simp at hf
    | some f =>
      rw [h1] at hf
      cases h2 : env'.body.fault with
      | none => rw [h2] at hf; simp at hf
      | some f' =>
        rw [h2] at hf
        simp only [Option.map_some, Option.some.injEq] at hf
        simp only [hf]
  refine ⟨?_, hok⟩
  cases he : decode t with
  | ok env =>
    rw [hok env he]
    cases receive r (.got status t') <;> constructor
  | panic m => exact absurd he decode_noPanic'
  | err m =>
    cases he' : decode t' with
    | ok env =>
      obtain ⟨env', h1, -⟩ := decode_same ht' ht he'
      rw [h1] at he; cases he
    | panic m => exact absurd he' decode_noPanic'
    | err m' =>
      unfold receive
      simp only [document_ne ht, document_ne ht', false_and, if_false, he, he']
      constructor

/-! ### Exactly -/

/-- **C72** The handler is called exactly if the document is an envelope with a header, everything in its body can be read, and the
last message in it is a request of the right direction; it gets what that request means and the identity in the header. -/
theorem C72_called (G : FloatText) (atCs : Bool) (h : Req → Text → HandlerResult) {t : Text} {i : Info} (ht : SoapDoc t i) (r : Req)
    (id : Text) :
    (r, id) ∈ (serve G atCs h t).calls ↔
      ∃ l, EnvelopeSays i l ∧ HasHeader i ∧ identity i = id ∧ message l = some (.req r.type, r.val) ∧ r.type.isChargePoint = atCs := by
  rw [C53_called]
  constructor
  · rintro ⟨env, hd, h1, h2, h3, h4, h5⟩
    obtain ⟨l, h6, h7, -, h8, h9⟩ := (decode_says ht).1 env h1
    refine ⟨l, h6, ?_, by rw [← h9 hd h2, h3], by rw [← h7, h4], h5⟩
    by_contra hn
    rw [h8.2 hn] at h2
    cases h2
  · rintro ⟨l, h1, h2, h3, h4, h5⟩
    obtain ⟨env, h6, h7, -⟩ := (decode_says ht).2 l h1
    obtain ⟨-, -, -, -, h8, h9⟩ := (decode_says ht).1 env h6
    cases hh : env.header with
    | none => exact absurd h2 (h8.1 hh)
    | some hd => exact ⟨env, hd, h6, hh, by rw [h9 hd hh, h3], by rw [h7, h4], h5⟩

/-- **C72** `Send` returns a response exactly if the answer is an envelope without fault whose last message is of the request's response
type; it returns what that message means. -/
theorem C72_ok (r : Req) (status : Nat) {t : Text} {i : Info} (ht : SoapDoc t i) (resp : Resp) :
    receive r (.got status t) = .ok resp ↔
      ∃ l, EnvelopeSays i l ∧ fault l = none ∧ message l = some (.resp r.type.response, resp.val) ∧ resp.type = r.type.response := by
  rw [C51_ok]
  constructor
  · rintro ⟨_, _, env, he, h1, h2, h3, h4⟩
    simp only [Answer.got.injEq] at he
    obtain ⟨rfl, rfl⟩ := he
    obtain ⟨l, h6, h7, h8, -⟩ := (decode_says ht).1 env h1
    exact ⟨l, h6, by rw [← h8, h2]; rfl, by rw [← h7, h3], h4⟩
  · rintro ⟨l, h1, h2, h3, h4⟩
    obtain ⟨env, h6, h7, h8⟩ := (decode_says ht).2 l h1
    rw [h2, Option.map_eq_none_iff] at h8
    exact ⟨_, _, env, rfl, h6, h8, by rw [h7, h3], h4⟩

/-- **C72** It panics exactly if the answer is an envelope without fault whose last message, if there is one, is of another type. -/
theorem C72_panic (r : Req) (status : Nat) {t : Text} {i : Info} (ht : SoapDoc t i) :
    (∃ m, receive r (.got status t) = .panic m) ↔
      ∃ l, EnvelopeSays i l ∧ fault l = none ∧ ∀ v, message l ≠ some (.resp r.type.response, v) := by
  rw [C51_panic]
  constructor
  · rintro ⟨_, _, env, he, h1, h2, h3⟩
    simp only [Answer.got.injEq] at he
    obtain ⟨rfl, rfl⟩ := he
    obtain ⟨l, h6, h7, h8, -⟩ := (decode_says ht).1 env h1
    exact ⟨l, h6, by rw [← h8, h2]; rfl, by rw [← h7]; exact h3⟩
  · rintro ⟨l, h1, h2, h3⟩
    obtain ⟨env, h6, h7, h8⟩ := (decode_says ht).2 l h1
    rw [h2, Option.map_eq_none_iff] at h8
    exact ⟨_, _, env, rfl, h6, h8, by rw [h7]; exact h3⟩

/-- **C72** If the answer is an envelope with a fault, `Send` returns an error with the text of the last fault's reason. -/
theorem C72_fault (r : Req) (status : Nat) {t : Text} {i : Info} (ht : SoapDoc t i) {l : List Said} (hl : EnvelopeSays i l) {s : Text}
    (hf : fault l = some s) : receive r (.got status t) = .err s := by
  obtain ⟨env, h6, -, h8⟩ := (decode_says ht).2 l hl
  rw [hf, Option.map_eq_some_iff] at h8
  obtain ⟨f, h9, h10⟩ := h8
  unfold receive
  simp only [document_ne ht, false_and, if_false, h6, h9, h10]

/-- **C72** If it is not an envelope, or something in its body cannot be read, `Send` returns an error. -/
theorem C72_unreadable (r : Req) (status : Nat) {t : Text} {i : Info} (ht : SoapDoc t i) (hl : ∀ l, ¬ EnvelopeSays i l) :
    ∃ s, receive r (.got status t) = .err s := by
  refine (C51_err r _).2 (Or.inr ⟨status, t, rfl, ?_⟩)
  intro env he
  obtain ⟨l, h, -⟩ := (decode_says ht).1 env he
  exact absurd h (hl l)

end Verif.Soap

namespace Verif.Soap
open Xml Ocppj

/-! ### What is sent -/

theorem content_doc (G : FloatText) (m : MsgType) {v : Val} (hv : HasTy m.ty v) (hp : v.TimesAll GoTime.Plain) (hd : Option Header)
    (fault : Option Text) : ∃ c, contentNodes G m v = .ok c ∧ Renders m (soapTrip m.ty v) (rendered G m v) ∧
      SoapDoc (print (envelopeNode hd c fault))
      (group "http://www.w3.org/2003/05/soap-envelope" "Envelope" (hd.toList.map headerInfo ++
        [group "http://www.w3.org/2003/05/soap-envelope" "Body" ([rendered G m v] ++ fault.toList.map fun s => faultInfo (cleanText s))])) := by
  obtain ⟨k, h1, h2, h3, h4, h5, h6⟩ := content_says G m hv hp
  obtain ⟨k', h7, h8, -⟩ := content_trip G m hv hp
  rw [h1] at h7
  simp only [GoRes.ok.injEq, List.cons.injEq, and_true] at h7
  subst h7
  refine ⟨[k], h1, h5, envelope_doc hd (by simpa using ⟨h2, h4, h3⟩) (.elem (h6 _) .nil) fault
    (envelope_tidy hd (by intro x hx; simp only [List.mem_singleton] at hx; subst hx; exact ⟨_, h8⟩) fault)⟩

/-- **C71** `Send` posts a well-formed document of SOAP 1.2: in its header the address of the peer, the action, the message id, the
address of the sender (WS-Addressing) and the identity (OCPP), in its body the element of the request, which means the request. -/
theorem C71_request (G : FloatText) (url msgId sender identity : Text) (hu : url ≠ []) (r : Req) (hv : HasTy r.type.ty r.val)
    (hp : r.val.TimesAll GoTime.Plain) : ∃ body, posted G url msgId sender identity r = .ok body ∧
      SoapDoc body (requestInfo (cleanText url) (cleanText ('/' :: r.type.action)) (cleanText msgId) (cleanText sender) (cleanText identity)
        (rendered G (.req r.type) r.val)) ∧
      Renders (.req r.type) (soapTrip r.type.ty r.val) (rendered G (.req r.type) r.val) := by
  obtain ⟨c, h1, h2, h3⟩ := content_doc G (.req r.type) hv hp (some ⟨url, '/' :: r.type.action, msgId, sender, identity⟩) none
  refine ⟨_, ?_, h3, h2⟩
  unfold posted encodeCall
  rw [if_neg hu, h1]
  rfl

/-- **C71** The server replies with such a document, too, without header: the element of the response, or a fault, or both. -/
theorem C71_response (G : FloatText) (r : Resp) (err : Option Text) (hv : HasTy r.type.ty r.val) (hp : r.val.TimesAll GoTime.Plain) :
    ∃ body, encodeReply G (some r) err = .ok body ∧ SoapDoc body (replyInfo [rendered G (.resp r.type) r.val] (err.map cleanText)) ∧
      Renders (.resp r.type) (soapTrip r.type.ty r.val) (rendered G (.resp r.type) r.val) := by
  obtain ⟨c, h1, h2, h3⟩ := content_doc G (.resp r.type) hv hp none err
  refine ⟨print (envelopeNode none c err), ?_, ?_, h2⟩
  · unfold encodeReply
    simp only [h1]
    rfl
  · have : (err.map cleanText).toList.map faultInfo = err.toList.map fun s => faultInfo (cleanText s) := by cases err <;> rfl
    rw [replyInfo, this]
    exact h3

/-- **C71** Without a response. -/
theorem C71_error (G : FloatText) (err : Option Text) :
    ∃ body, encodeReply G none err = .ok body ∧ SoapDoc body (replyInfo [] (err.map cleanText)) := by
  have h := envelope_doc none (c := []) (is := []) (by simp) .nil err (envelope_tidy none (by simp) err)
  refine ⟨_, rfl, ?_⟩
  have : (err.map cleanText).toList.map faultInfo = err.toList.map fun s => faultInfo (cleanText s) := by cases err <;> rfl
  rw [replyInfo, this]
  exact h

/-- It applies to a request with markup and a control character in it. -/
example (G : FloatText) : ∃ body, posted G "http://cs:8080".toList "1".toList [] "CP1".toList tagReq = .ok body ∧
    SoapDoc body (requestInfo (cleanText "http://cs:8080".toList) (cleanText "/Authorize".toList) (cleanText "1".toList) (cleanText [])
      (cleanText "CP1".toList) (rendered G (.req .cpreqAuthorize) tagReq.val)) ∧
    Renders (.req .cpreqAuthorize) (.struct [.str ['<', '/', '&', '\uFFFD']]) (rendered G (.req .cpreqAuthorize) tagReq.val) :=
  C71_request G _ _ _ _ (by decide) tagReq tagReq_ok.2.1 tagReq_ok.2.2

/-! ### A document of another implementation -/

/-- Another spelling: XML declaration, comment, other prefixes and quotes, a character reference, a CDATA section, white space. -/
def foreign : Text := ("<?xml version='1.0' encoding='UTF-8'?><!-- by hand -->\n" ++
  "<env:Envelope xmlns:env='http://www.w3.org/2003/05/soap-envelope'>\n" ++
  "<env:Header><o:chargeBoxIdentity xmlns:o='urn://Ocpp/Cs/2012/06/'>CP&#x31;</o:chargeBoxIdentity></env:Header>" ++
  "<env:Body><o:authorizeRequest xmlns:o='urn://Ocpp/Cs/2012/06/'><o:idTag><![CDATA[A<B]]></o:idTag><o:extra/></o:authorizeRequest></env:Body>" ++
  "</env:Envelope>").toList

/-- What it says. -/
def foreignInfo : Info :=
  .elem ⟨"http://www.w3.org/2003/05/soap-envelope".toList, "Envelope".toList⟩ [] "\n".toList [
    group "http://www.w3.org/2003/05/soap-envelope" "Header" [plain "urn://Ocpp/Cs/2012/06/" "chargeBoxIdentity" "CP1".toList],
    group "http://www.w3.org/2003/05/soap-envelope" "Body" [
      group "urn://Ocpp/Cs/2012/06/" "authorizeRequest" [
        plain "urn://Ocpp/Cs/2012/06/" "idTag" "A<B".toList, plain "urn://Ocpp/Cs/2012/06/" "extra" []]]]

theorem spaceNil : Space [] := by intro c hc; cases hc

theorem elemAt {t n at_ raw : Text} {as : List (Text × Text)} {ks : List XNode} (hn : isQ n = true) (ha : Attrs at_ as) (hc : Content raw ks)
    (ht : t = '<' :: (n ++ (at_ ++ '>' :: (raw ++ '<' :: '/' :: (n ++ ['>']))))) : Element t (.elem n as ks) := by
  have := Element.full (sp := []) (sp' := []) (isQ_sound hn) ha spaceNil hc spaceNil
  rw [ht]
  simpa using this

theorem attrAt {t n v : Text} (hn : isQ n = true) (hv : v.all (fun c => decide (IsXmlChar c ∧ c ≠ '<' ∧ c ≠ '&' ∧ c ≠ '\'' ∧ c ≠ '\t' ∧ c ≠ '\n' ∧ c ≠ '\r')) = true)
    (ht : t = ' ' :: (n ++ '=' :: '\'' :: (v ++ ['\'']))) : Attrs t [(n, v)] := by
  have hval : AttValue '\'' v v := by
    clear ht
    induction v with
    | nil => exact .nil
    | cons c v ih =>
      simp only [List.all_cons, Bool.and_eq_true, decide_eq_true_eq] at hv
      obtain ⟨⟨h1, h2, h3, h4, h5, h6, h7⟩, h8⟩ := hv
      exact .char h1 h2 h3 h4 h5 h6 h7 (ih h8)
  have := Attrs.cons (sp := [' ']) (sp1 := []) (sp2 := []) (by simp) (by intro c hc; simp_all) (isQ_sound hn) spaceNil spaceNil (Or.inr rfl) hval .nil
  rw [ht]
  simpa using this

set_option maxRecDepth 20000 in
set_option maxHeartbeats 1000000 in
theorem foreign_doc : SoapDoc foreign foreignInfo := by
  have hcb : Element "<o:chargeBoxIdentity xmlns:o='urn://Ocpp/Cs/2012/06/'>CP&#x31;</o:chargeBoxIdentity>".toList
      (.elem "o:chargeBoxIdentity".toList [("xmlns:o".toList, "urn://Ocpp/Cs/2012/06/".toList)] [.text "CP1".toList]) := by
    refine elemAt (at_ := " xmlns:o='urn://Ocpp/Cs/2012/06/'".toList) (raw := "CP&#x31;".toList) (by decide) (attrAt (by decide) (by decide) (by decide)) ?_ (by decide)
    have h31 : Ref "#x31".toList '1' :=
      .hex (t := "31".toList) (digit_ref _ [3, 1] 16 (.cons ⟨by decide, Or.inl (by decide)⟩ (.cons ⟨by decide, Or.inl (by decide)⟩ .nil)) (by decide) _ (by decide)) (by decide)
    have : CharData "CP&#x31;".toList "CP1".toList :=
      .char (by decide) (by decide) (by decide) (by decide) (.char (by decide) (by decide) (by decide) (by decide) (.ref (e := "#x31".toList) h31 .nil))
    exact .text (raw := "CP&#x31;".toList) (t := []) (by decide) this (by decide) (Or.inl rfl) .nil
  have hhd : Element "<env:Header><o:chargeBoxIdentity xmlns:o='urn://Ocpp/Cs/2012/06/'>CP&#x31;</o:chargeBoxIdentity></env:Header>".toList
      (.elem "env:Header".toList [] [.elem "o:chargeBoxIdentity".toList [("xmlns:o".toList, "urn://Ocpp/Cs/2012/06/".toList)] [.text "CP1".toList]]) :=
    elemAt (at_ := []) (by decide) .nil (.elem hcb .nil) (by decide)
  have hid : Element "<o:idTag><![CDATA[A<B]]></o:idTag>".toList (.elem "o:idTag".toList [] [.text "A<B".toList]) :=
    elemAt (at_ := []) (by decide) .nil (.cdata (s := "A<B".toList) (t := []) (by decide) (by decide) .nil) (by decide)
  have hex : Element "<o:extra/>".toList (.elem "o:extra".toList [] []) :=
    .empty (n := "o:extra".toList) (at_ := []) (sp := []) (isQ_sound (by decide)) .nil spaceNil
  have har : Element "<o:authorizeRequest xmlns:o='urn://Ocpp/Cs/2012/06/'><o:idTag><![CDATA[A<B]]></o:idTag><o:extra/></o:authorizeRequest>".toList
      (.elem "o:authorizeRequest".toList [("xmlns:o".toList, "urn://Ocpp/Cs/2012/06/".toList)]
        [.elem "o:idTag".toList [] [.text "A<B".toList], .elem "o:extra".toList [] []]) :=
    elemAt (at_ := " xmlns:o='urn://Ocpp/Cs/2012/06/'".toList) (by decide) (attrAt (by decide) (by decide) (by decide)) (.elem hid (.elem hex .nil)) (by decide)
  have hbd : Element "<env:Body><o:authorizeRequest xmlns:o='urn://Ocpp/Cs/2012/06/'><o:idTag><![CDATA[A<B]]></o:idTag><o:extra/></o:authorizeRequest></env:Body>".toList
      (.elem "env:Body".toList [] [.elem "o:authorizeRequest".toList [("xmlns:o".toList, "urn://Ocpp/Cs/2012/06/".toList)]
        [.elem "o:idTag".toList [] [.text "A<B".toList], .elem "o:extra".toList [] []]]) :=
    elemAt (at_ := []) (by decide) .nil (.elem har .nil) (by decide)
  have hnl : CharData "\n".toList "\n".toList := .char (by decide) (by decide) (by decide) (by decide) .nil
  have hct := Content.text (raw := "\n".toList) (by decide) hnl (by decide) (Or.inr (by decide)) (.elem hhd (.elem hbd .nil))
  have hen := elemAt (n := "env:Envelope".toList) (at_ := " xmlns:env='http://www.w3.org/2003/05/soap-envelope'".toList) (by decide)
    (attrAt (n := "xmlns:env".toList) (v := "http://www.w3.org/2003/05/soap-envelope".toList) (by decide) (by decide) (by decide)) hct rfl
  have hmisc : Misc "<!-- by hand -->\n".toList := by
    refine .comment (c := "<!-- by hand -->".toList) (t := "\n".toList) ⟨" by hand ".toList, by decide, by decide, by decide⟩ ?_
    exact .space (sp := "\n".toList) (t := []) (by decide) (by intro c hc; simp at hc; simp [hc]) (Or.inl rfl) .nil
  have hdecl : Decl "<?xml version='1.0' encoding='UTF-8'?>".toList := by
    refine ⟨" ".toList, "'1.0'".toList, " encoding='UTF-8'".toList, [], [], by decide, by decide, ?_, Or.inr (by decide),
      Or.inr ⟨" ".toList, "UTF-8".toList, "'UTF-8'".toList, by decide, by decide, ?_, Or.inr (by decide), by decide⟩, Or.inl rfl, spaceNil⟩
    · intro c hc; simp at hc; simp [hc]
    · intro c hc; simp at hc; simp [hc]
  refine ⟨_, ⟨[], _, _, _, [], ?_, Or.inl rfl, Or.inr hdecl, hmisc, hen, .nil⟩, ?_, ?_⟩
  · decide +kernel
  · refine .elem (.prefixed (p := "env".toList) (l := "Envelope".toList) (nc "env") (nc "Envelope") (by decide) (by decide) (by decide))
      (.decl (p := "env".toList) (Or.inr (nc "env")) .nil) (.text (s := "\n".toList) (.elem ?_ (.elem ?_ .nil)))
    · refine .elem (.prefixed (p := "env".toList) (l := "Header".toList) (nc "env") (nc "Header") (by decide) (by decide) (by decide)) .nil
        (.elem (.elem (.prefixed (p := "o".toList) (l := "chargeBoxIdentity".toList) (nc "o") (nc "chargeBoxIdentity") (by decide) (by decide) (by decide))
          (.decl (p := "o".toList) (Or.inr (nc "o")) .nil) (.text (s := "CP1".toList) .nil)) .nil)
    · refine .elem (.prefixed (p := "env".toList) (l := "Body".toList) (nc "env") (nc "Body") (by decide) (by decide) (by decide)) .nil
        (.elem (.elem (.prefixed (p := "o".toList) (l := "authorizeRequest".toList) (nc "o") (nc "authorizeRequest") (by decide) (by decide) (by decide))
          (.decl (p := "o".toList) (Or.inr (nc "o")) .nil) (.elem ?_ (.elem ?_ .nil))) .nil)
      · exact .elem (.prefixed (p := "o".toList) (l := "idTag".toList) (nc "o") (nc "idTag") (by decide) (by decide) (by decide)) .nil (.text (s := "A<B".toList) .nil)
      · exact .elem (.prefixed (p := "o".toList) (l := "extra".toList) (nc "o") (nc "extra") (by decide) (by decide) (by decide)) .nil .nil
  · decide

/-- Numbers are read as in Go programs: this text stands for four. -/
example : Scalar .float " 0x1_0P-2\n".toList (.float (.fin 4)) := by
  refine .inr ⟨"0x1_0P-2".toList, _, ⟨" ".toList, "\n".toList, by unfold WhiteSpace; decide, by unfold WhiteSpace; decide, by decide⟩,
    .inl ⟨false, "0x1_0P-2".toList, 4, 4, .inl ⟨rfl, .inl rfl⟩, ?_, ?_, rfl⟩, rfl⟩
  · refine .inr ⟨'x', "1_0P-2".toList, "10P-2".toList, .inl rfl, by decide, ?_, ?_⟩
    · rw [separated_hex]
      exact ⟨by decide, (scan_iff _ _ _).1 (by decide)⟩
    · exact ⟨"10".toList, [], [], 'P', "-2".toList, -2, .inl (by decide), by unfold IsHex; decide, by simp, .inl ⟨rfl, rfl⟩, .inr rfl,
        ⟨true, [2], by simp, .inr ⟨rfl, by decide⟩, by decide⟩, by decide, by
          have : hexNum "10".toList = 16 := by decide
          rw [this]; norm_num [hexNum]⟩
  · have h : IsF64 ((4 : ℤ) : ℚ) := isF64_int (by norm_num)
    have e : ((4 : ℤ) : ℚ) = 4 := by norm_num
    rw [e] at h
    exact h

/-- The handler gets the request in it. -/
theorem foreign_called (G : FloatText) (h : Req → Text → HandlerResult) :
    (⟨.cpreqAuthorize, .struct [.str "A<B".toList]⟩, "CP1".toList) ∈ (serve G true h foreign).calls := by
  refine (C72_called G true h foreign_doc _ _).2 ⟨[.message (.req .cpreqAuthorize) (.struct [.str "A<B".toList])], ⟨rfl, ?_⟩, ?_, ?_, rfl, rfl⟩
  · refine .cons (.message rfl rfl ?_) .nil
    refine ⟨?_, _, rfl, ?_, trivial⟩
    · rintro n hn i hi
      simp only [List.mem_singleton] at hi
      subst hi
      cases hn
      exact ⟨rfl, Or.inr rfl⟩
    · refine ⟨fun s _ => ⟨_, rfl⟩, ?_⟩
      rfl
  · intro h; cases h
  · rfl

/-! ### A prefix with the name of an attribute -/

/-- A sampled value whose element declares a prefix for the name space `Wh`. -/
def clash (p : String) : XNode :=
  .elem "e:Envelope".toList [("xmlns:e".toList, "http://www.w3.org/2003/05/soap-envelope".toList)] [
    .elem "e:Header".toList [] [],
    .elem "e:Body".toList [] [
      .elem "m:meterValuesRequest".toList [("xmlns:m".toList, "urn://Ocpp/Cs/2012/06/".toList)] [
        .elem "m:values".toList [] [.elem "m:value".toList [("xmlns:".toList ++ p.toList, "Wh".toList)] [.text "5".toList]]]]]

/-- What it says, whatever the prefix: the value has no attribute. -/
def clashInfo : Info :=
  group "http://www.w3.org/2003/05/soap-envelope" "Envelope" [
    group "http://www.w3.org/2003/05/soap-envelope" "Header" [],
    group "http://www.w3.org/2003/05/soap-envelope" "Body" [
      group "urn://Ocpp/Cs/2012/06/" "meterValuesRequest" [
        group "urn://Ocpp/Cs/2012/06/" "values" [plain "urn://Ocpp/Cs/2012/06/" "value" "5".toList]]]]

theorem clash_says {p : String} (hp : NCName p.toList) (hm : p.toList ≠ "m".toList) : Says (fun _ => none) (clash p) clashInfo := by
  have hd : "xmlns:".toList ++ p.toList = declName p.toList := by
    obtain ⟨c, r, h, -⟩ := hp
    simp [declName, h]
  unfold clash
  rw [hd]
  refine .elem (.prefixed (p := "e".toList) (l := "Envelope".toList) (nc "e") (nc "Envelope") (by decide) (by decide) (by decide))
      (.decl (p := "e".toList) (Or.inr (nc "e")) .nil) (.elem ?_ (.elem ?_ .nil))
  · exact .elem (.prefixed (p := "e".toList) (l := "Header".toList) (nc "e") (nc "Header") (by decide) (by decide) (by decide)) .nil .nil
  · refine .elem (.prefixed (p := "e".toList) (l := "Body".toList) (nc "e") (nc "Body") (by decide) (by decide) (by decide)) .nil (.elem ?_ .nil)
    refine .elem (.prefixed (p := "m".toList) (l := "meterValuesRequest".toList) (nc "m") (nc "meterValuesRequest") (by decide) (by decide) (by decide))
      (.decl (p := "m".toList) (Or.inr (nc "m")) .nil) (.elem ?_ .nil)
    refine .elem (.prefixed (p := "m".toList) (l := "values".toList) (nc "m") (nc "values") (by decide) (by decide) (by decide)) .nil (.elem ?_ .nil)
    refine .elem (.prefixed (p := "m".toList) (l := "value".toList) (nc "m") (nc "value") (by decide) (by decide) ?_)
      (.decl (Or.inr hp) .nil) (.text (s := "5".toList) .nil)
    rw [within_decl]
    have : ¬ "m".toList = p.toList := fun h => hm h.symm
    rw [within_nil]
    simp only [this, if_false]
    decide

/-- The request as the handler sees it. -/
def clashReq (unit : String) : Req := ⟨.cpreqMeterValues, .struct [.int 0, .slice [.ptr (.struct [.slice [.ptr (.struct [.str [], .str [], .str [],
  .str [], .str [], .str unit.toList, .str "5".toList])], zeroVal .time])], .int 0]⟩

theorem clash_calls {p u : String} (hp : isNC p.toList = true) (hm : p.toList ≠ "m".toList) (ht : tidy (clash p) = true)
    (hq : qTree (clash p) = true) (hc : cleanNode (clash p) = clash p)
    (hr : readRoot (resolve [] (clash p)) = .ok ⟨some (headerVal ⟨[], [], [], [], []⟩), ⟨some (.req .cpreqMeterValues, (clashReq u).val), none⟩⟩) :
    SaysDoc (print (clash p)) clashInfo ∧ ∀ G h, (serve G true h (print (clash p))).calls = [(clashReq u, [])] := by
  have hdoc := document_print ht hq rfl
  rw [hc] at hdoc
  refine ⟨⟨_, hdoc, clash_says ((isNC_iff _).1 hp) hm⟩, fun G h => ?_⟩
  unfold serve
  rw [decode, document_read hdoc]
  simp only [hr]
  rfl

/-- **C70** The prefixes excepted in `SoapDoc` matter: two documents that differ only in the prefix of a name space that nothing uses, and
so say the same, are told apart, because the declaration of the prefix `unit` is taken for the attribute `unit`. -/
theorem C70_clash : ∃ t t' i, SaysDoc t i ∧ SaysDoc t' i ∧ ∀ G h, (serve G true h t).calls = [(clashReq "", [])] ∧
    (serve G true h t').calls = [(clashReq "Wh", [])] := by
  obtain ⟨h1, h2⟩ := clash_calls (p := "u") (u := "") (by decide) (by decide) (by decide) (by decide) rfl rfl
  obtain ⟨h3, h4⟩ := clash_calls (p := "unit") (u := "Wh") (by decide) (by decide) (by decide) (by decide) rfl rfl
  exact ⟨_, _, _, h1, h3, fun G h => ⟨h2 G h, h4 G h⟩⟩

end Verif.Soap
