import Verif.Lemmas.XmlCut
import Verif.Props.Soap
/-!
# Truncated SOAP messages

Property C61.  A body of which only the beginning arrives (errors of `ioutil.ReadAll` are ignored at
soap/server.go:18 and soap/client.go:92) is decoded as it is.
-/
namespace Verif.Soap
open Xml Ocppj

theorem decode_cut {hd : Option Header} {content : List XNode} (hc : ∀ k ∈ content, ∃ n, GoodNode n k) {fault : Option Text}
    {t : Text} (h : t <+: print (envelopeNode hd content fault)) (hne : t ≠ print (envelopeNode hd content fault)) :
    decode t = .err "XML syntax error" := by
  obtain ⟨e, he⟩ := h
  have h' : e ≠ [] := by
    rintro rfl
    rw [List.append_nil] at he
    exact hne he
  rw [decode, parse_cut (envelope_tidy hd hc fault) (by unfold envelopeNode; exact ⟨_, _, _, rfl⟩) he h']

theorem content_good {G : FloatText} {m : MsgType} {v : Val} (hv : HasTy m.ty v) (hp : v.TimesAll GoTime.Plain) {c : List XNode}
    (h : contentNodes G m v = .ok c) : ∀ k ∈ c, ∃ n, GoodNode n k := by
  obtain ⟨k, h1, h2, -⟩ := content_trip G m hv hp
  rw [h1] at h
  cases h
  simpa using ⟨_, h2⟩

/-- **C61** No strict prefix of a request written by `Call` is decoded: the server calls no handler and reports an error. -/
theorem C61_request (G : FloatText) (h : Header) (r : Req) (hv : HasTy r.type.ty r.val) (hp : r.val.TimesAll GoTime.Plain)
    (body : Text) (hb : encodeCall G h r = .ok body) (t : Text) (ht : t <+: body) (hne : t ≠ body) (atCs : Bool)
    (hd : Req → Text → HandlerResult) :
    (serve G atCs hd t).calls = [] ∧ ∃ e, (serve G atCs hd t).result = .err e := by
  rw [encodeCall, GoRes.bind_eq_ok] at hb
  obtain ⟨c, hc, hb⟩ := hb
  cases hb
  have := decode_cut (content_good (m := .req r.type) hv hp hc) ht hne
  rw [serve, this]
  exact ⟨rfl, _, rfl⟩

/-- **C61** No strict prefix of a reply written by a server of this library, with a response, an error or both, is taken for a
response: `Send` returns an error, whatever the HTTP status. -/
theorem C61_response (G : FloatText) (resp : Option Resp) (err : Option Text)
    (hv : ∀ x, resp = some x → HasTy x.type.ty x.val ∧ x.val.TimesAll GoTime.Plain)
    (body : Text) (hb : encodeReply G resp err = .ok body) (t : Text) (ht : t <+: body) (hne : t ≠ body) (r : Req) (status : Nat) :
    ∃ e, receive r (.got status t) = .err e := by
  have hd : decode t = .err "XML syntax error" := by
    cases resp with
    | none =>
      rw [encodeReply] at hb
      cases hb
      exact decode_cut (by simp) ht hne
    | some x =>
      simp only [encodeReply, GoRes.bind_eq_ok] at hb
      obtain ⟨c, hc, hb⟩ := hb
      cases hb
      exact decode_cut (content_good (m := .resp x.type) (hv x rfl).1 (hv x rfl).2 hc) ht hne
  rw [receive]
  split
  · exact ⟨_, rfl⟩
  · rw [hd]; exact ⟨_, rfl⟩

/-- **C61** In terms of the API: if of the reply to a `Send` only a strict prefix arrives, `Send` returns an error; if of the request
only a strict prefix arrives, the handler is not called and `Send` returns an error. -/
theorem C61_send (G : FloatText) (url msgId sender identity : Text) (r : Req) (hv : HasTy r.type.ty r.val)
    (hp : r.val.TimesAll GoTime.Plain) (atCs : Bool) (hd : Req → Text → HandlerResult)
    (hh : ∀ q i x, (hd q i).resp = some x → HasTy x.type.ty x.val ∧ x.val.TimesAll GoTime.Plain) (body : Text)
    (hb : posted G url msgId sender identity r = .ok body) :
    (∀ t, t <+: body → t ≠ body → (serve G atCs hd t).calls = [] ∧
      ∃ e, send G url msgId sender identity (fun _ => answerOf (serve G atCs hd t).result) r = .err e) ∧
    (∀ reply t status, (serve G atCs hd body).result = .ok reply → t <+: reply → t ≠ reply →
      ∃ e, send G url msgId sender identity (fun _ => .got status t) r = .err e) := by
  constructor
  · intro t ht hne
    have hb' := hb
    rw [posted] at hb'
    split at hb'
    · cases hb'
    · obtain ⟨h1, e, h2⟩ := C61_request G _ r hv hp body hb' t ht hne atCs hd
      refine ⟨h1, ?_⟩
      rw [send, hb]
      simp only [h2, answerOf, receive, decode_nil]
      rw [if_neg (by simp)]
      exact ⟨_, rfl⟩
  · intro reply t status hr ht hne
    have : ∃ resp err, encodeReply G resp err = .ok reply ∧
        ∀ x, resp = some x → HasTy x.type.ty x.val ∧ x.val.TimesAll GoTime.Plain := by
      rcases C53_reply G atCs hd body reply hr with ⟨r, id, -, hx⟩ | ⟨_, _, _, _, _, _, hx⟩
      · exact ⟨_, _, hx, hh _ _⟩
      · exact ⟨_, _, hx, by simp⟩
    obtain ⟨resp, err, h1, h2⟩ := this
    rw [send, hb]
    exact C61_response G resp err h2 reply h1 t ht hne r status

/-- A request, cut before its last character. -/
example (G : FloatText) (h : Header) : ∃ body t, encodeCall G h tagReq = .ok body ∧ t <+: body ∧ t ≠ body ∧ t ≠ [] := by
  obtain ⟨body, hb, hd⟩ := C48_request G h tagReq tagReq_ok.1 tagReq_ok.2.1 tagReq_ok.2.2
  rw [encodeCall, GoRes.bind_eq_ok] at hb
  obtain ⟨c, hc, hb⟩ := hb
  refine ⟨body, ['<'], by rw [encodeCall, hc]; exact hb, ?_, ?_, by simp⟩
  · cases hb; exact ⟨_, rfl⟩
  · cases hb
    simp [envelopeNode, print]

end Verif.Soap
