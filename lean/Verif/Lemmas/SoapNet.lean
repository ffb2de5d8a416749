import Verif.Model.SoapNet
import Verif.Props.SoapLoose
import Verif.Props.SoapCut
import Verif.Props.HttpExact
/-!
# SOAP calls in a network: lemmas
-/
namespace Verif.Soap
open Xml Ocppj

theorem serve_begin (G : FloatText) (atCs : Bool) (h : Req → Text → HandlerResult) (b : Text) :
    serve G atCs h b = match begin G atCs b with
      | .inl (r, id) => ⟨[(r, id)], encodeReply G (h r id).resp (h r id).err⟩
      | .inr x => ⟨[], x⟩ := by
  unfold serve begin
  cases decode b with
  | err m => rfl
  | panic m => rfl
  | ok env =>
    simp only
    cases hc : env.body.content with
    | none => rfl
    | some mv =>
      obtain ⟨m, v⟩ := mv
      cases m with
      | resp q => rfl
      | req q =>
        simp only
        cases env.header with
        | none => rfl
        | some hd =>
          simp only [direct]
          by_cases hq : q.isChargePoint = atCs
          · rw [if_pos hq, if_pos hq]
          · rw [if_neg hq, if_neg hq]

theorem posted_ok {G : FloatText} {url msgId sender identity : Text} {r : Req} {body : Text}
    (h : posted G url msgId sender identity r = .ok body) :
    url ≠ [] ∧ encodeCall G ⟨url, '/' :: r.type.action, msgId, sender, identity⟩ r = .ok body := by
  unfold posted at h
  by_cases hu : url = []
  · rw [if_pos hu] at h; cases h
  · rw [if_neg hu] at h; exact ⟨hu, h⟩

/-- Of what is posted only the whole makes the server call its handler, with the request posted. -/
theorem begin_posted {G : FloatText} {url msgId sender identity : Text} {r : Req} {body p : Text} {atCs : Bool} {r' : Req} {id' : Text}
    (hv : HasTy r.type.ty r.val) (hp : r.val.TimesAll GoTime.Plain) (hb : posted G url msgId sender identity r = .ok body) (hpre : p <+: body)
    (h : begin G atCs p = .inl (r', id')) :
    r' = ⟨r.type, soapTrip r.type.ty r.val⟩ ∧ id' = cleanText identity ∧ r.type.isChargePoint = atCs ∧ bound (.req r.type) = true := by
  obtain ⟨hu, he⟩ := posted_ok hb
  have hs := serve_begin G atCs (fun _ _ => ⟨none, none⟩) p
  rw [h] at hs
  have hpb : p = body := by
    by_contra hne
    have := (C61_request G _ r hv hp body he p hpre hne atCs (fun _ _ => ⟨none, none⟩)).1
    rw [hs] at this
    cases this
  subst hpb
  cases hbd : bound (.req r.type) with
  | false =>
    obtain ⟨⟨b, e, h1, h2⟩, -⟩ := C50_request G url msgId sender identity hu atCs (fun _ _ => ⟨none, none⟩) r hbd hv hp
    rw [hb] at h1; cases h1
    unfold begin at h
    rw [h2] at h
    cases h
  | true =>
    obtain ⟨b, h1, h2⟩ := C48_request G ⟨url, '/' :: r.type.action, msgId, sender, identity⟩ r hbd hv hp
    rw [he] at h1; cases h1
    unfold begin at h
    rw [h2] at h
    simp only at h
    split at h
    · rename_i hd
      cases h
      exact ⟨rfl, rfl, hd, rfl⟩
    · cases h

/-- The whole of what is posted does, if it is a request that can be received, of the right direction. -/
theorem begin_whole {G : FloatText} {url msgId sender identity : Text} {r : Req} {body : Text} {atCs : Bool}
    (hv : HasTy r.type.ty r.val) (hp : r.val.TimesAll GoTime.Plain) (hbd : bound (.req r.type) = true) (hdir : r.type.isChargePoint = atCs)
    (hb : posted G url msgId sender identity r = .ok body) :
    begin G atCs body = .inl (⟨r.type, soapTrip r.type.ty r.val⟩, cleanText identity) := by
  obtain ⟨hu, he⟩ := posted_ok hb
  obtain ⟨b, h1, h2⟩ := C48_request G ⟨url, '/' :: r.type.action, msgId, sender, identity⟩ r hbd hv hp
  rw [he] at h1; cases h1
  unfold begin
  rw [h2]
  simp only
  rw [if_pos hdir]
  rfl

/-- An answer from which no `Send` returns a response and on which none panics. -/
def Useless (a : Answer) : Prop := ∀ (r : Req) (a' : Answer), Cut a a' → ∃ t, receive r a' = .err t

theorem useless_failed (m : String) : Useless (.failed m) := by
  intro r a' h
  cases h
  exact ⟨_, rfl⟩

theorem useless_got {status : Nat} {b : Text} (h : ∀ r : Req, ∃ t, receive r (.got status b) = .err t) : Useless (.got status b) := by
  intro r a' hc
  cases hc with
  | whole => exact h r
  | beginning hp =>
    rcases C85_returned r status b _ hp with he | he
    · rw [he]; exact h r
    · exact he

theorem receive_fault {G : FloatText} (r : Req) {e b : Text} (hb : encodeReply G none (some e) = .ok b) : receive r (.got 200 b) = .err [] := by
  have hd := decode_empty none (some e) []
  rw [List.append_nil] at hd
  rw [encodeReply] at hb
  cases hb
  rw [receive, if_neg (by simp), hd]
  rfl

/-- The answer to a request for which no handler is called. -/
theorem useless_begin {G : FloatText} {atCs : Bool} {p : Text} {x : GoRes Text} (h : begin G atCs p = .inr x) : Useless (answerOf x) := by
  have herr : ∀ m, Useless (answerOf (.err m)) := by
    intro m
    refine useless_got fun r => ?_
    rw [receive, if_neg (by simp), decode_nil]
    exact ⟨_, rfl⟩
  unfold begin at h
  cases hd : decode p with
  | err m => rw [hd] at h; cases h; exact herr m
  | panic m => rw [hd] at h; cases h; exact useless_failed m
  | ok env =>
    rw [hd] at h
    simp only at h
    split at h
    · split at h
      · cases h; exact useless_failed _
      · split at h
        · cases h
        · cases h
          cases he : encodeReply G none (some "request is not a cprequest".toList) with
          | ok b => exact useless_got fun r => ⟨_, receive_fault r he⟩
          | err m => exact herr m
          | panic m => exact useless_failed m
    · cases h; exact herr _

theorem landing_doc (n : Nat) : LooseDocument (landingPage n) (.elem "h1".toList [] [.text "OCPP Central System".toList]) := by
  have hq : LooseQName "h1".toList := ⟨⟨'h', ['1'], rfl, .inl (.inl (by decide)), by simp only [List.mem_singleton, forall_eq]; exact (nameChar_iff '1').1 (by decide)⟩, by decide⟩
  have ht : LooseChars none "OCPP Central System".toList "OCPP Central System".toList := by
    have : ∀ t : Text, (∀ c ∈ t, IsXmlChar c ∧ c ≠ '<' ∧ c ≠ '&' ∧ c ≠ '\r') → LooseChars none t t := by
      intro t
      induction t with
      | nil => exact fun _ => .nil
      | cons c t ih =>
        intro h
        obtain ⟨h1, h2, h3, h4⟩ := h c (by simp)
        exact .char h1 h2 h3 h4 (by simp) (ih fun c' hc' => h c' (by simp [hc']))
    exact this _ (by decide)
  have hc : LooseContent "OCPP Central System".toList [.text "OCPP Central System".toList] := by
    have := LooseContent.text (t := []) (ks := []) ⟨by decide, ht, by decide, .inl rfl⟩ .nil
    simpa using this
  have he := LooseElement.full hq .nil (sp := []) (by simp [Space]) (by simp [NameEnds]) hc (sp' := []) (by simp [Space])
  exact ⟨[], _, "\n\t\t\t\t<p>currently connected with ".toList ++ ((toString n).toList ++
    " OCPP-J stations, and more OCPP-S stations</p>\n\t\t\t\t<i>Central System using <a href=\"https://github.com/voltbras/go-ocpp\"/>https://github.com/voltbras/go-ocpp</i>".toList),
    by unfold landingPage; rw [List.nil_append, ← List.append_assoc _ (String.toList _) (_ ++ _)]; congr 1, .nil, he⟩

theorem useless_landing (n : Nat) : Useless (.got 200 (landingPage n)) := by
  refine useless_got fun r => ?_
  rw [receive, if_neg (by simp), decode_doc (landing_doc n)]
  exact ⟨_, rfl⟩

/-- What `Send` makes of a reply of a server of this library. -/
theorem receive_reply {G : FloatText} {resp : Option Resp} {err : Option Text}
    (hv : ∀ x, resp = some x → HasTy x.type.ty x.val ∧ x.val.TimesAll GoTime.Plain) {r : Req} {a : Answer}
    (hc : Cut (answerOf (encodeReply G resp err)) a) :
    (∀ y, receive r a = .ok y → err = none ∧ ∃ x, resp = some x ∧ x.type = r.type.response ∧ y = ⟨x.type, soapTrip x.type.ty x.val⟩) ∧
    (∀ m, receive r a = .panic m → err = none ∧ ∀ x, resp = some x → x.type ≠ r.type.response) := by
  have hok : ∃ b, encodeReply G resp err = .ok b := by
    cases resp with
    | none => exact ⟨_, rfl⟩
    | some x =>
      obtain ⟨k, h1, -⟩ := content_trip G (.resp x.type) (hv x rfl).1 (hv x rfl).2
      exact ⟨_, by rw [encodeReply, h1]; rfl⟩
  obtain ⟨b, hb⟩ := hok
  rw [hb] at hc
  have key : (∃ t, receive r a = .err t) ∨ a = .got 200 b := by
    cases hc with
    | whole => exact .inr rfl
    | beginning hp =>
      rename_i p
      by_cases hne : p = b
      · subst hne; exact .inr rfl
      · exact .inl (C61_response G resp err hv b hb p hp hne r 200)
  rcases key with ⟨t, ht⟩ | rfl
  · exact ⟨fun y h => (by rw [ht] at h; cases h), fun m h => by rw [ht] at h; cases h⟩
  have hrec : ∀ {fo : Option Val} {ct : Option (MsgType × Val)} {hd : Option Val}, decode b = .ok ⟨hd, ⟨ct, fo⟩⟩ →
      receive r (.got 200 b) = match fo with
        | some f => .err (faultText f)
        | none =>
          match ct with
          | none => .panic "reflect: call of Value.Type on zero Value"
          | some (m, v) => if m = .resp r.type.response then .ok ⟨r.type.response, v⟩ else .panic "incompatible types" := by
    intro fo ct hd h
    rw [receive, if_neg (by simp), h]
    cases fo <;> rfl
  cases resp with
  | none =>
    have hd := decode_empty none err []
    rw [List.append_nil] at hd
    rw [encodeReply] at hb
    cases hb
    rw [hrec hd]
    cases err with
    | none => exact ⟨fun y h => (by cases h), fun m h => ⟨rfl, fun x hx => by cases hx⟩⟩
    | some e => exact ⟨fun y h => (by cases h), fun m h => by cases h⟩
  | some x =>
    obtain ⟨g1, g2⟩ := hv x rfl
    cases hbx : bound (.resp x.type) with
    | true =>
      obtain ⟨c, h1, h2⟩ := decode_message G hbx (v := x.val) g1 g2 none err []
      rw [List.append_nil] at h2
      rw [encodeReply, h1] at hb
      cases hb
      rw [hrec h2]
      cases err with
      | some e => exact ⟨fun y h => (by cases h), fun m h => by cases h⟩
      | none =>
        simp only [Option.map_none]
        by_cases ht : x.type = r.type.response
        · rw [if_pos (by rw [ht])]
          refine ⟨fun y h => ?_, fun m h => (by cases h)⟩
          cases h
          exact ⟨trivial, x, rfl, ht, by rw [ht]; rfl⟩
        · rw [if_neg (by simpa using ht)]
          refine ⟨fun y h => (by cases h), fun m h => ⟨trivial, fun y hy => ?_⟩⟩
          cases hy
          exact ht
    | false =>
      obtain ⟨c, h1, e', h2⟩ := decode_stray G hbx (v := x.val) g1 g2 none err []
      rw [List.append_nil] at h2
      rw [encodeReply, h1] at hb
      cases hb
      have : receive r (.got 200 (print (envelopeNode none c err))) = .err e'.toList := by
        rw [receive, if_neg (by simp), h2]
      change (∀ y, receive r (.got 200 (print (envelopeNode none c err))) = _ → _) ∧ (∀ m, receive r (.got 200 (print (envelopeNode none c err))) = _ → _)
      rw [this]
      exact ⟨fun y h => (by cases h), fun m h => by cases h⟩

/-! ### The way through HTTP -/

theorem post_soap (path : Text) : (Http.serve (postRequest path) = .soap ↔ Http.CleanPath path) ∧
    (Http.serve (postRequest path) = .soap ∨ ∃ q, Http.serve (postRequest path) = .redirect q ∧ Http.serve (movedRequest q) = .landing) := by
  have hup : ∀ r : Http.Request, r.upgrade = [] → ¬ Http.AsksUpgrade r := by
    rintro r h ⟨-, t, ht, -⟩
    rw [h] at ht; cases ht
  obtain ⟨h1, h2, -, h4, h5⟩ := Http.C42_serve (postRequest path)
  have hs : Http.serve (postRequest path) = .soap ↔ Http.CleanPath path := by
    rw [h5]
    constructor
    · rintro ⟨h | h, -⟩
      · exact absurd h (by simp [postRequest])
      · exact h
    · exact fun h => ⟨.inr h, hup _ rfl, by simp [postRequest]⟩
  refine ⟨hs, ?_⟩
  by_cases hc : Http.CleanPath path
  · exact .inl (hs.2 hc)
  · obtain ⟨q, hq⟩ := h1.2 ⟨by simp [postRequest], hc⟩
    refine .inr ⟨q, hq, (Http.C42_serve (movedRequest q)).2.2.2.1.2 ⟨(h2 q hq).1, hup _ rfl, rfl⟩⟩

theorem front_iff (atCs : Bool) (url : Text) :
    (front atCs url = some true ↔ ∃ p, urlPath url = some p ∧ (atCs = true → Http.CleanPath p)) ∧
    (front atCs url = some false ↔ ∃ p, urlPath url = some p ∧ atCs = true ∧ ¬ Http.CleanPath p) ∧
    (front atCs url = none ↔ urlPath url = none) := by
  unfold front
  cases hu : urlPath url with
  | none => simp
  | some p =>
    simp only [Option.some.injEq, exists_eq_left', reduceCtorEq, iff_false]
    cases atCs with
    | false => simp
    | true =>
      simp only [if_true, forall_const, true_and]
      obtain ⟨h1, h2 | ⟨q, h2, h3⟩⟩ := post_soap p
      · have := h1.1 h2
        simp [follow, h2, this]
      · have hn : ¬ Http.CleanPath p := fun hc => by rw [h1.2 hc] at h2; cases h2
        simp [follow, h2, h3, hn]

end Verif.Soap
