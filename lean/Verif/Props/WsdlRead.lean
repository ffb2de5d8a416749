import Verif.Lemmas.WsdlLost
import Verif.Lemmas.WsdlStamp
import Verif.Props.SoapDoc
/-!
# Receiving messages that are valid against the WSDL files of OCPP 1.5
-/
namespace Verif.Soap
open Xml Ocppj

theorem wsdl_name (m : MsgType) : ∀ d, m.wsdl = some d → d.1 = nameOf m.ty := by
  rcases m with r | r <;> cases r <;> (intro d h; cases h <;> rfl)

/-- The only thing a message's element can say. -/
theorem said_valid {m : MsgType} (hb : bound m = true) {d : XName × XType} (hd : m.wsdl = some d) {i : Info} (hi : XValid d i) {s : Said} :
    SaidBy i s ↔ ∃ v, s = .message m v ∧ Means m.ty [i] v := by
  have hn : i.name = nameOf m.ty := by rw [hi.1, wsdl_name m d hd]
  constructor
  · rintro (h | ⟨h1, h2, h3⟩)
    · rw [hn] at h
      exact absurd h (name_msg m).1
    · rename_i v m'
      have hm : m' = m := by
        have e1 := (lookup_iff (nameOf m.ty).loc m').2 ⟨h1, by rw [← h2, hn]⟩
        have e2 := (lookup_iff (nameOf m.ty).loc m).2 ⟨hb, rfl⟩
        rw [e1] at e2
        exact Option.some.inj e2
      subst hm
      exact ⟨v, rfl, h3⟩
  · rintro ⟨v, rfl, h⟩
    exact .message hb (by rw [hn]) h

theorem carries_says {env i : Info} (he : env.name.loc = "Envelope".toList) (hk : (parts "Body" env).flatMap Info.kids = [i]) {l : List Said} :
    EnvelopeSays env l ↔ ∃ s, l = [s] ∧ SaidBy i s := by
  unfold EnvelopeSays
  rw [hk]
  constructor
  · rintro ⟨-, h⟩
    cases h with
    | cons h1 h2 => cases h2; exact ⟨_, rfl, h1⟩
  · rintro ⟨s, rfl, h⟩
    exact ⟨he, .cons h .nil⟩

/-- **C74** An element that is valid against the WSDL file has a meaning as a message exactly if all its times can be read. -/
theorem C74_read {m : MsgType} (hb : bound m = true) {d : XName × XType} (hd : m.wsdl = some d) {i : Info} (hi : XValid d i) :
    (∃ v, Means m.ty [i] v) ↔ ∀ s ∈ timesRead m.ty [i], Readable s := by
  have := compat_msg m hb
  rw [hd] at this
  exact top_ex this hi

/-- **C74** A value of `dateTime` can be read exactly if there is no white space around it, its year has four digits and no sign, its
hour is not 24 and its zone is given. -/
theorem C74_time {a b s : Text} {d : DateTime} (h : Around a d.text b s) (hv : d.Valid) :
    Readable s ↔ a = [] ∧ b = [] ∧ d.neg = false ∧ d.year.length = 4 ∧ d.hour < 24 ∧ ∃ z, d.zone = some z :=
  readable_iff h hv

/-- **C74** A request that is valid against the WSDL file, in whatever document: the handler is called with its meaning, and exactly if
all its times can be read is there one. -/
theorem C74_called (G : FloatText) (atCs : Bool) (h : Req → Text → HandlerResult) {t id : Text} {env i : Info} (ht : SoapDoc t env)
    (hc : Carries env id i) {r : ReqType} (hb : bound (.req r) = true) (hr : r.isChargePoint = atCs) {d : XName × XType}
    (hd : r.wsdl = some d) (hi : XValid d i) :
    (∀ q id', (q, id') ∈ (serve G atCs h t).calls ↔ q.type = r ∧ id' = id ∧ Means r.ty [i] q.val) ∧
    ((∃ v, (⟨r, v⟩, id) ∈ (serve G atCs h t).calls) ↔ ∀ s ∈ timesRead r.ty [i], Readable s) := by
  have key : ∀ q id', (q, id') ∈ (serve G atCs h t).calls ↔ q.type = r ∧ id' = id ∧ Means r.ty [i] q.val := by
    intro q id'
    rw [C72_called G atCs h ht]
    constructor
    · rintro ⟨l, h1, -, h3, h4, -⟩
      obtain ⟨s, rfl, h1'⟩ := (carries_says hc.1 hc.2.2.2).1 h1
      obtain ⟨v, rfl, h6⟩ := (said_valid (m := .req r) hb hd hi).1 h1'
      simp only [message, List.filterMap_cons_some, List.filterMap_nil, List.getLast?_singleton, Option.some.injEq, Prod.mk.injEq, MsgType.req.injEq] at h4
      obtain ⟨rfl, rfl⟩ := h4
      exact ⟨rfl, by rw [← h3, hc.2.2.1], h6⟩
    · obtain ⟨qt, qv⟩ := q
      rintro ⟨h1, rfl, h3⟩
      simp only at h1 h3
      subst h1
      exact ⟨[.message (.req qt) qv], (carries_says hc.1 hc.2.2.2).2 ⟨_, rfl, (said_valid (m := .req qt) hb hd hi).2 ⟨_, rfl, h3⟩⟩, hc.2.1,
        hc.2.2.1, rfl, hr⟩
  refine ⟨key, ?_⟩
  refine Iff.trans ?_ (C74_read (m := .req r) hb hd hi)
  exact exists_congr fun v => by
    rw [key]
    simp only [true_and]
    rfl

/-- **C74** The answer to a `Send` that is valid against the WSDL file is returned with its meaning, and exactly if all its times can be
read; otherwise `Send` returns an error. -/
theorem C74_returned (q : Req) (status : Nat) {t : Text} {env i : Info} (ht : SoapDoc t env) (he : env.name.loc = "Envelope".toList)
    (hk : (parts "Body" env).flatMap Info.kids = [i]) (hb : bound (.resp q.type.response) = true) {d : XName × XType}
    (hd : q.type.response.wsdl = some d) (hi : XValid d i) :
    (∀ resp, receive q (.got status t) = .ok resp ↔ resp.type = q.type.response ∧ Means q.type.response.ty [i] resp.val) ∧
    ((∃ resp, receive q (.got status t) = .ok resp) ↔ ∀ s ∈ timesRead q.type.response.ty [i], Readable s) ∧
    ((∃ resp, receive q (.got status t) = .ok resp) ∨ ∃ e, receive q (.got status t) = .err e) := by
  have key : ∀ resp, receive q (.got status t) = .ok resp ↔ resp.type = q.type.response ∧ Means q.type.response.ty [i] resp.val := by
    intro resp
    rw [C72_ok q status ht]
    constructor
    · rintro ⟨l, h1, -, h3, h4⟩
      obtain ⟨s, rfl, h1'⟩ := (carries_says he hk).1 h1
      obtain ⟨v, rfl, h6⟩ := (said_valid (m := .resp q.type.response) hb hd hi).1 h1'
      simp only [message, List.filterMap_cons_some, List.filterMap_nil, List.getLast?_singleton, Option.some.injEq, Prod.mk.injEq, true_and] at h3
      subst h3
      exact ⟨h4, h6⟩
    · rintro ⟨h1, h2⟩
      exact ⟨[.message (.resp q.type.response) resp.val], (carries_says he hk).2 ⟨_, rfl, (said_valid (m := .resp q.type.response) hb hd hi).2 ⟨_, rfl, h2⟩⟩,
        rfl, rfl, h1⟩
  have ex : (∃ resp, receive q (.got status t) = .ok resp) ↔ ∀ s ∈ timesRead q.type.response.ty [i], Readable s := by
    refine Iff.trans ?_ (C74_read (m := .resp q.type.response) hb hd hi)
    constructor
    · rintro ⟨resp, h⟩; exact ⟨_, ((key resp).1 h).2⟩
    · rintro ⟨v, h⟩; exact ⟨⟨_, v⟩, (key _).2 ⟨rfl, h⟩⟩
  refine ⟨key, ex, ?_⟩
  by_cases hx : ∃ resp, receive q (.got status t) = .ok resp
  · exact Or.inl hx
  · refine Or.inr (C72_unreadable q status ht fun l hl => hx ?_)
    obtain ⟨s, rfl, h1⟩ := (carries_says he hk).1 hl
    obtain ⟨v, rfl, h6⟩ := (said_valid (m := .resp q.type.response) hb hd hi).1 h1
    exact ⟨⟨_, v⟩, (key _).2 ⟨rfl, h6⟩⟩

/-- **C74** A charge point's DataTransfer and the answer to it cannot be received: of the messages of the WSDL files only these.  A
document with one of them has no meaning. -/
theorem C74_never {m : MsgType} (hb : bound m = false) {d : XName × XType} (hd : m.wsdl = some d) :
    (m = .req .cpreqDataTransfer ∨ m = .resp .cprespDataTransfer) ∧ ∀ {env id i l}, Carries env id i → XValid d i → ¬ EnvelopeSays env l := by
  refine ⟨?_, ?_⟩
  · rcases m with r | r <;> cases r <;> first | cases hb; done | cases hd; done | simp
  · intro env id i l hc hi hl
    obtain ⟨s, rfl, h⟩ := (carries_says hc.1 hc.2.2.2).1 hl
    have hn : i.name = nameOf m.ty := by rw [hi.1, wsdl_name m d hd]
    cases h with
    | fault h => rw [hn] at h; exact (name_msg m).1 h
    | @message v m' h1 h2 h3 =>
      rw [hn] at h2
      have hs := stray_msg m hb
      unfold strayOk at hs
      rw [(lookup_iff _ m').2 ⟨h1, h2.symm⟩] at hs
      simp only [bne_iff_ne, ne_eq] at hs
      have hok := okTop_msg m'
      have hsp := (name_msg m').2
      generalize m'.ty = t' at *
      cases t' <;> simp only [okTop, Bool.false_eq_true] at hok
      rename_i info ts
      cases hx : info.xmlName with
      | none => simp [hx] at hok
      | some x =>
        simp only [Means] at h3
        have := h3.1 x hx i (by simp)
        simp only [nameOf, hx] at hs hsp
        rcases this.2 with h | h
        · exact hsp h
        · rw [hn] at h
          exact hs h.symm

/-- **C74** Of a message that is valid against the WSDL file nothing is lost but the parts listed, and these always are. -/
theorem C74_lost (m : MsgType) {d : XName × XType} (hd : m.wsdl = some d) {i : Info} (hi : XValid d i) (p : List Text) :
    Lost m.ty i p ↔ p ∈ (lostParts m).map (·.map String.toList) ∧ Has p i := by
  have := lost_msg m
  rw [hd] at this
  simp only [Bool.and_eq_true, decide_eq_true_eq] at this
  rw [lost_iff this.1 hi.2, this.2]

theorem fields_drop {info : StructInfo} {n : XName} {as : List (XName × Text)} {d : Text} {ks : List Info} {P : Info → Bool} :
    ∀ {fs : List FieldInfo} {ts : List Ty} {vs : List Val}, (∀ f ∈ fs, ∀ k ∈ ks, Takes info f k.name → P k = true) →
      (MeansFields info fs ts [.elem n as d ks] vs ↔ MeansFields info fs ts [.elem n as d (ks.filter P)] vs)
  | [], [], [], _ => Iff.rfl
  | [], [], _ :: _, _ => Iff.rfl
  | [], _ :: _, _, _ => Iff.rfl
  | _ :: _, [], _, _ => Iff.rfl
  | _ :: _, _ :: _, [], _ => Iff.rfl
  | f :: fs, t :: ts, v :: vs, h => by
    simp only [MeansFields]
    refine and_congr ?_ (fields_drop fun g hg => h g (by simp [hg]))
    cases hk : f.xmlKind with
    | elem =>
      have : elemsFor info f [.elem n as d ks] = elemsFor info f [.elem n as d (ks.filter P)] := by
        simp only [elemsFor, List.flatMap_cons, List.flatMap_nil, List.append_nil, Info.kids, List.filter_filter]
        refine List.filter_congr fun k hkk => ?_
        by_cases hn : Named (fieldName info f) k.name
        · simp [hn, h f (by simp) k hkk ⟨hk, hn⟩]
        · simp [hn]
      simp only [this]
    | _ => exact Iff.rfl

/-- **C74** An element that no field takes can be left out without a difference. -/
theorem C74_ignored {info : StructInfo} {ts : List Ty} {n : XName} {as : List (XName × Text)} {d : Text} {ks : List Info} {v : Val} {P : Info → Bool}
    (h : ∀ f ∈ info.fields, ∀ k ∈ ks, Takes info f k.name → P k = true) :
    Means (.struct info ts) [.elem n as d ks] v ↔ Means (.struct info ts) [.elem n as d (ks.filter P)] v := by
  simp only [Means, fields_drop h, List.mem_singleton, forall_eq]
  rfl

/-! ### They apply -/

/-- A charge point starts a transaction. -/
def start (time : String) : XNode :=
  .elem "e:Envelope".toList [("xmlns:e".toList, "http://www.w3.org/2003/05/soap-envelope".toList)] [
    .elem "e:Header".toList [] [],
    .elem "e:Body".toList [] [
      .elem "m:startTransactionRequest".toList [("xmlns:m".toList, "urn://Ocpp/Cs/2012/06/".toList)] [
        .elem "m:connectorId".toList [] [.text "1".toList], .elem "m:idTag".toList [] [.text "TAG".toList],
        .elem "m:timestamp".toList [] [.text time.toList], .elem "m:meterStart".toList [] [.text " +07 ".toList]]]]

def startMsg (time : String) : Info :=
  group "urn://Ocpp/Cs/2012/06/" "startTransactionRequest" [
    plain "urn://Ocpp/Cs/2012/06/" "connectorId" "1".toList, plain "urn://Ocpp/Cs/2012/06/" "idTag" "TAG".toList,
    plain "urn://Ocpp/Cs/2012/06/" "timestamp" time.toList, plain "urn://Ocpp/Cs/2012/06/" "meterStart" " +07 ".toList]

def startInfo (time : String) : Info :=
  group "http://www.w3.org/2003/05/soap-envelope" "Envelope" [
    group "http://www.w3.org/2003/05/soap-envelope" "Header" [],
    group "http://www.w3.org/2003/05/soap-envelope" "Body" [startMsg time]]

theorem start_says (time : String) : Says (fun _ => none) (start time) (startInfo time) := by
  have one : ∀ (σ : Scope) (n s : String), isNC n.toList = true → σ "m".toList = some "urn://Ocpp/Cs/2012/06/".toList →
      Says σ (.elem ("m".toList ++ ':' :: n.toList) [] [.text s.toList]) (plain "urn://Ocpp/Cs/2012/06/" n s.toList) := by
    intro σ n s hn hm
    have := KidsSay.text (σ := σ.within []) (s := s.toList) .nil
    rw [List.append_nil] at this
    exact .elem (.prefixed (nc "m") ((isNC_iff _).1 hn) (by decide) (by decide) (by rw [within_nil]; exact hm)) .nil this
  refine .elem (.prefixed (p := "e".toList) (l := "Envelope".toList) (nc "e") (nc "Envelope") (by decide) (by decide) (by decide))
      (.decl (p := "e".toList) (Or.inr (nc "e")) .nil) (.elem ?_ (.elem ?_ .nil))
  · exact .elem (.prefixed (p := "e".toList) (l := "Header".toList) (nc "e") (nc "Header") (by decide) (by decide) (by decide)) .nil .nil
  · refine .elem (.prefixed (p := "e".toList) (l := "Body".toList) (nc "e") (nc "Body") (by decide) (by decide) (by decide)) .nil (.elem ?_ .nil)
    refine .elem (.prefixed (p := "m".toList) (l := "startTransactionRequest".toList) (nc "m") (nc "startTransactionRequest") (by decide) (by decide) (by decide))
      (.decl (p := "m".toList) (Or.inr (nc "m")) .nil) (.elem ?_ (.elem ?_ (.elem ?_ (.elem ?_ .nil))))
    · exact one _ "connectorId" "1" (by decide) (by decide)
    · exact one _ "idTag" "TAG" (by decide) (by decide)
    · exact one _ "timestamp" time (by decide) (by decide)
    · exact one _ "meterStart" " +07 " (by decide) (by decide)

theorem start_doc {time : String} (ht : tidy (start time) = true) (hq : qTree (start time) = true) (hc : cleanNode (start time) = start time) :
    SoapDoc (print (start time)) (startInfo time) := by
  have hdoc := document_print ht hq rfl
  rw [hc] at hdoc
  refine ⟨_, hdoc, start_says time, ?_⟩
  have : prefixes (start time) = ["e".toList, "m".toList] := rfl
  rw [this]
  decide

theorem start_valid {time : String} (ht : XSimple.dateTime.Lexical time.toList) :
    XValid (⟨"urn://Ocpp/Cs/2012/06/".toList, "startTransactionRequest".toList⟩, Wsdl.Cs.startTransactionRequest) (startMsg time) := by
  have hsp : Space [] := fun c hc => by cases hc
  have h1 : Space [' '] := by intro c hc; simp at hc; simp [hc]
  refine ⟨rfl, [_], _, rfl, by simp, by simp, by simp; exact ⟨rfl, rfl, rfl, [], ['1'], [], 1, ⟨hsp, hsp, rfl⟩, ⟨false, [1], by simp, Or.inl ⟨rfl, Or.inl rfl⟩, rfl⟩, by decide, by decide⟩,
    [_], _, rfl, by simp, by simp, by simp; exact ⟨rfl, rfl, rfl, (by decide : 3 ≤ 20)⟩,
    [_], _, rfl, by simp, by simp, by simp; exact ⟨rfl, rfl, rfl, ht⟩,
    [_], _, rfl, by simp, by simp, by simp; exact ⟨rfl, rfl, rfl, [' '], "+07".toList, [' '], 7, ⟨h1, h1, rfl⟩, ⟨false, [0, 7], by simp, Or.inl ⟨rfl, Or.inr rfl⟩, rfl⟩, by decide, by decide⟩,
    [], [], rfl, by simp, by simp, by simp, rfl, rfl, hsp⟩

/-- 13 o'clock in Amsterdam, or wherever. -/
def clock (zone : Option (Option (Bool × Nat × Nat))) : DateTime := ⟨false, [2, 0, 2, 0], 1, 1, 13, 0, 0, [], zone⟩

theorem clock_valid : (clock (some (some (false, 1, 0)))).Valid ∧ (clock none).Valid := by
  refine ⟨⟨by decide, by decide, by decide, by decide, by decide, by decide, by decide, ?_⟩, ⟨by decide, by decide, by decide, by decide, by decide, by decide, by decide, ?_⟩⟩
  · intro neg h m e
    cases e
    decide
  · intro neg h m e
    cases e

/-- Two documents with a valid StartTransaction.  With a zone it is handled; without, which XML Schema allows, it is not. -/
theorem C74_zone (G : FloatText) (h : Req → Text → HandlerResult) :
    (∃ v, (⟨.cpreqStartTransaction, v⟩, []) ∈ (serve G true h (print (start "2020-01-01T13:00:00+01:00"))).calls) ∧
    (serve G true h (print (start "2020-01-01T13:00:00"))).calls = [] := by
  have hsp : Space [] := fun c hc => by cases hc
  have a1 : Around [] (clock (some (some (false, 1, 0)))).text [] "2020-01-01T13:00:00+01:00".toList := ⟨hsp, hsp, by decide⟩
  have a2 : Around [] (clock none).text [] "2020-01-01T13:00:00".toList := ⟨hsp, hsp, by decide⟩
  have c1 := C74_called G true h (start_doc (time := "2020-01-01T13:00:00+01:00") (by decide) (by decide) rfl) (id := []) (i := startMsg "2020-01-01T13:00:00+01:00")
    ⟨rfl, by simp [startInfo, parts, group, Info.kids, Info.name], rfl, rfl⟩ (r := .cpreqStartTransaction) rfl rfl rfl (start_valid ⟨_, _, _, a1, clock_valid.1⟩)
  have c2 := C74_called G true h (start_doc (time := "2020-01-01T13:00:00") (by decide) (by decide) rfl) (id := []) (i := startMsg "2020-01-01T13:00:00")
    ⟨rfl, by simp [startInfo, parts, group, Info.kids, Info.name], rfl, rfl⟩ (r := .cpreqStartTransaction) rfl rfl rfl (start_valid ⟨_, _, _, a2, clock_valid.2⟩)
  have t1 : timesRead ReqType.cpreqStartTransaction.ty [startMsg "2020-01-01T13:00:00+01:00"] = ["2020-01-01T13:00:00+01:00".toList] := by decide +kernel
  have t2 : timesRead ReqType.cpreqStartTransaction.ty [startMsg "2020-01-01T13:00:00"] = ["2020-01-01T13:00:00".toList] := by decide +kernel
  refine ⟨c1.2.2 ?_, ?_⟩
  · rw [t1]
    intro s hs
    simp only [List.mem_singleton] at hs
    subst hs
    exact (C74_time a1 clock_valid.1).2 ⟨rfl, rfl, rfl, rfl, by decide, _, rfl⟩
  · rw [List.eq_nil_iff_forall_not_mem]
    rintro ⟨q, id'⟩ hq
    obtain ⟨h1, h2, h3⟩ := (c2.1 q id').1 hq
    have := c2.2.1 ⟨q.val, (c2.1 _ _).2 ⟨rfl, rfl, h3⟩⟩
    rw [t2] at this
    obtain ⟨-, -, -, -, -, z, hz⟩ := (C74_time a2 clock_valid.2).1 (this _ (by simp))
    cases hz

/-- A tag that is blocked. -/
def blocked : Info := group "urn://Ocpp/Cs/2012/06/" "idTagInfo" [plain "urn://Ocpp/Cs/2012/06/" "status" "Blocked".toList]

/-- It is lost in the answer to a StopTransaction. -/
example : Lost (MsgType.resp .cprespStopTransaction).ty (group "urn://Ocpp/Cs/2012/06/" "stopTransactionResponse" [blocked]) ["idTagInfo".toList] := by
  have hsp : Space [] := fun c hc => by cases hc
  have hl : Wsdl.Cs.authorizationStatus.Lexical "Blocked".toList := by show "Blocked".toList ∈ _; decide
  have h1 : OfType "urn://Ocpp/Cs/2012/06/".toList Wsdl.Cs.idTagInfo [] [] [plain "urn://Ocpp/Cs/2012/06/" "status" "Blocked".toList] := by
    refine ⟨[_], [], rfl, by simp, by simp, ?_, [], [], rfl, by simp, by simp, by simp, [], [], rfl, by simp, by simp, by simp, rfl, rfl, hsp⟩
    intro k hk
    simp only [List.mem_singleton] at hk
    subst hk
    exact ⟨rfl, rfl, rfl, hl⟩
  have h2 : XValid (⟨"urn://Ocpp/Cs/2012/06/".toList, "stopTransactionResponse".toList⟩, Wsdl.Cs.stopTransactionResponse)
      (group "urn://Ocpp/Cs/2012/06/" "stopTransactionResponse" [blocked]) := by
    refine ⟨rfl, [_], [], rfl, by simp, by simp, ?_, rfl, rfl, hsp⟩
    intro k hk
    simp only [List.mem_singleton] at hk
    subst hk
    exact ⟨rfl, h1⟩
  exact (C74_lost (.resp .cprespStopTransaction) rfl h2 _).2 ⟨by decide, blocked, List.mem_singleton.2 rfl, rfl, trivial⟩

end Verif.Soap
