import Verif.Lemmas.Xml
import Verif.Model.Soap
/-!
# SOAP envelopes
-/
set_option linter.unusedSimpArgs false
namespace Verif.Soap
open Xml Ocppj

/-! ### Messages -/

/-- The struct has an element name of its own and can be read back. -/
def okTop : Ty → Bool
  | .struct info ts =>
    match info.xmlName with
    | some x => plainName x.2 && decide (cleanText x.1 = x.1) && okFields info info.fields ts && x.2 != "Fault".toList
    | none => false
  | _ => false

set_option maxRecDepth 8000 in
theorem okTop_req : ∀ r : ReqType, okTop (MsgType.req r).ty = true := by
  intro r; cases r <;> decide

set_option maxRecDepth 8000 in
theorem okTop_resp : ∀ r : RespType, okTop (MsgType.resp r).ty = true := by
  intro r; cases r <;> decide

theorem okTop_msg : ∀ m : MsgType, okTop m.ty = true
  | .req r => okTop_req r
  | .resp r => okTop_resp r

/-- A message's element, and reading it. -/
theorem content_trip (G : FloatText) (m : MsgType) {v : Val} (hv : HasTy m.ty v) (hp : v.TimesAll GoTime.Plain) :
    ∃ k, contentNodes G m v = .ok [k] ∧ GoodNode (nameOf m.ty) k ∧
      ∀ ns, ∃ n as cs, resolve ns (cleanNode k) = .elem n as cs ∧ n.loc = (nameOf m.ty).loc ∧
        matches_ (nameOf m.ty) n = true ∧ fromXml m.ty n as cs (zeroVal m.ty) = .ok (soapTrip m.ty v) := by
  have hok := okTop_msg m
  unfold contentNodes
  generalize m.ty = t at *
  cases t <;> simp only [okTop, Bool.false_eq_true] at hok
  rename_i info ts
  cases hx : info.xmlName with
  | none => simp [hx] at hok
  | some x =>
    simp only [hx, Bool.and_eq_true, decide_eq_true_eq] at hok
    obtain ⟨⟨⟨h1, h2⟩, h3⟩, -⟩ := hok
    cases v <;> (try simp only [HasTy] at hv)
    rename_i vs
    obtain ⟨as, ks, h⟩ := fields_trip G info info.fields ts h3 vs hv hp
    have hn : nameOf (.struct info ts) = ⟨x.1, x.2⟩ := by simp [nameOf, hx]
    refine ⟨mkElem ⟨x.1, x.2⟩ as ks, ?_, ?_, ?_⟩
    · rw [toXml, attrsOf, h.attrs]
      simp only [GoRes.bind]
      rw [kidsOf, h.kids]
      simp only [GoRes.bind, hx]
    · rw [hn]
      exact ⟨as, ks, rfl, h.attrPlain, mkElem_tidy h1 h.attrPlain h.tidy⟩
    · intro ns
      obtain ⟨n', as', cs', e, hl, hm, hb⟩ := h.struct (n := ⟨x.1, x.2⟩) h1 h2 ns
      refine ⟨n', as', cs', e, by rw [hn]; exact hl, by rw [hn]; exact hm, hb ?_⟩
      simp [checkName, hx, hm]

/-! ### Names -/

theorem translate_loc (ns : List (Text × Text)) (b : Bool) (n : XName) : (translate ns b n).loc = n.loc := by
  unfold translate
  split
  · rfl
  · split
    · rfl
    · split
      · rfl
      · split
        · rfl
        · split <;> rfl

/-- An element, as the decoder sees it. -/
theorem resolve_elem (ns : List (Text × Text)) {n l : Text} (hl : (splitName n).loc = l) (as : List (Text × Text)) (ks : List XNode) :
    ∃ sp as' ns', resolve ns (cleanNode (.elem n as ks)) = .elem ⟨sp, l⟩ as' (resolves ns' (cleanNodes ks)) := by
  simp only [cleanNode, resolve]
  have ht := translate_loc (declare ns (as.map fun a => (a.1, cleanText a.2))) true (splitName n)
  rw [hl] at ht
  generalize translate (declare ns (as.map fun a => (a.1, cleanText a.2))) true (splitName n) = m at ht ⊢
  obtain ⟨sp, l'⟩ := m
  simp only at ht
  subst ht
  exact ⟨_, _, _, rfl⟩

/-- A child element with a field. -/
theorem setKids_hit {info : StructInfo} {decs : List ElemDec} {n : XName} {as : List (XName × Text)} {cs ks : List RNode} {vs : List Val}
    {i : Nat} {v : Val} (hf : Xml.fieldOf info n = some i)
    (hd : (decs.getD i (fun _ _ _ _ => .panic "no such field")) n as cs (vs.getD i .nil) = .ok v) :
    setKids info decs (.elem n as cs :: ks) vs = setKids info decs ks (vs.set i v) := by
  rw [setKids, hf]
  simp only [hd, GoRes.bind]

/-- A struct whose fields all have elements. -/
theorem fromXml_elems {info : StructInfo} {ts : List Ty} (hk : ∀ f ∈ info.fields, f.xmlKind = .elem) {n : XName} {as : List (XName × Text)}
    {cs : List RNode} {vs : List Val} (hc : checkName info n = .ok ())
    (h : setKids info (fromXmls ts) cs (zeroVals ts) = .ok vs) :
    fromXml (.struct info ts) n as cs (zeroVal (.struct info ts)) = .ok (.struct vs) := by
  rw [fromXml, show zeroVal (.struct info ts) = .struct (zeroVals ts) from rfl]
  simp only [hc, GoRes.bind, setAttrs_eq, Codec.fieldsOf]
  rw [attrsFold_other fun a _ f hf hfk => by rw [hk f hf] at hfk; cases hfk]
  simp only [GoRes.bind, h]
  rw [setData_none fun f hf => by rw [hk f hf]; simp]

/-- Values in an envelope header. -/
def headerVal (h : Header) : Val :=
  .struct [.str (cleanText h.target), .str (cleanText h.action), .str (cleanText h.messageID),
    .struct [.str (cleanText h.sender)], .str (cleanText h.identity)]

theorem str_txt (n : XName) (as : List (XName × Text)) (ns : List (Text × Text)) (s : Text) (old : Val) :
    fromXml .str n as (resolves ns (cleanNodes (txt s))) old = .ok (.str (cleanText s)) := by
  rw [fromXml_simple rfl, dataOf_txt]; rfl

theorem setKids_str {info : StructInfo} {decs : List ElemDec} {n : XName} {as : List (XName × Text)} {ns : List (Text × Text)} {s : Text}
    {ks : List RNode} {vs : List Val} {i : Nat} (hf : Xml.fieldOf info n = some i)
    (hd : decs.getD i (fun _ _ _ _ => .panic "no such field") = fromXml .str) :
    setKids info decs (.elem n as (resolves ns (cleanNodes (txt s))) :: ks) vs = setKids info decs ks (vs.set i (.str (cleanText s))) :=
  setKids_hit hf (by rw [hd]; exact str_txt _ _ _ _ _)

theorem header_trip (h : Header) (ns : List (Text × Text)) :
    ∃ n as cs, resolve ns (cleanNode (headerNode h)) = .elem n as cs ∧ n.loc = "Header".toList ∧
      fromXml headerTy n as cs (zeroVal headerTy) = .ok (headerVal h) := by
  obtain ⟨sp, as, ns', e⟩ := resolve_elem ns (n := "S:Header".toList) (l := "Header".toList) (by decide)
    [("xmlns:wsa5".toList, "http://www.w3.org/2005/08/addressing".toList)] [
    leaf "wsa5:To" h.target,
    leaf "wsa5:Action" h.action,
    leaf "wsa5:MessageID" h.messageID,
    .elem "wsa5:From".toList [] [leaf "wsa5:Address" h.sender],
    mkElem ⟨"urn://Ocpp/Cp/2012/06/".toList, "chargeBoxIdentity".toList⟩ [] (txt h.identity)]
  refine ⟨_, _, _, e, rfl, ?_⟩
  obtain ⟨s1, a1, n1, e1⟩ := resolve_elem ns' (n := "wsa5:To".toList) (l := "To".toList) (by decide) [] (txt h.target)
  obtain ⟨s2, a2, n2, e2⟩ := resolve_elem ns' (n := "wsa5:Action".toList) (l := "Action".toList) (by decide) [] (txt h.action)
  obtain ⟨s3, a3, n3, e3⟩ := resolve_elem ns' (n := "wsa5:MessageID".toList) (l := "MessageID".toList) (by decide) [] (txt h.messageID)
  obtain ⟨s4, a4, n4, e4⟩ := resolve_elem ns' (n := "wsa5:From".toList) (l := "From".toList) (by decide) [] [leaf "wsa5:Address" h.sender]
  obtain ⟨s5, a5, n5, e5⟩ := resolve_elem n4 (n := "wsa5:Address".toList) (l := "Address".toList) (by decide) [] (txt h.sender)
  obtain ⟨s6, a6, n6, e6⟩ := resolve_elem ns' (n := "chargeBoxIdentity".toList) (l := "chargeBoxIdentity".toList) (by decide)
    [("xmlns".toList, "urn://Ocpp/Cp/2012/06/".toList)] (txt h.identity)
  have e6' : resolve ns' (cleanNode (mkElem ⟨"urn://Ocpp/Cp/2012/06/".toList, "chargeBoxIdentity".toList⟩ [] (txt h.identity))) =
      .elem ⟨s6, "chargeBoxIdentity".toList⟩ a6 (resolves n6 (cleanNodes (txt h.identity))) := e6
  have f1 : fromXml fromTy ⟨s4, "From".toList⟩ a4 [.elem ⟨s5, "Address".toList⟩ a5 (resolves n5 (cleanNodes (txt h.sender)))]
      (zeroVal fromTy) = .ok (.struct [.str (cleanText h.sender)]) := by
    refine fromXml_elems (by simp [xmlStruct, strField]) rfl ?_
    refine Eq.trans (setKids_str (i := 0) rfl rfl) ?_
    rfl
  simp only [cleanNodes, resolves, e4]
  simp only [leaf, e1, e2, e3, e5, e6']
  refine fromXml_elems (by simp [xmlStruct, strField]) rfl ?_
  refine Eq.trans (setKids_str (i := 0) rfl rfl) ?_
  refine Eq.trans (setKids_str (i := 1) rfl rfl) ?_
  refine Eq.trans (setKids_str (i := 2) rfl rfl) ?_
  refine Eq.trans (setKids_hit (i := 3) rfl f1) ?_
  refine Eq.trans (setKids_str (i := 4) rfl rfl) ?_
  rfl

/-! ### Faults -/

theorem fault_trip (reason : Text) (ns : List (Text × Text)) :
    ∃ n as cs, resolve ns (cleanNode (faultNode reason)) = .elem n as cs ∧ n.loc = "Fault".toList ∧
      fromXml faultTy n as cs (zeroVal faultTy) = .ok (zeroVal faultTy) := by
  obtain ⟨sp, as, ns', e⟩ := resolve_elem ns (n := "S:Fault".toList) (l := "Fault".toList) (by decide) []
    (if reason = [] then [] else [leaf "reason" reason])
  refine ⟨_, _, _, e, rfl, ?_⟩
  refine fromXml_elems (by simp [xmlStruct, strField]) rfl ?_
  split
  · rfl
  · obtain ⟨s1, a1, n1, e1⟩ := resolve_elem ns' (n := "reason".toList) (l := "reason".toList) (by decide) [] (txt reason)
    simp only [cleanNodes, resolves, leaf, e1]
    rw [setKids]
    rfl

/-! ### Envelopes -/

theorem leaf_tidy {n : String} (hn : nameOk n.toList = true) (s : Text) : tidy (leaf n s) = true := by
  simp [leaf, tidy, hn, tidys_txt]

/-- An element. -/
def isElem : XNode → Bool
  | .elem _ _ _ => true
  | _ => false

theorem tidys_single {k : XNode} (ht : tidy k = true) (h : isElem k = true) (b : Bool) (ks : List XNode) :
    tidys b (k :: ks) = tidys false ks := by
  cases k with
  | text s => simp [isElem] at h
  | elem a c d => simp [tidys, ht]

theorem header_tidy (h : Header) : tidy (headerNode h) = true := by
  have h1 := leaf_tidy (n := "wsa5:To") (by decide) h.target
  have h2 := leaf_tidy (n := "wsa5:Action") (by decide) h.action
  have h3 := leaf_tidy (n := "wsa5:MessageID") (by decide) h.messageID
  have h5 := leaf_tidy (n := "wsa5:Address") (by decide) h.sender
  have h6 : tidy (mkElem ⟨"urn://Ocpp/Cp/2012/06/".toList, "chargeBoxIdentity".toList⟩ [] (txt h.identity)) = true :=
    mkElem_tidy (by decide) rfl (tidys_txt _)
  have h4 : tidy (.elem "wsa5:From".toList [] [leaf "wsa5:Address" h.sender]) = true := by
    rw [tidy, tidys_single h5 rfl]
    decide
  unfold headerNode
  rw [tidy, tidys_single h1 rfl, tidys_single h2 rfl, tidys_single h3 rfl,
    tidys_single h4 rfl, tidys_single h6 rfl]
  decide

theorem fault_tidy (reason : Text) : tidy (faultNode reason) = true := by
  unfold faultNode
  split
  · decide
  · rw [tidy, tidys_single (leaf_tidy (n := "reason") (by decide) reason) rfl]
    decide

theorem envelope_tidy (hd : Option Header) {content : List XNode} (hc : ∀ k ∈ content, ∃ n, GoodNode n k) (fault : Option Text) :
    tidy (envelopeNode hd content fault) = true := by
  have hb : tidy (.elem "S:Body".toList [] (content ++ fault.toList.map faultNode)) = true := by
    have : tidys false (content ++ fault.toList.map faultNode) = true := by
      apply elems_tidys_append hc
      cases fault with
      | none => rfl
      | some s =>
        rw [Option.toList, List.map_cons, tidys_single (fault_tidy s) rfl]
        rfl
    rw [tidy, this]
    decide
  unfold envelopeNode
  cases hd with
  | none =>
    rw [tidy, Option.toList, List.map_nil, List.nil_append, tidys_single hb rfl]
    decide
  | some h =>
    rw [tidy, Option.toList, List.map_cons, List.map_nil, List.singleton_append, tidys_single (header_tidy h) rfl,
      tidys_single hb rfl]
    decide

/-- Reading back an envelope: header, then what is made of the body. -/
theorem decode_envelope (hd : Option Header) {content : List XNode} (hc : ∀ k ∈ content, ∃ n, GoodNode n k) (fault : Option Text)
    (rest : Text) :
    ∃ ns, decode (print (envelopeNode hd content fault) ++ rest) =
      (readBody (resolves ns (cleanNodes (content ++ fault.toList.map faultNode))) ⟨none, none⟩).bind fun b =>
        .ok ⟨hd.map headerVal, b⟩ := by
  have hp := parse_print (envelope_tidy hd hc fault) (by unfold envelopeNode; exact ⟨_, _, _, rfl⟩) rest
  rw [decode, hp]
  obtain ⟨sp, as, ns, e⟩ := resolve_elem [] (n := "S:Envelope".toList) (l := "Envelope".toList) (by decide) [("xmlns:S".toList, envNs)]
    ((hd.toList.map headerNode) ++ [.elem "S:Body".toList [] (content ++ fault.toList.map faultNode)])
  obtain ⟨sb, ab, nb, eb⟩ := resolve_elem ns (n := "S:Body".toList) (l := "Body".toList) (by decide) []
    (content ++ fault.toList.map faultNode)
  refine ⟨nb, ?_⟩
  have e' : resolve [] (cleanNode (envelopeNode hd content fault)) = .elem ⟨sp, "Envelope".toList⟩ as
      (resolves ns (cleanNodes ((hd.toList.map headerNode) ++ [.elem "S:Body".toList [] (content ++ fault.toList.map faultNode)]))) := by
    unfold envelopeNode; exact e
  change readRoot (resolve [] (cleanNode (envelopeNode hd content fault))) = _
  rw [e', readRoot, if_pos (show (XName.mk sp "Envelope".toList).loc = "Envelope".toList from rfl)]
  clear e e' hp
  generalize content ++ fault.toList.map faultNode = body at eb ⊢
  cases hd with
  | none =>
    simp only [Option.toList, List.map_nil, List.nil_append, cleanNodes, resolves, eb, readParts, Option.map_none]
    rw [if_neg (show ¬ ((XName.mk sb "Body".toList).loc = "Header".toList) from (by decide : ¬ ("Body".toList = "Header".toList))), if_pos trivial]
  | some h =>
    obtain ⟨n, as', cs, eh, hl, hf⟩ := header_trip h ns
    simp only [Option.toList, List.map_cons, List.map_nil, List.singleton_append, cleanNodes, resolves, eh, eb, readParts, Option.getD_none]
    rw [if_pos hl, hf]
    simp only [GoRes.bind]
    rw [if_neg (show ¬ ((XName.mk sb "Body".toList).loc = "Header".toList) from (by decide : ¬ ("Body".toList = "Header".toList))), if_pos trivial]
    rfl

end Verif.Soap
