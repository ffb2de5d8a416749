import Verif.Spec.SoapSent
import Verif.Lemmas.SoapRender
/-!
# Envelopes that are sent
-/
set_option linter.unusedSimpArgs false
namespace Verif.Soap
open Xml

/-- What `laid_fields` needs of a message type. -/
def ncTop : Ty → Bool
  | .struct info ts =>
    match info.xmlName with
    | some x => isNC x.2 && x.2 != "xmlns".toList && !x.1.isEmpty && decide (cleanText x.1 = x.1) && info.fields.all ncField && ncTys ts
    | none => false
  | _ => false

set_option maxRecDepth 8000 in
theorem ncTop_req : ∀ r : ReqType, ncTop (MsgType.req r).ty = true := by
  intro r; cases r <;> decide

set_option maxRecDepth 8000 in
theorem ncTop_resp : ∀ r : RespType, ncTop (MsgType.resp r).ty = true := by
  intro r; cases r <;> decide

theorem ncTop_msg : ∀ m : MsgType, ncTop m.ty = true
  | .req r => ncTop_req r
  | .resp r => ncTop_resp r

theorem infoOf_top {n : XName} (hn : n.space ≠ []) (hD : cleanText n.space = n.space) {as : List (Text × Text)}
    (ha : ∀ a ∈ as, a.1 ≠ "xmlns".toList) (D : Text) (ks : List XNode) :
    infoOf D (cleanNode (mkElem n as ks)) = infoOf n.space (cleanNode (mkElem n as ks)) := by
  have h0 : (as.map fun a => (a.1, cleanText a.2)).filter (fun a => a.1 = "xmlns".toList) = [] := by
    rw [List.filter_eq_nil_iff]
    intro b hb
    rw [List.mem_map] at hb
    obtain ⟨a, h1, rfl⟩ := hb
    simpa using ha a h1
  have hin : ∀ D, inner D (((if n.space = [] then [] else [("xmlns".toList, n.space)]) ++ as).map fun a => (a.1, cleanText a.2)) = n.space := by
    intro D
    unfold inner
    rw [List.map_append, List.filter_append, h0, List.append_nil, if_neg hn]
    simp [hD]
  unfold mkElem
  simp only [cleanNode, infoOf, hin]

theorem like_says {x : XNode} {i : Info} (h : Says (fun _ => none) x i) (hp : prefixes x = []) : Like (resolve [] x) i :=
  says_like h [] (fun _ => rfl) (by rw [hp]; simp)

/-- The element of a message. -/
theorem content_says (G : FloatText) (m : MsgType) {v : Val} (hv : HasTy m.ty v) (hp : v.TimesAll GoTime.Plain) :
    ∃ k, contentNodes G m v = .ok [k] ∧ tidy k = true ∧ ncTree k = true ∧ isElem k = true ∧
      Renders m (soapTrip m.ty v) (rendered G m v) ∧ ∀ σ, Says σ (cleanNode k) (rendered G m v) := by
  obtain ⟨k, h1, ⟨as, ks, rfl, -, h2⟩, h3⟩ := content_trip G m hv hp
  have hnc := ncTop_msg m
  have hw := wf_msg m
  generalize hn : nameOf m.ty = n at *
  have hgoal : n.space ≠ [] ∧ cleanText n.space = n.space ∧ ncTree (mkElem n as ks) = true ∧
      infoOf n.space (cleanNode (mkElem n as ks)) = rendered G m v ∧
      (infoOf n.space (cleanNode (mkElem n as ks))).name = n ∧ Laid n.space m.ty (infoOf n.space (cleanNode (mkElem n as ks))) ∧
      (∀ a ∈ as, a.1 ≠ "xmlns".toList) := by
    unfold contentNodes at h1
    cases hty : m.ty with
    | struct info ts =>
      rw [hty] at h1 hv hn hnc hw
      cases v with
      | struct vs =>
        rw [toXml] at h1
        simp only [wfTy, Bool.and_eq_true, beq_iff_eq] at hw
        unfold ncTop at hnc
        unfold nameOf at hn
        cases hx : info.xmlName with
        | none => simp only [hx] at hnc; cases hnc
        | some x =>
          simp only [hx, Bool.and_eq_true, bne_iff_ne, decide_eq_true_eq, Bool.not_eq_true', List.isEmpty_eq_false_iff] at hnc hn
          subst hn
          obtain ⟨⟨⟨⟨⟨h4, h5⟩, h6⟩, h7⟩, h8⟩, h9⟩ := hnc
          simp only [GoRes.bind_eq_ok, GoRes.ok.injEq, hx, List.cons.injEq, and_true] at h1
          obtain ⟨as', h10, ks', h11, h12⟩ := h1
          have hst := laid_fields G info info.fields ts h8 h9 hw.2 (D := x.1) h7 (by rw [hx]; rintro y hy; simp only [Option.some.injEq] at hy; rw [hy]) hv hw.1 h10 h11
          have hkeq : mkElem ⟨x.1, x.2⟩ as' ks' = mkElem ⟨x.1, x.2⟩ as ks := h12
          have has : as' = as ∧ ks' = ks := by
            unfold mkElem at hkeq
            simp only [XNode.elem.injEq, List.append_cancel_left_eq, true_and] at hkeq
            exact hkeq
          obtain ⟨rfl, rfl⟩ := has
          have hi := inner_mkElem (n := ⟨x.1, x.2⟩) (D := x.1) h7 (Or.inr rfl) (fun a ha => (hst.attrs a ha).2) ks'
          have hrf := render_fields G info info.fields ts h8 h9 hw.2 (D := x.1) h7 (by rw [hx]; rintro y hy; simp only [Option.some.injEq] at hy; rw [hy]) hv hw.1 h10 h11
          refine ⟨h6, h7, nc_mkElem h4 h5 (fun a ha => (hst.attrs a ha).1) hst.nc, ?_, by rw [hi]; rfl, ?_, fun a ha => (hst.attrs a ha).2⟩
          · rw [hi, hrf.1, hrf.2.1, hrf.2.2]
            unfold rendered
            simp only [hty, nameOf, hx]
          rw [hi, Laid]
          exact ⟨hst.laid, hst.data⟩
      | _ => simp [HasTy] at hv
    | _ => rw [hty] at hnc; cases hnc
  obtain ⟨g1, g2, g3, g0, g4, g5, g6⟩ := hgoal
  have hsay : ∀ σ, Says σ (cleanNode (mkElem n as ks)) (infoOf n.space (cleanNode (mkElem n as ks))) := by
    intro σ
    rw [← infoOf_top g1 g2 g6 ((σ []).getD []) ks]
    have hc := g3
    rw [← nc_clean] at hc
    exact says_infoOf rfl _ _ _ hc
  rw [g0] at hsay g4 g5
  refine ⟨_, h1, h2, g3, rfl, ⟨by rw [hn]; exact g4, by rw [hn]; exact g5, ?_⟩, hsay⟩
  have hlike := like_says (hsay fun _ => none) (nc_prefixes _ (by rw [nc_clean]; exact g3))
  obtain ⟨n', as', cs', e, -, -, hf⟩ := h3 []
  exact (single_iff (good_msg m) hlike _).1 ⟨n', as', cs', e, hf⟩

/-! ### Envelopes -/

/-- The name spaces inside an envelope. -/
def envScope : Scope := Scope.within (fun _ => none) [("xmlns:S".toList, envNs)]

theorem envScope_S : envScope "S".toList = some envNs := by
  simp [envScope, Scope.within, declName]

theorem nc (s : String) (h : isNC s.toList = true := by decide) : NCName s.toList := (isNC_iff _).1 h

theorem txt_says (σ : Scope) (s : Text) : KidsSay σ (cleanNodes (txt s)) (cleanText s) [] := by
  unfold txt
  split
  · rename_i h; subst h; exact .nil
  · simp only [cleanNodes, cleanNode]
    have := KidsSay.text (s := cleanText s) (KidsSay.nil (σ := σ))
    simpa using this

theorem within_nil (σ : Scope) : σ.within [] = σ := by
  funext p; simp [Scope.within]

/-- A prefixed element around character data. -/
theorem leaf_says {σ : Scope} {p l u : String} (hp : NCName p.toList) (hl : NCName l.toList) (h1 : p.toList ≠ "xml".toList)
    (h2 : p.toList ≠ "xmlns".toList) (hu : σ p.toList = some u.toList) (n : String) (hn : n.toList = p.toList ++ ':' :: l.toList) (s : Text) :
    Says σ (cleanNode (leaf n s)) (plain u l (cleanText s)) := by
  unfold leaf plain
  rw [cleanNode, hn]
  refine .elem ?_ .nil (txt_says _ s)
  rw [List.map_nil, within_nil]
  exact .prefixed hp hl h1 h2 hu

def wsaScope : Scope := envScope.within [("xmlns:wsa5".toList, "http://www.w3.org/2005/08/addressing".toList)]

theorem wsaScope_wsa : wsaScope "wsa5".toList = some "http://www.w3.org/2005/08/addressing".toList := by
  simp [wsaScope, Scope.within, declName]

theorem wsaScope_S : wsaScope "S".toList = some envNs := by
  simp [wsaScope, envScope, Scope.within, declName]

theorem wsa_leaf (l n : String) (hl : NCName l.toList) (hn : n.toList = "wsa5".toList ++ ':' :: l.toList) (s : Text) :
    Says wsaScope (cleanNode (leaf n s)) (plain "http://www.w3.org/2005/08/addressing" l (cleanText s)) :=
  leaf_says (nc "wsa5") hl (by decide) (by decide) wsaScope_wsa n hn s

/-- The header. -/
def headerInfo (h : Header) : Info :=
  group "http://www.w3.org/2003/05/soap-envelope" "Header" [
      plain "http://www.w3.org/2005/08/addressing" "To" (cleanText h.target),
      plain "http://www.w3.org/2005/08/addressing" "Action" (cleanText h.action),
      plain "http://www.w3.org/2005/08/addressing" "MessageID" (cleanText h.messageID),
      group "http://www.w3.org/2005/08/addressing" "From" [plain "http://www.w3.org/2005/08/addressing" "Address" (cleanText h.sender)],
      plain "urn://Ocpp/Cp/2012/06/" "chargeBoxIdentity" (cleanText h.identity)]

theorem identity_says (σ : Scope) (s : Text) :
    Says σ (cleanNode (mkElem ⟨"urn://Ocpp/Cp/2012/06/".toList, "chargeBoxIdentity".toList⟩ [] (txt s)))
      (plain "urn://Ocpp/Cp/2012/06/" "chargeBoxIdentity" (cleanText s)) := by
  have hnc : ncTree (mkElem ⟨"urn://Ocpp/Cp/2012/06/".toList, "chargeBoxIdentity".toList⟩ [] (txt s)) = true :=
    nc_mkElem (by decide) (by decide) (by simp) (laid_txt [] s).1
  have h := inner_mkElem (n := ⟨"urn://Ocpp/Cp/2012/06/".toList, "chargeBoxIdentity".toList⟩) (D := "urn://Ocpp/Cp/2012/06/".toList) (by decide)
    (Or.inr rfl) (as := []) (by simp) (txt s)
  rw [(laid_txt _ s).2] at h
  have ht : textOf (cleanNodes (txt s)) = cleanText s := by
    unfold txt
    split
    · rename_i h; subst h; rfl
    · simp [cleanNodes, cleanNode, textOf]
  rw [ht] at h
  have h2 := infoOf_top (n := ⟨"urn://Ocpp/Cp/2012/06/".toList, "chargeBoxIdentity".toList⟩) (by decide) (by decide) (as := []) (by simp)
    ((σ []).getD []) (txt s)
  have h3 : Says σ (cleanNode (mkElem ⟨"urn://Ocpp/Cp/2012/06/".toList, "chargeBoxIdentity".toList⟩ [] (txt s))) (infoOf ((σ []).getD []) (cleanNode (mkElem ⟨"urn://Ocpp/Cp/2012/06/".toList, "chargeBoxIdentity".toList⟩ [] (txt s)))) := by
    have hc := hnc
    rw [← nc_clean] at hc
    exact says_infoOf rfl _ _ _ hc
  rw [h2, h] at h3
  exact h3

theorem header_says (h : Header) : Says envScope (cleanNode (headerNode h)) (headerInfo h) := by
  unfold headerNode headerInfo group
  simp only [cleanNode, cleanNodes, List.map_cons, List.map_nil]
  have hw : cleanText "http://www.w3.org/2005/08/addressing".toList = "http://www.w3.org/2005/08/addressing".toList := by decide
  rw [hw]
  refine .elem (.prefixed (p := "S".toList) (l := "Header".toList) (nc "S") (nc "Header") (by decide) (by decide) wsaScope_S)
    (.decl (p := "wsa5".toList) (Or.inr (nc "wsa5")) .nil) ?_
  refine .elem (wsa_leaf "To" "wsa5:To" (nc "To") (by decide) _) (.elem (wsa_leaf "Action" "wsa5:Action" (nc "Action") (by decide) _)
    (.elem (wsa_leaf "MessageID" "wsa5:MessageID" (nc "MessageID") (by decide) _) (.elem ?_ (.elem (identity_says _ _) .nil))))
  refine .elem ?_ .nil (.elem ?_ .nil)
  · rw [within_nil]
    exact .prefixed (p := "wsa5".toList) (l := "From".toList) (nc "wsa5") (nc "From") (by decide) (by decide) wsaScope_wsa
  · rw [within_nil]
    exact wsa_leaf "Address" "wsa5:Address" (nc "Address") (by decide) _

theorem fault_says (s : Text) : Says envScope (cleanNode (faultNode s)) (faultInfo (cleanText s)) := by
  unfold faultNode faultInfo group
  simp only [cleanNode, List.map_nil]
  refine .elem ?_ .nil ?_
  · rw [within_nil]
    exact .prefixed (p := "S".toList) (l := "Fault".toList) (nc "S") (nc "Fault") (by decide) (by decide) envScope_S
  · rw [within_nil]
    by_cases hs : s = []
    · subst hs; exact .nil
    · rw [if_neg hs, if_neg (by rwa [cleanText_nil_iff])]
      simp only [cleanNodes]
      refine .elem ?_ .nil
      unfold leaf plain
      rw [cleanNode]
      refine .elem ?_ .nil (txt_says _ s)
      rw [List.map_nil, within_nil]
      exact .default (nc "reason") (by decide)

/-- The body. -/
theorem body_says {c : List XNode} {is : List Info} (hc : KidsSay envScope (cleanNodes c) [] is) (fault : Option Text) :
    KidsSay envScope (cleanNodes (c ++ fault.toList.map faultNode)) [] (is ++ fault.toList.map fun s => faultInfo (cleanText s)) := by
  have happ : ∀ {σ : Scope} {a b : List XNode} {d e : Text} {is js : List Info}, KidsSay σ a d is → KidsSay σ b e js →
      KidsSay σ (a ++ b) (d ++ e) (is ++ js) := by
    intro σ a
    induction a with
    | nil => intro b d e is js h1 h2; cases h1; exact h2
    | cons k a ih =>
      intro b d e is js h1 h2
      cases h1 with
      | text h => rw [List.append_assoc]; exact .text (ih h h2)
      | elem hk h => exact .elem hk (ih h h2)
  rw [cleanNodes_append]
  refine happ (d := []) (e := []) hc ?_
  cases fault with
  | none => exact .nil
  | some s => exact .elem (fault_says s) .nil

theorem envelope_says (hd : Option Header) {c : List XNode} {is : List Info} (hc : KidsSay envScope (cleanNodes c) [] is) (fault : Option Text) :
    Says (fun _ => none) (cleanNode (envelopeNode hd c fault))
      (group "http://www.w3.org/2003/05/soap-envelope" "Envelope" (hd.toList.map headerInfo ++
        [group "http://www.w3.org/2003/05/soap-envelope" "Body" (is ++ fault.toList.map fun s => faultInfo (cleanText s))])) := by
  unfold envelopeNode group
  simp only [cleanNode, List.map_cons, List.map_nil]
  have hw : cleanText envNs = envNs := by decide
  rw [hw]
  refine .elem (.prefixed (p := "S".toList) (l := "Envelope".toList) (nc "S") (nc "Envelope") (by decide) (by decide) envScope_S)
    (.decl (p := "S".toList) (Or.inr (nc "S")) .nil) ?_
  have hb : Says envScope (cleanNode (.elem "S:Body".toList [] (c ++ fault.toList.map faultNode)))
      (.elem ⟨"http://www.w3.org/2003/05/soap-envelope".toList, "Body".toList⟩ [] [] (is ++ fault.toList.map fun s => faultInfo (cleanText s))) := by
    rw [cleanNode]
    refine .elem ?_ .nil ?_
    · rw [List.map_nil, within_nil]
      exact .prefixed (p := "S".toList) (l := "Body".toList) (nc "S") (nc "Body") (by decide) (by decide) envScope_S
    · rw [List.map_nil, within_nil]; exact body_says hc fault
  cases hd with
  | none => exact .elem hb .nil
  | some h => exact .elem (header_says h) (.elem hb .nil)

theorem qTrees_append (a b : List XNode) : qTrees (a ++ b) = (qTrees a && qTrees b) := by
  induction a with
  | nil => rfl
  | cons k a ih => simp [qTrees, ih, Bool.and_assoc]

theorem qTrees_txt (s : Text) : qTrees (txt s) = true := by unfold txt; split <;> rfl

theorem qElem {n : Text} {as : List (Text × Text)} {ks : List XNode} (h1 : isQ n = true) (h2 : as.all (fun a => isQ a.1) = true)
    (h3 : qTrees ks = true) : qTree (.elem n as ks) = true := by
  rw [qTree, h1, h2, h3]; rfl

theorem qCons {k : XNode} {ks : List XNode} (h1 : qTree k = true) (h2 : qTrees ks = true) : qTrees (k :: ks) = true := by
  rw [qTrees, h1, h2]; rfl

theorem qLeaf (n : String) (s : Text) (h : isQ n.toList = true) : qTree (leaf n s) = true := qElem h rfl (qTrees_txt s)

theorem identity_nc (s : Text) : ncTree (mkElem ⟨"urn://Ocpp/Cp/2012/06/".toList, "chargeBoxIdentity".toList⟩ [] (txt s)) = true :=
  nc_mkElem (by decide) (by decide) (by simp) (laid_txt [] s).1

theorem header_q (h : Header) : qTree (headerNode h) = true :=
  qElem (by decide) (by decide) (qCons (qLeaf _ _ (by decide)) (qCons (qLeaf _ _ (by decide)) (qCons (qLeaf _ _ (by decide))
    (qCons (qElem (by decide) rfl (qCons (qLeaf _ _ (by decide)) rfl)) (qCons (nc_qTree _ (identity_nc _)) rfl)))))

theorem fault_q (s : Text) : qTree (faultNode s) = true := by
  unfold faultNode
  split
  · exact qElem (by decide) rfl rfl
  · exact qElem (by decide) rfl (qCons (qLeaf _ _ (by decide)) rfl)

theorem envelope_q (hd : Option Header) {c : List XNode} (hc : qTrees c = true) (fault : Option Text) :
    qTree (envelopeNode hd c fault) = true := by
  unfold envelopeNode
  have hf : qTrees (fault.toList.map faultNode) = true := by
    cases fault with
    | none => rfl
    | some s => exact qCons (fault_q s) rfl
  have hb : qTree (.elem "S:Body".toList [] (c ++ fault.toList.map faultNode)) = true :=
    qElem (by decide) rfl (by rw [qTrees_append, hc, hf]; rfl)
  refine qElem (by decide) (by decide) ?_
  cases hd with
  | none => exact qCons hb rfl
  | some h => exact qCons (header_q h) (qCons hb rfl)

theorem prefixesAll_append (a b : List XNode) : prefixesAll (a ++ b) = prefixesAll a ++ prefixesAll b := by
  induction a with
  | nil => rfl
  | cons k a ih => simp [prefixesAll, ih]

mutual
theorem prefixes_clean (x : XNode) : prefixes (cleanNode x) = prefixes x := by
  match x with
  | .text s => rfl
  | .elem n as ks =>
    rw [cleanNode, prefixes, prefixes, prefixes_cleans ks]
    congr 1
    induction as with
    | nil => rfl
    | cons a as ih => by_cases h : "xmlns:".toList.isPrefixOf a.1 = true <;> simp_all
theorem prefixes_cleans (ks : List XNode) : prefixesAll (cleanNodes ks) = prefixesAll ks := by
  match ks with
  | [] => rfl
  | k :: ks => rw [cleanNodes, prefixesAll, prefixesAll, prefixes_clean k, prefixes_cleans ks]
end

theorem prefixes_txt (s : Text) : prefixesAll (txt s) = [] := by unfold txt; split <;> rfl

theorem pElem {n : Text} {as : List (Text × Text)} {ks : List XNode} {l : List Text}
    (h1 : (as.filter fun a => "xmlns:".toList.isPrefixOf a.1).map (fun a => a.1.drop 6) = l) (h2 : prefixesAll ks = []) :
    prefixes (.elem n as ks) = l := by
  rw [prefixes, h1, h2, List.append_nil]

theorem pCons {k : XNode} {ks : List XNode} (h1 : prefixes k = []) (h2 : prefixesAll ks = []) : prefixesAll (k :: ks) = [] := by
  rw [prefixesAll, h1, h2]; rfl

theorem pLeaf (n : String) (s : Text) : prefixes (leaf n s) = [] := pElem rfl (prefixes_txt s)

theorem header_prefixes (h : Header) : prefixes (headerNode h) = ["wsa5".toList] :=
  pElem (by decide) (pCons (pLeaf _ _) (pCons (pLeaf _ _) (pCons (pLeaf _ _)
    (pCons (pElem rfl (pCons (pLeaf _ _) rfl)) (pCons (nc_prefixes _ (identity_nc _)) rfl)))))

theorem fault_prefixes (s : Text) : prefixes (faultNode s) = [] := by
  unfold faultNode
  split
  · exact pElem rfl rfl
  · exact pElem rfl (pCons (pLeaf _ _) rfl)

theorem envelope_prefixes (hd : Option Header) {c : List XNode} (hc : prefixesAll c = []) (fault : Option Text) :
    ∀ p ∈ prefixes (envelopeNode hd c fault), p ∉ attrFields := by
  have hf : prefixesAll (fault.toList.map faultNode) = [] := by
    cases fault with
    | none => rfl
    | some s => exact pCons (fault_prefixes s) rfl
  have hb : prefixesAll [.elem "S:Body".toList [] (c ++ fault.toList.map faultNode)] = [] :=
    pCons (pElem rfl (by rw [prefixesAll_append, hc, hf]; rfl)) rfl
  have e0 : (([("xmlns:S".toList, envNs)] : List (Text × Text)).filter fun a => "xmlns:".toList.isPrefixOf a.1).map (fun a => a.1.drop 6) = ["S".toList] := by decide
  have hS : "S".toList ∉ attrFields := by decide
  have hW : "wsa5".toList ∉ attrFields := by decide
  unfold envelopeNode
  rw [prefixes, e0, prefixesAll_append, hb]
  cases hd with
  | none =>
    intro p hp
    change p ∈ ["S".toList] at hp
    rw [List.mem_singleton] at hp
    rw [hp]; exact hS
  | some h =>
    intro p hp
    have : prefixesAll (List.map headerNode (some h).toList) = ["wsa5".toList] := by
      change prefixesAll [headerNode h] = _
      rw [prefixesAll, header_prefixes]; rfl
    rw [this] at hp
    change p ∈ ["S".toList, "wsa5".toList] at hp
    rw [List.mem_cons, List.mem_singleton] at hp
    rcases hp with hp | hp
    · rw [hp]; exact hS
    · rw [hp]; exact hW

/-- What is sent is a document. -/
theorem envelope_doc (hd : Option Header) {c : List XNode} {is : List Info} (hc : ∀ k ∈ c, tidy k = true ∧ isElem k = true ∧ ncTree k = true)
    (hs : KidsSay envScope (cleanNodes c) [] is) (fault : Option Text) (ht : tidy (envelopeNode hd c fault) = true) :
    SoapDoc (print (envelopeNode hd c fault))
      (group "http://www.w3.org/2003/05/soap-envelope" "Envelope" (hd.toList.map headerInfo ++
        [group "http://www.w3.org/2003/05/soap-envelope" "Body" (is ++ fault.toList.map fun s => faultInfo (cleanText s))])) := by
  have hnc : ncTrees c = true := ncTrees_all fun k hk => (hc k hk).2.2
  refine ⟨_, document_print ht (envelope_q hd (nc_qTrees c hnc) fault) rfl, envelope_says hd hs fault, ?_⟩
  rw [prefixes_clean]
  exact envelope_prefixes hd (nc_prefixesAll c hnc) fault

end Verif.Soap
