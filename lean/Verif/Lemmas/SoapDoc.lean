import Verif.Spec.SoapDoc
import Verif.Lemmas.Infoset
import Verif.Lemmas.Soap3
import Verif.Props.Soap
/-!
# What the decoder gets from a SOAP document is what it says
-/
set_option linter.unusedSimpArgs false
namespace Verif.Soap
open Xml

set_option maxRecDepth 8000 in
theorem good_req : ∀ r : ReqType, goodTy (MsgType.req r).ty = true := by
  intro r; cases r <;> decide

set_option maxRecDepth 8000 in
theorem good_resp : ∀ r : RespType, goodTy (MsgType.resp r).ty = true := by
  intro r; cases r <;> decide

theorem good_msg : ∀ m : MsgType, goodTy m.ty = true
  | .req r => good_req r
  | .resp r => good_resp r

theorem good_header : goodTy headerTy = true := by decide

theorem good_fault : goodTy faultTy = true := by decide

/-! ### Strings -/

theorem strLast_iff (l : List Text) (v : Val) : ScalarLast .str l v ↔ v = .str (l.getLast?.getD []) := by
  unfold ScalarLast
  simp only [Scalar]
  constructor
  · rintro ⟨-, h⟩
    cases hl : l.getLast? with
    | none => rw [hl] at h; simpa [zeroVal] using h
    | some s => rw [hl] at h; simpa using h
  · rintro rfl
    refine ⟨fun s _ => ⟨_, rfl⟩, ?_⟩
    cases l.getLast? <;> simp [zeroVal]

/-- The elements for a field without name space. -/
theorem elemsFor_parts {info : StructInfo} (hi : ∀ n, info.xmlName = some n → n.1 = []) (f : FieldInfo) (n : String) (hf : f.xml = n.toList)
    (is : List Info) : elemsFor info f is = is.flatMap (parts n) := by
  unfold elemsFor parts
  congr 1
  funext i
  congr 1
  funext k
  have hsp : (fieldName info f).space = [] := by
    unfold fieldName
    simp only
    split
    · rfl
    · cases hx : info.xmlName with
      | none => rfl
      | some x => exact hi x hx
  simp [Named, hsp, fieldName_loc, hf]

theorem xmlStruct_space (name : String) (fs : List FieldInfo) (loc : String) : ∀ n, (xmlStruct name fs loc).xmlName = some n → n.1 = [] := by
  rintro n hn
  simp only [xmlStruct, Option.some.injEq] at hn
  subst hn; rfl

theorem str_means {info : StructInfo} (hi : ∀ n, info.xmlName = some n → n.1 = []) (f : FieldInfo) (n : String) (hf : f.xml = n.toList)
    (is : List Info) (v : Val) : Means .str (elemsFor info f is) v ↔ v = .str (lastData n is) := by
  rw [Means, elemsFor_parts hi f n hf, strLast_iff, lastData, List.getLast?_map]

theorem parts_name {n : String} {i k : Info} (h : k ∈ parts n i) : k.name.loc = n.toList := by
  simp only [parts, List.mem_filter, decide_eq_true_eq] at h
  exact h.2

/-- What the header says: no header is unreadable. -/
theorem header_means {is : List Info} (hn : ∀ i ∈ is, i.name.loc = "Header".toList) (v : Val) : Means headerTy is v ↔
    v = .struct [.str (lastData "To" is), .str (lastData "Action" is), .str (lastData "MessageID" is),
      .struct [.str (lastData "Address" (is.flatMap (parts "From")))], .str (lastData "chargeBoxIdentity" is)] := by
  have hs := xmlStruct_space "receivedHeader" [strField "To" "To", strField "Action" "Action",
    strField "MessageID" "MessageID", strField "From" "From", strField "ChargeBoxIdentity" "chargeBoxIdentity"] "Header"
  have hs' := xmlStruct_space "receivedFrom" [strField "Address" "Address"] "From"
  have hfrom : ∀ is : List Info, (∀ i ∈ is, i.name.loc = "From".toList) → ∀ v, Means fromTy is v ↔ v = .struct [.str (lastData "Address" is)] := by
    intro is hn v
    rw [fromTy, Means]
    constructor
    · rintro ⟨-, vs, rfl, h⟩
      match vs, h with
      | [a], h =>
        simp only [xmlStruct, MeansFields, strField, and_true] at h
        rw [(str_means hs' (strField "Address" "Address") "Address" rfl is a).1 h]
    · rintro rfl
      refine ⟨?_, _, rfl, ?_⟩
      · rintro n hn' i hi
        simp only [xmlStruct, Option.some.injEq] at hn'
        subst hn'
        exact ⟨hn i hi, Or.inl rfl⟩
      · simp only [xmlStruct, MeansFields, strField, and_true]
        exact (str_means hs' (strField "Address" "Address") "Address" rfl is _).2 rfl
  have hfl : ∀ i ∈ elemsFor (xmlStruct "receivedHeader" [strField "To" "To", strField "Action" "Action",
      strField "MessageID" "MessageID", strField "From" "From", strField "ChargeBoxIdentity" "chargeBoxIdentity"] "Header")
      (strField "From" "From") is, i.name.loc = "From".toList := by
    intro i hi
    rw [elemsFor_parts hs _ "From" rfl, List.mem_flatMap] at hi
    obtain ⟨j, -, hj⟩ := hi
    exact parts_name hj
  rw [headerTy, Means]
  constructor
  · rintro ⟨-, vs, rfl, h⟩
    match vs, h with
    | [a, b, c, d, e], h =>
      obtain ⟨h1, h2, h3, h4, h5, -⟩ := h
      rw [(str_means hs (strField "To" "To") "To" rfl is a).1 h1, (str_means hs (strField "Action" "Action") "Action" rfl is b).1 h2,
        (str_means hs (strField "MessageID" "MessageID") "MessageID" rfl is c).1 h3,
        (hfrom _ hfl d).1 h4, elemsFor_parts hs _ "From" rfl,
        (str_means hs (strField "ChargeBoxIdentity" "chargeBoxIdentity") "chargeBoxIdentity" rfl is e).1 h5]
  · rintro rfl
    refine ⟨?_, _, rfl, (str_means hs (strField "To" "To") "To" rfl is _).2 rfl, (str_means hs (strField "Action" "Action") "Action" rfl is _).2 rfl,
      (str_means hs (strField "MessageID" "MessageID") "MessageID" rfl is _).2 rfl, ?_,
      (str_means hs (strField "ChargeBoxIdentity" "chargeBoxIdentity") "chargeBoxIdentity" rfl is _).2 rfl, trivial⟩
    · rintro n hn' i hi
      simp only [xmlStruct, Option.some.injEq] at hn'
      subst hn'
      exact ⟨hn i hi, Or.inl rfl⟩
    · refine (hfrom _ hfl _).2 ?_
      rw [elemsFor_parts hs _ "From" rfl]

/-- What a fault says: none is unreadable. -/
theorem fault_means {i : Info} (hn : i.name.loc = "Fault".toList) (v : Val) : Means faultTy [i] v ↔
    v = .struct [.struct [.str (lastData "Text" (parts "Reason" i))], .str (lastData "faultstring" [i]), .str (lastData "faultactor" [i]),
      .str (lastData "detail" [i])] := by
  have hs := xmlStruct_space "receivedFault" [strField "Reason" "Reason", strField "String" "faultstring",
    strField "Actor" "faultactor", strField "Detail" "detail"] "Fault"
  have hs' := xmlStruct_space "Reason" [strField "Text" "Text"] "Reason"
  have hreason : ∀ is : List Info, (∀ i ∈ is, i.name.loc = "Reason".toList) → ∀ v, Means reasonTy is v ↔ v = .struct [.str (lastData "Text" is)] := by
    intro is hn v
    rw [reasonTy, Means]
    constructor
    · rintro ⟨-, vs, rfl, h⟩
      match vs, h with
      | [a], h =>
        simp only [xmlStruct, MeansFields, strField, and_true] at h
        rw [(str_means hs' (strField "Text" "Text") "Text" rfl is a).1 h]
    · rintro rfl
      refine ⟨?_, _, rfl, ?_⟩
      · rintro n hn' i hi
        simp only [xmlStruct, Option.some.injEq] at hn'
        subst hn'
        exact ⟨hn i hi, Or.inl rfl⟩
      · simp only [xmlStruct, MeansFields, strField, and_true]
        exact (str_means hs' (strField "Text" "Text") "Text" rfl is _).2 rfl
  have hfe : elemsFor (xmlStruct "receivedFault" [strField "Reason" "Reason", strField "String" "faultstring",
      strField "Actor" "faultactor", strField "Detail" "detail"] "Fault") (strField "Reason" "Reason") [i] = parts "Reason" i := by
    rw [elemsFor_parts hs _ "Reason" rfl]; simp
  have hfl : ∀ j ∈ parts "Reason" i, j.name.loc = "Reason".toList := fun j hj => parts_name hj
  rw [faultTy, Means]
  constructor
  · rintro ⟨-, vs, rfl, h⟩
    match vs, h with
    | [a, b, c, d], h =>
      obtain ⟨h1, h2, h3, h4, -⟩ := h
      have h1' : Means reasonTy (parts "Reason" i) a := hfe ▸ h1
      rw [(hreason _ hfl a).1 h1', (str_means hs (strField "String" "faultstring") "faultstring" rfl [i] b).1 h2,
        (str_means hs (strField "Actor" "faultactor") "faultactor" rfl [i] c).1 h3,
        (str_means hs (strField "Detail" "detail") "detail" rfl [i] d).1 h4]
  · rintro rfl
    have h1 : Means reasonTy (elemsFor (xmlStruct "receivedFault" [strField "Reason" "Reason", strField "String" "faultstring",
      strField "Actor" "faultactor", strField "Detail" "detail"] "Fault") (strField "Reason" "Reason") [i])
        (.struct [.str (lastData "Text" (parts "Reason" i))]) := by
      rw [hfe]; exact (hreason _ hfl _).2 rfl
    refine ⟨?_, _, rfl, h1, (str_means hs (strField "String" "faultstring") "faultstring" rfl [i] _).2 rfl,
      (str_means hs (strField "Actor" "faultactor") "faultactor" rfl [i] _).2 rfl,
      (str_means hs (strField "Detail" "detail") "detail" rfl [i] _).2 rfl, trivial⟩
    rintro n hn' j hj
    simp only [List.mem_singleton] at hj
    simp only [xmlStruct, Option.some.injEq] at hn'
    subst hn' hj
    exact ⟨hn, Or.inl rfl⟩

/-! ### Bodies -/

/-- What the decoder makes of what is said. -/
def Said.as : Said → Item → Prop
  | .message m v, x => x = .message m v
  | .fault s, x => ∃ f, x = .fault f ∧ faultText f = s

theorem single_iff {t : Ty} (hg : goodTy t = true) {r : RNode} {i : Info} (h : Like r i) (v : Val) :
    (∃ n as ks, r = .elem n as ks ∧ fromXml t n as ks (zeroVal t) = .ok v) ↔ Means t [i] v := by
  rw [← means_iff t hg [r] [i] v (.cons h .nil)]
  obtain ⟨n, as, bs, ks, d, is, rfl, rfl, -⟩ := h.cases
  simp only [foldNodes, GoRes.bind_eq_ok]
  constructor
  · rintro ⟨n', as', ks', he, h⟩
    simp only [RNode.elem.injEq] at he
    obtain ⟨rfl, rfl, rfl⟩ := he
    exact ⟨v, h, rfl⟩
  · rintro ⟨x, h, he⟩
    simp only [GoRes.ok.injEq] at he
    subst he
    exact ⟨n, as, ks, rfl, h⟩

theorem reads_said {r : RNode} {i : Info} (h : Like r i) {x : Option Item} (hx : ReadsAs r x) : ∃ s y, x = some y ∧ SaidBy i s ∧ s.as y := by
  cases hx with
  | text => cases h
  | @fault n as ks f hn hf =>
    obtain ⟨n', as', bs, ks', d, is, he, rfl, -⟩ := h.cases
    simp only [RNode.elem.injEq] at he
    obtain ⟨rfl, rfl, rfl⟩ := he
    have hm := (single_iff good_fault h f).1 ⟨n, as, ks, rfl, hf⟩
    have hv := (fault_means (i := .elem n bs d is) hn f).1 hm
    exact ⟨_, _, rfl, .fault hn, f, rfl, by rw [hv]; rfl⟩
  | @message n as ks v m hb hn hf =>
    obtain ⟨n', as', bs, ks', d, is, he, rfl, -⟩ := h.cases
    simp only [RNode.elem.injEq] at he
    obtain ⟨rfl, rfl, rfl⟩ := he
    have hm := (single_iff (good_msg m) h v).1 ⟨n, as, ks, rfl, hf⟩
    exact ⟨_, _, rfl, .message hb hn hm, rfl⟩

theorem said_reads {r : RNode} {i : Info} (h : Like r i) {s : Said} (hs : SaidBy i s) : ∃ y, ReadsAs r (some y) ∧ s.as y := by
  obtain ⟨n, as, bs, ks, d, is, rfl, rfl, -⟩ := id h.cases
  cases hs with
  | fault hn =>
    have hm := (fault_means (i := .elem n bs d is) hn _).2 rfl
    obtain ⟨n', as', ks', he, hf⟩ := (single_iff good_fault h _).2 hm
    simp only [RNode.elem.injEq] at he
    obtain ⟨rfl, rfl, rfl⟩ := he
    exact ⟨_, .fault hn hf, _, rfl, rfl⟩
  | message hb hn hm =>
    obtain ⟨n', as', ks', he, hf⟩ := (single_iff (good_msg _) h _).2 hm
    simp only [RNode.elem.injEq] at he
    obtain ⟨rfl, rfl, rfl⟩ := he
    exact ⟨_, .message hb hn hf, rfl⟩

/-- The items of what is said. -/
theorem items_of {ks : List RNode} {d : Text} {is : List Info} (h : KidsLike ks d is) :
    (∀ items, List.Forall₂ ReadsAs ks items → ∃ l, List.Forall₂ SaidBy is l ∧ List.Forall₂ Said.as l (items.filterMap id)) ∧
    (∀ l, List.Forall₂ SaidBy is l → ∃ items, List.Forall₂ ReadsAs ks items ∧ List.Forall₂ Said.as l (items.filterMap id)) := by
  induction ks generalizing d is with
  | nil =>
    cases h
    constructor
    · intro items hi; cases hi; exact ⟨[], .nil, .nil⟩
    · intro l hl; cases hl; exact ⟨[], .nil, .nil⟩
  | cons k ks ih =>
    cases h with
    | text h =>
      obtain ⟨h1, h2⟩ := ih h
      constructor
      · intro items hi
        cases hi with
        | cons hk hi =>
          cases hk
          obtain ⟨l, h3, h4⟩ := h1 _ hi
          exact ⟨l, h3, by simpa using h4⟩
      · intro l hl
        obtain ⟨items, h3, h4⟩ := h2 l hl
        exact ⟨none :: items, .cons .text h3, by simpa using h4⟩
    | elem hk h =>
      obtain ⟨h1, h2⟩ := ih h
      constructor
      · intro items hi
        cases hi with
        | cons hx hi =>
          obtain ⟨l, h3, h4⟩ := h1 _ hi
          obtain ⟨s, y, rfl, h5, h6⟩ := reads_said hk hx
          exact ⟨s :: l, .cons h5 h3, by simp only [List.filterMap_cons, id]; exact List.Forall₂.cons h6 h4⟩
      · intro l hl
        cases hl with
        | cons hs hl =>
          obtain ⟨items, h3, h4⟩ := h2 _ hl
          obtain ⟨y, h5, h6⟩ := said_reads hk hs
          exact ⟨some y :: items, .cons h5 h3, by simp only [List.filterMap_cons, id]; exact List.Forall₂.cons h6 h4⟩

theorem lastMessage_as {l : List Said} {items : List (Option Item)} (h : List.Forall₂ Said.as l (items.filterMap id)) :
    lastMessage items = message l := by
  unfold lastMessage message
  congr 1
  generalize hys : items.filterMap id = ys at h
  induction items generalizing ys l with
  | nil => subst hys; cases h; rfl
  | cons x items ih =>
    cases x with
    | none => exact ih _ hys h
    | some y =>
      simp only [List.filterMap_cons, id] at hys
      subst hys
      cases h with
      | @cons s _ l _ h1 h2 =>
        have := ih _ rfl h2
        cases s with
        | message m v =>
          simp only [Said.as] at h1
          subst h1
          simp only [List.filterMap_cons, this]
        | fault t =>
          obtain ⟨f, rfl, -⟩ := h1
          simp only [List.filterMap_cons, this]

theorem lastFault_as {l : List Said} {items : List (Option Item)} (h : List.Forall₂ Said.as l (items.filterMap id)) :
    (lastFault items).map faultText = fault l := by
  unfold lastFault fault
  rw [← List.getLast?_map]
  congr 1
  generalize hys : items.filterMap id = ys at h
  induction items generalizing ys l with
  | nil => subst hys; cases h; rfl
  | cons x items ih =>
    cases x with
    | none => exact ih _ hys h
    | some y =>
      simp only [List.filterMap_cons, id] at hys
      subst hys
      cases h with
      | @cons s _ l _ h1 h2 =>
        have := ih _ rfl h2
        cases s with
        | message m v =>
          simp only [Said.as] at h1
          subst h1
          simp only [List.filterMap_cons, this]
        | fault t =>
          obtain ⟨f, rfl, rfl⟩ := h1
          simp only [List.filterMap_cons, List.map_cons, this]

theorem body_like {ks : List RNode} {d : Text} {is : List Info} (h : KidsLike ks d is) :
    (∀ b, readBody ks ⟨none, none⟩ = .ok b → ∃ l, List.Forall₂ SaidBy is l ∧ b.content = message l ∧ b.fault.map faultText = fault l) ∧
    (∀ l, List.Forall₂ SaidBy is l → ∃ b, readBody ks ⟨none, none⟩ = .ok b ∧ b.content = message l ∧ b.fault.map faultText = fault l) := by
  obtain ⟨h1, h2⟩ := items_of h
  constructor
  · intro b hb
    obtain ⟨items, hi, hc, hf⟩ := (C49_body ks b).1 hb
    obtain ⟨l, h3, h4⟩ := h1 items hi
    exact ⟨l, h3, by rw [hc, lastMessage_as h4], by rw [hf, lastFault_as h4]⟩
  · intro l hl
    obtain ⟨items, hi, h4⟩ := h2 l hl
    exact ⟨⟨lastMessage items, lastFault items⟩, (C49_body ks _).2 ⟨items, hi, rfl, rfl⟩, lastMessage_as h4, lastFault_as h4⟩

theorem readBody_append (a b : List RNode) (x : Body) : readBody (a ++ b) x = (readBody a x).bind (readBody b) := by
  induction a generalizing x with
  | nil => rfl
  | cons k a ih =>
    cases k with
    | text s => exact ih x
    | elem n as ks =>
      simp only [List.cons_append, readBody]
      split
      · rw [GoRes.bind_assoc]; congr 1; funext f; exact ih _
      · split
        · rfl
        · rw [GoRes.bind_assoc]; congr 1; funext f; exact ih _

/-! ### Envelopes -/

/-- The children of the bodies. -/
def bodyNodes : List RNode → List RNode
  | [] => []
  | .elem n _ cs :: ks => if n.loc = "Body".toList then cs ++ bodyNodes ks else bodyNodes ks
  | _ :: ks => bodyNodes ks

theorem kidsLike_append {a b : List RNode} {d e : Text} {is js : List Info} (h1 : KidsLike a d is) (h2 : KidsLike b e js) :
    KidsLike (a ++ b) (d ++ e) (is ++ js) := by
  induction a generalizing d is with
  | nil => cases h1; exact h2
  | cons k a ih =>
    cases h1 with
    | text h => rw [List.append_assoc]; exact .text (ih h)
    | elem hk h => exact .elem hk (ih h)

theorem bodyNodes_like {ks : List RNode} {d : Text} {is : List Info} (h : KidsLike ks d is) :
    ∃ e, KidsLike (bodyNodes ks) e ((is.filter fun k => k.name.loc = "Body".toList).flatMap Info.kids) := by
  induction ks generalizing d is with
  | nil => cases h; exact ⟨[], .nil⟩
  | cons k ks ih =>
    cases h with
    | text h => exact ih h
    | elem hk h =>
      obtain ⟨e, he⟩ := ih h
      obtain ⟨n, as, bs, cs, d', is', rfl, rfl, h1, h2⟩ := hk.cases
      by_cases hn : n.loc = "Body".toList
      · simp only [bodyNodes, hn, if_true, List.filter_cons, Info.name, decide_true, List.flatMap_cons, Info.kids]
        exact ⟨_, kidsLike_append h2 he⟩
      · simp only [bodyNodes, hn, if_false, List.filter_cons, Info.name, decide_false, Bool.false_eq_true]
        exact ⟨e, he⟩

theorem readParts_iff (ks : List RNode) : ∀ (e e' : Envelope), readParts ks e = .ok e' ↔
    (if ks.filter (nodeNamed fun n => n.loc = "Header".toList) = [] then e'.header = e.header
      else ∃ h, e'.header = some h ∧
        foldNodes (fromXml headerTy) (ks.filter (nodeNamed fun n => n.loc = "Header".toList)) (e.header.getD (zeroVal headerTy)) = .ok h) ∧
    readBody (bodyNodes ks) e.body = .ok e'.body := by
  induction ks with
  | nil =>
    intro e e'
    obtain ⟨h, b⟩ := e
    obtain ⟨h', b'⟩ := e'
    simp only [readParts, List.filter_nil, if_true, bodyNodes, readBody, GoRes.ok.injEq, Envelope.mk.injEq]
    constructor
    · rintro ⟨rfl, rfl⟩; exact ⟨rfl, rfl⟩
    · rintro ⟨rfl, rfl⟩; exact ⟨rfl, rfl⟩
  | cons k ks ih =>
    intro e e'
    cases k with
    | text s => exact ih e e'
    | elem n as cs =>
      by_cases hh : n.loc = "Header".toList
      · have hnb : ¬ n.loc = "Body".toList := by rw [hh]; decide
        simp only [readParts, hh, if_true, GoRes.bind_eq_ok, List.filter_cons, nodeNamed, decide_true, reduceCtorEq, if_false, foldNodes,
          bodyNodes, hnb, ih]
        constructor
        · rintro ⟨h, h1, h2, h3⟩
          refine ⟨?_, h3⟩
          split at h2
          · rename_i hnil
            exact ⟨h, h2, h, h1, by rw [hnil]; rfl⟩
          · obtain ⟨h', h4, h5⟩ := h2
            exact ⟨h', h4, h, h1, h5⟩
        · rintro ⟨⟨h, h1, h', h2, h3⟩, h4⟩
          refine ⟨h', h2, ?_, h4⟩
          split
          · rename_i hnil
            rw [hnil] at h3
            simp only [foldNodes, GoRes.ok.injEq] at h3
            rw [h1, h3]
          · exact ⟨h, h1, h3⟩
      · by_cases hb : n.loc = "Body".toList
        · simp only [readParts, hh, if_false, hb, if_true, List.filter_cons, nodeNamed, decide_false, Bool.false_eq_true, bodyNodes,
            readBody_append]
          have hne : ¬ "Body".toList = "Header".toList := by decide
          simp only [hne, if_false, decide_false, Bool.false_eq_true]
          rw [GoRes.bind_eq_ok, GoRes.bind_eq_ok]
          simp only [ih]
          constructor
          · rintro ⟨b, h1, h2, h3⟩; exact ⟨h2, b, h1, h3⟩
          · rintro ⟨h2, b, h1, h3⟩; exact ⟨b, h1, h2, h3⟩
        · simp only [readParts, hh, if_false, hb, List.filter_cons, nodeNamed, decide_false, Bool.false_eq_true, bodyNodes]
          exact ih e e'

/-- What the decoder gets from a document is what it says. -/
theorem decode_says {t : Text} {i : Info} (h : SoapDoc t i) :
    (∀ env, decode t = .ok env → ∃ l, EnvelopeSays i l ∧ env.body.content = message l ∧ env.body.fault.map faultText = fault l ∧
      (env.header = none ↔ ¬ HasHeader i) ∧ ∀ hd, env.header = some hd → identityOf hd = identity i) ∧
    (∀ l, EnvelopeSays i l → ∃ env, decode t = .ok env ∧ env.body.content = message l ∧ env.body.fault.map faultText = fault l) := by
  obtain ⟨x, hdoc, hsay, hpre⟩ := h
  have hlike := says_like hsay [] (fun p => rfl) hpre
  have hdec : decode t = readRoot (resolve [] x) := by rw [decode, document_read hdoc]
  obtain ⟨n, as, bs, ks, d, is, hr, rfl, -, hk⟩ := hlike.cases
  obtain ⟨e, hbody⟩ := bodyNodes_like hk
  obtain ⟨hb1, hb2⟩ := body_like hbody
  have hhead := kidsLike_filter hk fun n => decide (n.loc = "Header".toList)
  have hparts : (is.filter fun i => decide (i.name.loc = "Header".toList)) = parts "Header" (.elem n bs d is) := rfl
  rw [hparts] at hhead
  have hhm : ∀ hv, (foldNodes (fromXml headerTy) (ks.filter (nodeNamed fun n => decide (n.loc = "Header".toList))) (zeroVal headerTy) = .ok hv ↔
      Means headerTy (parts "Header" (.elem n bs d is)) hv) := fun hv => means_iff headerTy good_header _ _ hv hhead
  have hname : ∀ i ∈ parts "Header" (.elem n bs d is), i.name.loc = "Header".toList := fun i hi => parts_name hi
  have hnil : ks.filter (nodeNamed fun n => decide (n.loc = "Header".toList)) = [] ↔ parts "Header" (.elem n bs d is) = [] := by
    have := hhead.length_eq
    constructor
    · intro h; rw [h] at this; exact List.eq_nil_of_length_eq_zero this.symm
    · intro h; rw [h] at this; exact List.eq_nil_of_length_eq_zero this
  rw [hdec, hr, readRoot]
  by_cases hen : n.loc = "Envelope".toList
  · rw [if_pos hen]
    have hsays : ∀ l, EnvelopeSays (.elem n bs d is) l ↔ List.Forall₂ SaidBy ((is.filter fun k => decide (k.name.loc = "Body".toList)).flatMap Info.kids) l :=
      fun l => ⟨fun h => h.2, fun h => ⟨hen, h⟩⟩
    have hfirst : ∀ env, readParts ks ⟨none, ⟨none, none⟩⟩ = .ok env → ∃ l, EnvelopeSays (.elem n bs d is) l ∧ env.body.content = message l ∧
        env.body.fault.map faultText = fault l ∧ (env.header = none ↔ ¬ HasHeader (.elem n bs d is)) ∧
        ∀ hd, env.header = some hd → identityOf hd = identity (.elem n bs d is) := by
      intro env he
      obtain ⟨h1, h2⟩ := (readParts_iff ks _ _).1 he
      obtain ⟨l, h3, h4, h5⟩ := hb1 _ h2
      refine ⟨l, (hsays l).2 h3, h4, h5, ?_⟩
      split at h1
      · rename_i h0
        have h0' := hnil.1 h0
        rw [h1]
        refine ⟨⟨fun _ => fun h => h h0', fun _ => rfl⟩, by simp⟩
      · rename_i h0
        obtain ⟨hv, h6, h7⟩ := h1
        have hm := (hhm hv).1 h7
        have hval := (header_means hname hv).1 hm
        rw [h6]
        refine ⟨⟨by simp, fun h => absurd (hnil.2 (not_not.1 h)) h0⟩, ?_⟩
        rintro hd hhd
        simp only [Option.some.injEq] at hhd
        rw [← hhd, hval]
        rfl
    refine ⟨hfirst, ?_⟩
    intro l hl
    obtain ⟨b, h1, hbc, hbf⟩ := hb2 l ((hsays l).1 hl)
    have hex : ∃ env, readParts ks ⟨none, ⟨none, none⟩⟩ = .ok env ∧ env.body = b := by
      by_cases h0 : ks.filter (nodeNamed fun n => decide (n.loc = "Header".toList)) = []
      · exact ⟨⟨none, b⟩, (readParts_iff ks _ _).2 ⟨by rw [if_pos h0], h1⟩, rfl⟩
      · have hm := (header_means hname _).2 rfl
        have hf := (hhm _).2 hm
        exact ⟨⟨some _, b⟩, (readParts_iff ks _ _).2 ⟨by rw [if_neg h0]; exact ⟨_, rfl, hf⟩, h1⟩, rfl⟩
    obtain ⟨env, h2, rfl⟩ := hex
    exact ⟨env, h2, hbc, hbf⟩
  · rw [if_neg hen]
    refine ⟨by simp, ?_⟩
    intro l hl
    exact absurd hl.1 hen

end Verif.Soap
