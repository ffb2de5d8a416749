import Verif.Lemmas.XmlText
import Verif.Lemmas.XmlNum
import Verif.Spec.Soap
import Verif.Spec.Trip
/-!
# Structs to XML and back
-/
set_option linter.unusedSimpArgs false
namespace Verif.Xml
open Json

/-! ### Names -/

/-- A name without prefix that is no name space declaration. -/
def plainName (n : Text) : Bool := nameOk n && !n.contains ':' && n != "xmlns".toList

theorem plainName.ok {n : Text} (h : plainName n = true) : nameOk n = true := by
  simp only [plainName, Bool.and_eq_true] at h; exact h.1.1

theorem splitName_plain {n : Text} (h : plainName n = true) : splitName n = ⟨[], n⟩ := by
  simp only [plainName, Bool.and_eq_true, Bool.not_eq_true', List.contains_eq_mem, decide_eq_false_iff_not] at h
  have hc : ':' ∉ n := h.1.2
  unfold splitName
  have : n.dropWhile (· ≠ ':') = [] := by
    clear h
    induction n with
    | nil => rfl
    | cons c n ih =>
      have h1 : c ≠ ':' := fun e => hc (by simp [e])
      rw [List.dropWhile_cons_of_pos (by simp [h1])]
      exact ih fun e => hc (by simp [e])
  rw [this]

theorem plainName.ne {n : Text} (h : plainName n = true) : n ≠ "xmlns".toList := by
  simp only [plainName, Bool.and_eq_true, bne_iff_ne] at h; exact h.2

/-- The attributes of an element of ours, after resolving. -/
def resAttrs (as : List (Text × Text)) : List (XName × Text) := as.map fun a => (⟨[], a.1⟩, cleanText a.2)

theorem declare_plain (ns : List (Text × Text)) (as : List (Text × Text)) (h : as.all (fun a => plainName a.1) = true) :
    declare ns (as.map fun a => (a.1, cleanText a.2)) = ns := by
  induction as with
  | nil => rfl
  | cons a as ih =>
    simp only [List.all_cons, Bool.and_eq_true] at h
    simp only [List.map_cons, declare, splitName_plain h.1]
    rw [if_neg (by decide), if_neg (fun x => plainName.ne h.1 x.2)]
    exact ih h.2

theorem attrs_plain (ns : List (Text × Text)) (as : List (Text × Text)) (h : as.all (fun a => plainName a.1) = true) :
    (as.map fun a => (a.1, cleanText a.2)).map (fun a => (translate ns false (splitName a.1), a.2)) = resAttrs as := by
  induction as with
  | nil => rfl
  | cons a as ih =>
    simp only [List.all_cons, Bool.and_eq_true] at h
    simp only [List.map_cons, resAttrs, splitName_plain h.1] at ih ⊢
    rw [ih h.2]
    congr 2

/-- The element of a written struct or value, as the decoder sees it. -/
theorem resolve_mkElem {n : XName} (hn : plainName n.loc = true) (hs : cleanText n.space = n.space) (ns : List (Text × Text))
    (as : List (Text × Text)) (ha : as.all (fun a => plainName a.1) = true) (ks : List XNode) :
    ∃ n' ns' pre, resolve ns (cleanNode (mkElem n as ks)) = .elem n' (pre ++ resAttrs as) (resolves ns' (cleanNodes ks)) ∧
      n'.loc = n.loc ∧ matches_ n n' = true ∧ (∀ a ∈ pre, a.1.loc = "xmlns".toList) := by
  unfold mkElem
  by_cases h0 : n.space = []
  · simp only [h0, if_true, List.nil_append, cleanNode, resolve]
    rw [declare_plain ns as ha, attrs_plain ns as ha, splitName_plain hn]
    refine ⟨_, _, [], rfl, ?_, ?_, by simp⟩
    · unfold translate
      split
      · rfl
      · split
        · rfl
        · split
          · rfl
          · split
            · rfl
            · split <;> rfl
    · unfold matches_
      simp only [h0, beq_self_eq_true, Bool.true_or, Bool.true_and, beq_iff_eq]
      unfold translate
      split
      · rfl
      · split
        · rfl
        · split
          · rfl
          · split
            · rfl
            · split <;> rfl
  · simp only [h0, if_false, List.singleton_append, cleanNode, resolve, List.map_cons]
    have hx : splitName "xmlns".toList = ⟨[], "xmlns".toList⟩ := by decide
    have hd : declare ns (("xmlns".toList, cleanText n.space) :: as.map fun a => (a.1, cleanText a.2)) = ([], n.space) :: ns := by
      rw [declare, hx]
      simp only
      rw [if_neg (by simp), if_pos (by simp), declare_plain _ as ha, hs]
    rw [hd, attrs_plain _ as ha, splitName_plain hn]
    have ht : translate (([], n.space) :: ns) true ⟨[], n.loc⟩ = ⟨n.space, n.loc⟩ := by
      unfold translate
      rw [if_neg (by simp), if_neg (by simp), if_neg (by simp), if_neg (fun x => plainName.ne hn x.2)]
      simp [List.lookup]
    rw [ht]
    refine ⟨⟨n.space, n.loc⟩, ([], n.space) :: ns, [(⟨[], "xmlns".toList⟩, cleanText n.space)], ?_, rfl, by simp [matches_], by simp⟩
    rw [hx]
    have hx2 : translate (([], n.space) :: ns) false ⟨[], "xmlns".toList⟩ = ⟨[], "xmlns".toList⟩ := by
      unfold translate
      rw [if_neg (by decide), if_pos ⟨rfl, rfl⟩]
    rw [hx2]
    rfl

/-! ### Reading a list of siblings -/

/-- Child elements for one field, in order. -/
def foldNodes (d : ElemDec) : List RNode → Val → GoRes Val
  | [], v => .ok v
  | .text _ :: r, v => foldNodes d r v
  | .elem n as ks :: r, v => (d n as ks v).bind (foldNodes d r)

/-- `setAttrs` on a list of fields. -/
def attrsFold (fs : List FieldInfo) (ts : List Ty) : List (XName × Text) → List Val → GoRes (List Val)
  | [], vs => .ok vs
  | (n, s) :: as, vs => (setAttr n s fs ts vs).bind (attrsFold fs ts as)

theorem setAttrs_eq (info : StructInfo) (ts : List Ty) (as : List (XName × Text)) :
    setAttrs info ts as = attrsFold info.fields ts as := by
  induction as with
  | nil => funext vs; rfl
  | cons a as ih => funext vs; obtain ⟨n, s⟩ := a; simp only [setAttrs, attrsFold, ih]

/-- `setKids` on a list of fields. -/
def kidsFold (nm : FieldInfo → XName) (fs : List FieldInfo) (decs : List ElemDec) : List RNode → List Val → GoRes (List Val)
  | [], vs => .ok vs
  | .text _ :: ks, vs => kidsFold nm fs decs ks vs
  | .elem n as cs :: ks, vs =>
    match fs.findIdx? (fun f => f.xmlKind == .elem && matches_ (nm f) n) with
    | some i =>
      ((decs.getD i (fun _ _ _ _ => .panic "no such field")) n as cs (vs.getD i .nil)).bind fun v =>
        kidsFold nm fs decs ks (vs.set i v)
    | none => kidsFold nm fs decs ks vs

theorem setKids_eq (info : StructInfo) (decs : List ElemDec) (ks : List RNode) :
    setKids info decs ks = kidsFold (fieldName info) info.fields decs ks := by
  induction ks with
  | nil => funext vs; rfl
  | cons k ks ih =>
    funext vs
    cases k with
    | text s => simp only [setKids, kidsFold, ih]
    | elem n as cs =>
      simp only [setKids, kidsFold, fieldOf, ih]
      cases info.fields.findIdx? (fun f => f.xmlKind == .elem && matches_ (fieldName info f) n) <;> rfl

theorem setAttr_other {n : XName} {s : Text} {fs : List FieldInfo} (h : ∀ f ∈ fs, f.xmlKind = .attr → f.xml ≠ n.loc) :
    ∀ ts vs, setAttr n s fs ts vs = .ok vs := by
  induction fs with
  | nil => intro ts vs; cases ts <;> cases vs <;> rfl
  | cons f fs ih =>
    intro ts vs
    cases ts with
    | nil => rfl
    | cons t ts =>
      cases vs with
      | nil => rfl
      | cons v vs =>
        rw [setAttr, if_neg (fun x => h f (by simp) x.1 x.2), ih (fun g hg => h g (by simp [hg]))]
        rfl

theorem attrsFold_other {as : List (XName × Text)} {fs : List FieldInfo}
    (h : ∀ a ∈ as, ∀ f ∈ fs, f.xmlKind = .attr → f.xml ≠ a.1.loc) (ts : List Ty) (vs : List Val) :
    attrsFold fs ts as vs = .ok vs := by
  induction as generalizing vs with
  | nil => rfl
  | cons a as ih =>
    obtain ⟨n, s⟩ := a
    rw [attrsFold, setAttr_other (n := n) (h (n, s) (by simp))]
    exact ih (fun a ha => h a (by simp [ha])) vs

theorem attrsFold_append (fs : List FieldInfo) (ts : List Ty) (as bs : List (XName × Text)) (vs : List Val) :
    attrsFold fs ts (as ++ bs) vs = (attrsFold fs ts as vs).bind (attrsFold fs ts bs) := by
  induction as generalizing vs with
  | nil => rfl
  | cons a as ih =>
    obtain ⟨n, s⟩ := a
    simp only [List.cons_append, attrsFold, GoRes.bind_assoc]
    congr 1
    funext vs'
    exact ih vs'

theorem attrsFold_tail {f : FieldInfo} {as : List (XName × Text)} (h : ∀ a ∈ as, f.xmlKind = .attr → f.xml ≠ a.1.loc)
    (fs : List FieldInfo) (t : Ty) (ts : List Ty) (v : Val) (vs : List Val) :
    attrsFold (f :: fs) (t :: ts) as (v :: vs) = (attrsFold fs ts as vs).bind fun vs' => .ok (v :: vs') := by
  induction as generalizing vs with
  | nil => rfl
  | cons a as ih =>
    obtain ⟨n, s⟩ := a
    have h0 := h (n, s) (by simp)
    simp only [attrsFold, setAttr]
    rw [if_neg (fun x => h0 x.1 x.2)]
    cases hs : setAttr n s fs ts vs with
    | ok vs' =>
      simp only [GoRes.bind]
      exact ih (fun a ha => h a (by simp [ha])) vs'
    | err m => rfl
    | panic m => rfl

theorem kidsFold_tail {nm : FieldInfo → XName} {f : FieldInfo} (ks : List RNode)
    (h : ∀ n as cs, RNode.elem n as cs ∈ ks → (f.xmlKind == .elem && matches_ (nm f) n) = false)
    (fs : List FieldInfo) (d : ElemDec) (ds : List ElemDec) (v : Val) (vs : List Val) :
    kidsFold nm (f :: fs) (d :: ds) ks (v :: vs) = (kidsFold nm fs ds ks vs).bind fun vs' => .ok (v :: vs') := by
  induction ks generalizing vs with
  | nil => rfl
  | cons k ks ih =>
    have ih' := ih fun n as cs hm => h n as cs (by simp [hm])
    cases k with
    | text s => simp only [kidsFold]; exact ih' vs
    | elem n as cs =>
      have h0 := h n as cs (by simp)
      simp only [kidsFold, List.findIdx?_cons, h0]
      cases hi : fs.findIdx? (fun f => f.xmlKind == .elem && matches_ (nm f) n) with
      | none => simp only [Option.map_none, Bool.false_eq_true, if_false]; exact ih' vs
      | some i =>
        simp only [Option.map_some, List.getD_cons_succ, List.set_cons_succ, GoRes.bind_assoc, Bool.false_eq_true, if_false]
        congr 1
        funext v'
        exact ih' _

theorem kidsFold_head {nm : FieldInfo → XName} {f : FieldInfo} (own rest : List RNode)
    (h : ∀ k ∈ own, ∃ n as cs, k = RNode.elem n as cs ∧ (f.xmlKind == .elem && matches_ (nm f) n) = true)
    (fs : List FieldInfo) (d : ElemDec) (ds : List ElemDec) (v : Val) (vs : List Val) :
    kidsFold nm (f :: fs) (d :: ds) (own ++ rest) (v :: vs) =
      (foldNodes d own v).bind fun v' => kidsFold nm (f :: fs) (d :: ds) rest (v' :: vs) := by
  induction own generalizing v with
  | nil => rfl
  | cons k own ih =>
    obtain ⟨n, as, cs, rfl, h0⟩ := h k (by simp)
    simp only [List.cons_append, kidsFold, List.findIdx?_cons, h0, if_true, List.getD_cons_zero, List.set_cons_zero, foldNodes,
      GoRes.bind_assoc]
    congr 1
    funext v'
    exact ih (fun k hk => h k (by simp [hk])) v'

theorem setData_none {s : Text} {fs : List FieldInfo} (h : ∀ f ∈ fs, f.xmlKind ≠ .chardata) :
    ∀ ts vs, setData s fs ts vs = .ok vs := by
  induction fs with
  | nil => intro ts vs; cases ts <;> cases vs <;> rfl
  | cons f fs ih =>
    intro ts vs
    cases ts with
    | nil => rfl
    | cons t ts =>
      cases vs with
      | nil => rfl
      | cons v vs =>
        rw [setData, if_neg (h f (by simp)), ih (fun g hg => h g (by simp [hg]))]
        rfl

theorem resolves_append (ns : List (Text × Text)) (a b : List XNode) :
    resolves ns (a ++ b) = resolves ns a ++ resolves ns b := by
  induction a with
  | nil => rfl
  | cons k a ih => simp [resolves, ih]

theorem cleanNodes_append (a b : List XNode) : cleanNodes (a ++ b) = cleanNodes a ++ cleanNodes b := by
  induction a with
  | nil => rfl
  | cons k a ih => simp [cleanNodes, ih]

theorem dataOf_append (a b : List RNode) : dataOf (a ++ b) = dataOf a ++ dataOf b := by
  induction a with
  | nil => rfl
  | cons k a ih => cases k <;> simp [dataOf, ih]

theorem resolves_eq_map (ns : List (Text × Text)) (a : List XNode) : resolves ns a = a.map (resolve ns) := by
  induction a with
  | nil => rfl
  | cons k a ih => simp [resolves, ih]

theorem cleanNodes_eq_map (a : List XNode) : cleanNodes a = a.map cleanNode := by
  induction a with
  | nil => rfl
  | cons k a ih => simp [cleanNodes, ih]

/-! ### Types that can be read back -/

/-- Types whose values are character data. -/
def simpleTy : Ty → Bool
  | .ptr _ => false
  | .slice _ => false
  | .struct _ _ => false
  | _ => true

/-- Pointers. -/
def isPtr : Ty → Bool
  | .ptr _ => true
  | _ => false

/-- Slices. -/
def isSlice : Ty → Bool
  | .slice _ => true
  | _ => false

/-- Strings. -/
def isStr : Ty → Bool
  | .str => true
  | _ => false

/-- Types that stand behind pointers. -/
def behindPtr : Ty → Bool
  | .time => true
  | .struct _ _ => true
  | _ => false

/-- The field has a good name, the right sort of type, and is told apart from the later ones. -/
def okField (info : StructInfo) (f : FieldInfo) (t : Ty) (fs : List FieldInfo) : Bool :=
  match f.xmlKind with
  | .elem => plainName f.xml && decide (cleanText (fieldName info f).space = (fieldName info f).space) &&
      fs.all (fun g => !(g.xmlKind == .elem && g.xml == f.xml))
  | .attr => plainName f.xml && simpleTy t && fs.all (fun g => !(g.xmlKind == .attr && g.xml == f.xml))
  | .chardata => simpleTy t && fs.all (fun g => g.xmlKind != .chardata)
  | .skip => true

mutual
/-- Types (of a field with or without `omitempty`) whose values can be read back. -/
def okTy : Bool → Ty → Bool
  | _, .ptr t => behindPtr t && okTy false t
  | om, .slice t => ((isStr t && om) || isPtr t) && okTy om t
  | _, .struct info ts => info.xmlName.isNone && okFields info info.fields ts
  | _, _ => true
/-- The same for fields. -/
def okFields (info : StructInfo) : List FieldInfo → List Ty → Bool
  | [], [] => true
  | f :: fs, t :: ts => okField info f t fs && okTy f.xmlOmit t && okFields info fs ts
  | _, _ => false
end

/-- A good node for a field of this name. -/
def GoodNode (n : XName) (k : XNode) : Prop :=
  ∃ as ks, k = mkElem n as ks ∧ as.all (fun a => plainName a.1) = true ∧ tidy k = true

/-- What a good node is to the decoder. -/
theorem GoodNode.resolve {n : XName} {k : XNode} (h : GoodNode n k) (hn : plainName n.loc = true)
    (hs : cleanText n.space = n.space) (ns : List (Text × Text)) :
    ∃ n' as' ks', Xml.resolve ns (cleanNode k) = .elem n' as' ks' ∧ n'.loc = n.loc ∧ matches_ n n' = true := by
  obtain ⟨as, ks, rfl, ha, -⟩ := h
  obtain ⟨n', ns', pre, e, h1, h2, -⟩ := resolve_mkElem hn hs ns as ha ks
  exact ⟨n', _, _, e, h1, h2⟩

/-! ### Character data -/

theorem simple_trip (G : FloatText) {t : Ty} (ht : simpleTy t = true) {v : Val} (hv : HasTy t v) (hp : v.TimesAll GoTime.Plain) :
    ∃ s, simpleText G v = .ok s ∧ fromText t (cleanText s) = .ok (soapTrip t v) := by
  have hnum : ∀ s : Text, (∀ c ∈ s, c.isDigit = true ∨ c = '+' ∨ c = '-' ∨ c = '.' ∨ c = 'e') →
      cleanText s = s ∧ (s ≠ [] → Ocppj.trimSpace s = s) := by
    intro s hs
    refine ⟨cleanText_id fun c hc => (numChar_facts (hs c hc)).2, fun hne => ?_⟩
    cases s with
    | nil => exact absurd rfl hne
    | cons c s => exact trimSpace_id fun x hx => (numChar_facts (hs x hx)).1
  cases t with
  | ptr t => simp [simpleTy] at ht
  | slice t => simp [simpleTy] at ht
  | struct i f => simp [simpleTy] at ht
  | str =>
    cases v <;> (try simp only [HasTy] at hv)
    rename_i s
    exact ⟨s, rfl, by simp [fromText, soapTrip]⟩
  | int b =>
    cases v <;> (try simp only [HasTy] at hv)
    rename_i n
    obtain ⟨h1, h2⟩ := hnum _ (intText_chars n)
    refine ⟨_, rfl, ?_⟩
    simp only [fromText]
    rw [h1, if_neg (intText_ne_nil n), h2 (intText_ne_nil n), parseInt_intText hv.1 hv.2]
    rfl
  | float =>
    cases v <;> (try simp only [HasTy] at hv)
    rename_i f
    cases f with
    | fin q =>
      have hq : IsF64 q := hv
      have hr := G.roundtrip q hq
      have hne : G.fmt q ≠ [] := by
        intro h0
        rw [h0, show parseFloat [] = none by decide] at hr
        cases hr
      obtain ⟨h1, h2⟩ := hnum _ (G.chars q)
      refine ⟨_, rfl, ?_⟩
      simp only [fromText]
      rw [h1, if_neg hne, h2 hne, hr]
      rfl
    | nan =>
      refine ⟨_, rfl, ?_⟩
      have h1 : parseFloat (Ocppj.trimSpace (cleanText "NaN".toList)) = some .nan := by decide +kernel
      simp only [fromText]
      rw [if_neg (by decide), h1]; rfl
    | inf b =>
      refine ⟨_, rfl, ?_⟩
      have h1 : parseFloat (Ocppj.trimSpace (cleanText (if b then "-Inf".toList else "+Inf".toList))) = some (.inf b) := by
        cases b <;> decide +kernel
      simp only [fromText]
      rw [if_neg (by cases b <;> decide), h1]; rfl
  | bool =>
    cases v <;> (try simp only [HasTy] at hv)
    rename_i b
    refine ⟨_, rfl, ?_⟩
    have h1 : parseBool (Ocppj.trimSpace (cleanText (if b then "true".toList else "false".toList))) = some b := by
      cases b <;> decide +kernel
    simp only [fromText]
    rw [if_neg (by cases b <;> decide), h1]; rfl
  | time =>
    cases v <;> (try simp only [HasTy] at hv)
    rename_i x
    have hpl : x.Plain := hp
    refine ⟨x.formatNano, ?_, ?_⟩
    · simp only [simpleText]; rw [if_pos ⟨hpl.1, hpl.2.1⟩]
    · simp only [fromText]
      rw [cleanText_id (GoTime.formatNano_chars x), GoTime.parse_formatNano hpl hv]
      rfl

/-- An empty simple value is the zero value. -/
theorem empty_zero {t : Ty} (ht : simpleTy t = true) {v : Val} (hv : HasTy t v) (he : Codec.isEmpty v = true) :
    soapTrip t v = zeroVal t := by
  cases t <;> simp [simpleTy] at ht <;> cases v <;> (try simp only [HasTy] at hv)
  case str.str s => simp [Codec.isEmpty] at he; subst he; rfl
  case int.int n => simp [Codec.isEmpty] at he; subst he; rfl
  case float.float f =>
    cases f <;> simp [Codec.isEmpty] at he
    subst he; rfl
  case bool.bool b => simp [Codec.isEmpty] at he; subst he; rfl
  case time.time t => simp [Codec.isEmpty] at he

theorem dataOf_txt (ns : List (Text × Text)) (s : Text) : dataOf (resolves ns (cleanNodes (txt s))) = cleanText s := by
  unfold txt
  split
  · subst s; rfl
  · simp [cleanNodes, cleanNode, resolves, resolve, dataOf]

theorem tidys_txt (s : Text) : tidys false (txt s) = true := by
  unfold txt
  split
  · rfl
  · rename_i h; simp [tidys, h]

theorem fromXml_simple {t : Ty} (ht : simpleTy t = true) (n : XName) (as : List (XName × Text)) (ks : List RNode) (v : Val) :
    fromXml t n as ks v = fromText t (dataOf ks) := by
  cases t <;> simp [simpleTy] at ht <;> rfl

theorem toXml_simple (G : FloatText) {t : Ty} (ht : simpleTy t = true) (n : XName) (om : Bool) (v : Val) :
    toXml G t n om v = if om = true ∧ Codec.isEmpty v = true then .ok []
    else (simpleText G v).bind fun s => .ok [mkElem n [] (txt s)] := by
  cases t <;> simp [simpleTy] at ht <;> rw [toXml] <;> simp

theorem mkElem_tidy {n : XName} (hn : plainName n.loc = true) {as : List (Text × Text)}
    (ha : as.all (fun a => plainName a.1) = true) {ks : List XNode} (hk : tidys false ks = true) : tidy (mkElem n as ks) = true := by
  unfold mkElem
  simp only [tidy, plainName.ok hn, hk, Bool.true_and, Bool.and_true, List.all_append, Bool.and_eq_true]
  constructor
  · split
    · rfl
    · simp only [List.all_cons, List.all_nil, Bool.and_true]; decide
  · rw [List.all_eq_true] at ha ⊢
    exact fun a h => plainName.ok (ha a h)

/-! ### All types -/

/-- What is shown of a type: the nodes, and reading them back. -/
structure Trip (G : FloatText) (t : Ty) (n : XName) (om : Bool) (v : Val) (ks : List XNode) : Prop where
  written : toXml G t n om v = .ok ks
  good : ∀ k ∈ ks, GoodNode n k
  back : ∀ ns, foldNodes (fromXml t) (resolves ns (cleanNodes ks)) (zeroVal t) = .ok (soapTrip t v)
  few : isSlice t = false → ks.length ≤ 1
  gone : (isStr t = true ∧ om = true) ∨ isPtr t = true → (ks = [] ↔ v.present = false)
  some : om = false → isSlice t = false → isPtr t = false → ks ≠ []

theorem trip_simple (G : FloatText) {t : Ty} (ht : simpleTy t = true) {n : XName} (hn : plainName n.loc = true)
    (hs : cleanText n.space = n.space) (om : Bool) {v : Val} (hv : HasTy t v) (hp : v.TimesAll GoTime.Plain) :
    ∃ ks, Trip G t n om v ks := by
  obtain ⟨s, h1, h2⟩ := simple_trip G ht hv hp
  have hsl : isSlice t = false := by cases t <;> simp_all [simpleTy, isSlice]
  have hptr : isPtr t = false := by cases t <;> simp_all [simpleTy, isPtr]
  by_cases he : om = true ∧ Codec.isEmpty v = true
  · refine ⟨[], ⟨?_, by simp, ?_, by simp, ?_, ?_⟩⟩
    · rw [toXml_simple G ht, if_pos he]
    · intro ns; simp only [cleanNodes, resolves, foldNodes]; rw [empty_zero ht hv he.2]
    · rintro (⟨hst, -⟩ | h)
      · cases t <;> simp [isStr] at hst
        cases v <;> (try simp only [HasTy] at hv)
        have := he.2
        simp [Codec.isEmpty] at this
        subst this
        simp [Val.present]
      · rw [hptr] at h; cases h
    · intro h; rw [h] at he; simp at he
  · refine ⟨[mkElem n [] (txt s)], ⟨?_, ?_, ?_, by simp, ?_, by simp⟩⟩
    · rw [toXml_simple G ht, if_neg he, h1]; rfl
    · intro k hk
      simp only [List.mem_singleton] at hk
      subst hk
      exact ⟨[], txt s, rfl, rfl, mkElem_tidy hn rfl (tidys_txt s)⟩
    · intro ns
      obtain ⟨n', ns', pre, e, -⟩ := resolve_mkElem hn hs ns [] rfl (txt s)
      simp only [cleanNodes, resolves, e, foldNodes, fromXml_simple ht, dataOf_txt, h2, GoRes.bind]
    · rintro (⟨hst, hom⟩ | h)
      · cases t <;> simp [isStr] at hst
        cases v <;> (try simp only [HasTy] at hv)
        rename_i s'
        have : s' ≠ [] := by
          rintro rfl
          exact he ⟨hom, rfl⟩
        cases s' with
        | nil => exact absurd rfl this
        | cons c s' => simp [Val.present]
      · rw [hptr] at h; cases h

/-! ### Structs -/

/-- The fields of some sorts are as after the trip, the others zero. -/
def stage (p : XmlKind → Bool) : List FieldInfo → List Ty → List Val → List Val
  | f :: fs, t :: ts, v :: vs => (if p f.xmlKind then soapTrip t v else zeroVal t) :: stage p fs ts vs
  | _, _, _ => []

theorem stage_none : ∀ (fs : List FieldInfo) (ts : List Ty) (vs : List Val), fs.length = ts.length → ts.length = vs.length →
    stage (fun _ => false) fs ts vs = zeroVals ts
  | [], [], [], _, _ => rfl
  | f :: fs, t :: ts, v :: vs, h1, h2 => by
    simp only [List.length_cons, Nat.add_right_cancel_iff] at h1 h2
    simp [stage, zeroVals, stage_none fs ts vs h1 h2]
  | [], _ :: _, _, h, _ => by simp at h
  | _ :: _, [], _, h, _ => by simp at h
  | _, [], _ :: _, _, h => by simp at h
  | _, _ :: _, [], _, h => by simp at h

theorem stage_noData : ∀ (fs : List FieldInfo) (ts : List Ty) (vs : List Val), (∀ f ∈ fs, f.xmlKind ≠ .chardata) →
    stage (fun k => k == .attr || k == .elem) fs ts vs = soapTrips fs ts vs
  | [], _, _, _ => by simp [stage, soapTrips]
  | _ :: _, [], _, _ => by simp [stage, soapTrips]
  | _ :: _, _ :: _, [], _ => by simp [stage, soapTrips]
  | f :: fs, t :: ts, v :: vs, h => by
    have h0 := h f (by simp)
    simp only [stage, soapTrips, stage_noData fs ts vs fun g hg => h g (by simp [hg])]
    congr 1
    cases hk : f.xmlKind <;> simp_all

/-- What is shown of the fields of a struct. -/
structure FieldsTrip (G : FloatText) (info : StructInfo) (fs : List FieldInfo) (ts : List Ty) (vs : List Val)
    (as : List (Text × Text)) (ks : List XNode) : Prop where
  attrs : joinAll ((fs.zip vs).map fun x => attrOf G x.1 x.2) = .ok as
  kids : joinAll ((fs.zip (vs.zip (toXmls G info fs ts vs))).map fun x => kidOf G x.1 x.2.1 x.2.2) = .ok ks
  attrNames : ∀ a ∈ as, ∃ f ∈ fs, f.xmlKind = .attr ∧ f.xml = a.1
  attrPlain : as.all (fun a => plainName a.1) = true
  notNs : ∀ f ∈ fs, f.xmlKind = .attr → f.xml ≠ "xmlns".toList
  kidNames : ∀ k ∈ ks, (∃ s, k = .text s ∧ ∃ f ∈ fs, f.xmlKind = .chardata) ∨
    ∃ f ∈ fs, f.xmlKind = .elem ∧ plainName f.xml = true ∧ cleanText (fieldName info f).space = (fieldName info f).space ∧
      GoodNode (fieldName info f) k
  tidy : tidys false ks = true
  backAttrs : attrsFold fs ts (resAttrs as) (zeroVals ts) = .ok (stage (· == .attr) fs ts vs)
  backKids : ∀ ns, kidsFold (fieldName info) fs (fromXmls ts) (resolves ns (cleanNodes ks)) (stage (· == .attr) fs ts vs) =
    .ok (stage (fun k => k == .attr || k == .elem) fs ts vs)
  backData : ∀ ns, setData (dataOf (resolves ns (cleanNodes ks))) fs ts (stage (fun k => k == .attr || k == .elem) fs ts vs) =
    .ok (soapTrips fs ts vs)

theorem elems_tidys {ks : List XNode} (h : ∀ k ∈ ks, ∃ n, GoodNode n k) (b : Bool) : tidys b ks = true := by
  induction ks generalizing b with
  | nil => rfl
  | cons k ks ih =>
    obtain ⟨n, as, cs, rfl, -, ht⟩ := h k (by simp)
    unfold mkElem at ht ⊢
    simp only [tidys, ht, Bool.true_and]
    exact ih (fun k hk => h k (by simp [hk])) false

theorem elems_tidys_append {ks ls : List XNode} (h : ∀ k ∈ ks, ∃ n, GoodNode n k) (hl : tidys false ls = true) :
    tidys false (ks ++ ls) = true := by
  induction ks with
  | nil => exact hl
  | cons k ks ih =>
    obtain ⟨n, as, cs, rfl, -, ht⟩ := h k (by simp)
    unfold mkElem at ht ⊢
    simp only [List.cons_append, tidys, ht, Bool.true_and]
    exact ih fun k hk => h k (by simp [hk])

theorem mem_resolved {ns : List (Text × Text)} {ks : List XNode} {r : RNode} (h : r ∈ resolves ns (cleanNodes ks)) :
    ∃ k ∈ ks, r = resolve ns (cleanNode k) := by
  rw [resolves_eq_map, cleanNodes_eq_map] at h
  simp only [List.map_map, List.mem_map, Function.comp] at h
  obtain ⟨k, hk, rfl⟩ := h
  exact ⟨k, hk, rfl⟩

theorem dataOf_elems {rs : List RNode} (h : ∀ r ∈ rs, ∃ n as cs, r = .elem n as cs) : dataOf rs = [] := by
  induction rs with
  | nil => rfl
  | cons r rs ih =>
    obtain ⟨n, as, cs, rfl⟩ := h r (by simp)
    simp only [dataOf]
    exact ih fun r hr => h r (by simp [hr])

theorem joinAll_cons {α : Type} {x : GoRes (List α)} {xs : List (GoRes (List α))} {a b : List α} (hx : x = .ok a)
    (hxs : joinAll xs = .ok b) : joinAll (x :: xs) = .ok (a ++ b) := by
  rw [joinAll, hx]; simp only [GoRes.bind, hxs]

theorem resAttrs_mem {as : List (Text × Text)} {a : XName × Text} (h : a ∈ resAttrs as) : ∃ b ∈ as, a.1.loc = b.1 := by
  simp only [resAttrs, List.mem_map] at h
  obtain ⟨b, hb, rfl⟩ := h
  exact ⟨b, hb, rfl⟩

/-- A kid of the later fields is not for the first one. -/
theorem later_kid {G : FloatText} {info : StructInfo} {fs : List FieldInfo} {ts : List Ty} {vs : List Val}
    {as : List (Text × Text)} {ks : List XNode} (ih : FieldsTrip G info fs ts vs as ks) {f : FieldInfo}
    (hf : f.xmlKind = .elem → ∀ g ∈ fs, g.xmlKind = .elem → g.xml ≠ f.xml) (ns : List (Text × Text)) :
    ∀ n as cs, RNode.elem n as cs ∈ resolves ns (cleanNodes ks) →
      (f.xmlKind == .elem && matches_ (fieldName info f) n) = false := by
  intro n as cs hm
  obtain ⟨k, hk, e⟩ := mem_resolved hm
  by_cases hfe : f.xmlKind = .elem
  · rcases ih.kidNames k hk with ⟨s, rfl, -⟩ | ⟨g, hg, hge, hgp, hgs, hgood⟩
    · simp [cleanNode, resolve] at e
    · obtain ⟨n', as', ks', e', hl, -⟩ := hgood.resolve hgp hgs ns
      rw [e'] at e
      cases e
      have := hf hfe g hg hge
      have h2 : (fieldName info f).loc ≠ n.loc := by
        rw [hl]
        exact fun x => this x.symm
      simp [matches_, h2]
  · simp [hfe]

theorem not_text {G : FloatText} {info : StructInfo} {fs : List FieldInfo} {ts : List Ty} {vs : List Val}
    {as : List (Text × Text)} {ks : List XNode} (ih : FieldsTrip G info fs ts vs as ks)
    (h : ∀ f ∈ fs, f.xmlKind ≠ .chardata) : ∀ k ∈ ks, ∃ n, GoodNode n k ∧ plainName n.loc = true ∧ cleanText n.space = n.space := by
  intro k hk
  rcases ih.kidNames k hk with ⟨s, -, g, hg, hgk⟩ | ⟨g, hg, -, hgp, hgs, hgood⟩
  · exact absurd hgk (h g hg)
  · exact ⟨_, hgood, hgp, hgs⟩

theorem resolved_elems {ks : List XNode} (h : ∀ k ∈ ks, ∃ n, GoodNode n k ∧ plainName n.loc = true ∧ cleanText n.space = n.space)
    (ns : List (Text × Text)) : ∀ r ∈ resolves ns (cleanNodes ks), ∃ n as cs, r = .elem n as cs := by
  intro r hr
  obtain ⟨k, hk, rfl⟩ := mem_resolved hr
  obtain ⟨n, hg, h1, h2⟩ := h k hk
  obtain ⟨n', as', ks', e, -⟩ := hg.resolve h1 h2 ns
  exact ⟨_, _, _, e⟩

/-- A struct's own element. -/
theorem FieldsTrip.struct {G : FloatText} {info : StructInfo} {ts : List Ty} {vs : List Val} {as : List (Text × Text)}
    {ks : List XNode} (h : FieldsTrip G info info.fields ts vs as ks) {n : XName} (hn : plainName n.loc = true)
    (hs : cleanText n.space = n.space) (ns : List (Text × Text)) :
    ∃ n' as' cs', resolve ns (cleanNode (mkElem n as ks)) = .elem n' as' cs' ∧ n'.loc = n.loc ∧ matches_ n n' = true ∧
      (checkName info n' = .ok () → fromXml (.struct info ts) n' as' cs' (zeroVal (.struct info ts)) =
        .ok (soapTrip (.struct info ts) (.struct vs))) := by
  obtain ⟨n', ns', pre, e, h1, h2, h3⟩ := resolve_mkElem hn hs ns as h.attrPlain ks
  refine ⟨n', _, _, e, h1, h2, fun hc => ?_⟩
  have hz : zeroVal (.struct info ts) = .struct (zeroVals ts) := rfl
  have hpre : attrsFold info.fields ts pre (zeroVals ts) = .ok (zeroVals ts) := by
    refine attrsFold_other (fun a ha f hf hk => ?_) _ _
    rw [h3 a ha]
    exact h.notNs f hf hk
  rw [fromXml, hz]
  simp only [hc, GoRes.bind, Codec.fieldsOf, setAttrs_eq, setKids_eq]
  rw [attrsFold_append, hpre]
  simp only [GoRes.bind]
  rw [h.backAttrs]
  simp only [GoRes.bind]
  rw [h.backKids]
  simp only [GoRes.bind]
  rw [h.backData]
  simp only [GoRes.bind, soapTrip]

theorem timesAlls_mem {P : GoTime → Prop} {vs : List Val} (h : Val.TimesAlls P vs) : ∀ v ∈ vs, v.TimesAll P := by
  induction vs with
  | nil => simp
  | cons v vs ih =>
    intro x hx
    rcases List.mem_cons.1 hx with rfl | hx
    · exact h.1
    · exact ih h.2 x hx

theorem fromXml_slice {t : Ty} {n : XName} {as : List (XName × Text)} {ks : List RNode} {x : Val}
    (h : fromXml t n as ks (zeroVal t) = .ok x) (acc : List Val) :
    fromXml (.slice t) n as ks (listOf acc) = .ok (listOf (acc ++ [x])) := by
  rw [fromXml]
  simp only [h, GoRes.bind]
  cases acc <;> simp [listOf]

/-- Reading the entries of a list. -/
theorem slice_back {t : Ty} {n : XName} (hn : plainName n.loc = true) (hs : cleanText n.space = n.space) {G : FloatText} {om : Bool}
    (hkind : (isStr t = true ∧ om = true) ∨ isPtr t = true) :
    ∀ vs : List Val, (∀ v ∈ vs, ∃ ks, Trip G t n om v ks) →
      ∃ ks, joinAll (vs.map (toXml G t n om)) = .ok ks ∧ (∀ k ∈ ks, GoodNode n k) ∧
        ∀ ns acc, foldNodes (fromXml (.slice t)) (resolves ns (cleanNodes ks)) (listOf acc) =
          .ok (listOf (acc ++ (vs.filter Val.present).map (soapTrip t)))
  | [], _ => ⟨[], rfl, by simp, by simp [cleanNodes, resolves, foldNodes]⟩
  | v :: vs, h => by
    obtain ⟨ls, h1, h2, h3⟩ := slice_back hn hs hkind vs fun v hv => h v (by simp [hv])
    obtain ⟨ks, hk⟩ := h v (by simp)
    have hsl : isSlice t = false := by cases t <;> simp_all [isStr, isPtr, isSlice]
    have hfew := hk.few hsl
    have hgone := hk.gone hkind
    refine ⟨ks ++ ls, ?_, ?_, ?_⟩
    · rw [List.map_cons]; exact joinAll_cons hk.written h1
    · intro k hm
      rcases List.mem_append.1 hm with hm | hm
      · exact hk.good k hm
      · exact h2 k hm
    · intro ns acc
      match ks, hk, hfew, hgone with
      | [], hk, _, hgone =>
        rw [List.nil_append, h3, List.filter_cons, if_neg (by rw [hgone.1 rfl]; simp)]
      | [k], hk, _, hgone =>
        have hp : v.present = true := by
          cases hv : v.present with
          | true => rfl
          | false => exact absurd (hgone.2 hv) (by simp)
        obtain ⟨n', as', ks', e, -, -⟩ := (hk.good k (by simp)).resolve hn hs ns
        have hb := hk.back ns
        simp only [cleanNodes, resolves, e, foldNodes] at hb
        have hb' : fromXml t n' as' ks' (zeroVal t) = .ok (soapTrip t v) := by
          cases hx : fromXml t n' as' ks' (zeroVal t) <;> rw [hx] at hb <;> simp_all [GoRes.bind]
        simp only [List.singleton_append, cleanNodes, resolves, e, foldNodes]
        rw [fromXml_slice hb' acc]
        simp only [GoRes.bind]
        rw [h3, List.filter_cons, if_pos hp]
        simp
      | _ :: _ :: _, _, hfew, _ => simp at hfew

mutual
/-- Values of good types are read back. -/
theorem trip_ty (G : FloatText) (t : Ty) (om : Bool) (ht : okTy om t = true) (n : XName) (hn : plainName n.loc = true)
    (hs : cleanText n.space = n.space) (v : Val) (hv : HasTy t v) (hp : v.TimesAll GoTime.Plain) : ∃ ks, Trip G t n om v ks := by
  match t with
  | .str => exact trip_simple G rfl hn hs om hv hp
  | .int b => exact trip_simple G rfl hn hs om hv hp
  | .float => exact trip_simple G rfl hn hs om hv hp
  | .bool => exact trip_simple G rfl hn hs om hv hp
  | .time => exact trip_simple G rfl hn hs om hv hp
  | .ptr t =>
    simp only [okTy, Bool.and_eq_true] at ht
    match v with
    | .nil =>
      refine ⟨[], ⟨by simp [toXml], by simp, ?_, by simp, by simp [Val.present], by simp [isPtr]⟩⟩
      intro ns
      simp [cleanNodes, resolves, foldNodes, zeroVal, soapTrip]
    | .ptr v =>
      obtain ⟨ks, hk⟩ := trip_ty G t false ht.2 n hn hs v hv hp
      have hsl : isSlice t = false := by cases t <;> simp_all [behindPtr, isSlice]
      have hptr : isPtr t = false := by cases t <;> simp_all [behindPtr, isPtr]
      have hne := hk.some rfl hsl hptr
      have hfew := hk.few hsl
      match ks, hk, hne, hfew with
      | [], _, hne, _ => exact absurd rfl hne
      | [k], hk, _, _ =>
        refine ⟨[k], ⟨?_, hk.good, ?_, by simp, by simp [Val.present], by simp⟩⟩
        · rw [toXml]; exact hk.written
        · intro ns
          obtain ⟨n', as', ks', e, -, -⟩ := (hk.good k (by simp)).resolve hn hs ns
          have hb := hk.back ns
          simp only [cleanNodes, resolves, e, foldNodes] at hb
          have hb' : fromXml t n' as' ks' (zeroVal t) = .ok (soapTrip t v) := by
            cases hx : fromXml t n' as' ks' (zeroVal t) <;> rw [hx] at hb <;> simp_all [GoRes.bind]
          simp only [cleanNodes, resolves, e, foldNodes, fromXml, zeroVal, hb', GoRes.bind, soapTrip]
      | _ :: _ :: _, _, _, hfew => simp at hfew
    | .str _ => exact absurd hv (by simp [HasTy])
    | .int _ => exact absurd hv (by simp [HasTy])
    | .float _ => exact absurd hv (by simp [HasTy])
    | .bool _ => exact absurd hv (by simp [HasTy])
    | .time _ => exact absurd hv (by simp [HasTy])
    | .slice _ => exact absurd hv (by simp [HasTy])
    | .struct _ => exact absurd hv (by simp [HasTy])
  | .slice t =>
    simp only [okTy, Bool.and_eq_true] at ht
    match v with
    | .nil =>
      refine ⟨[], ⟨by simp [toXml], by simp, ?_, by simp, by simp [Val.present, isStr, isPtr], by simp [isSlice]⟩⟩
      intro ns
      simp [cleanNodes, resolves, foldNodes, zeroVal, soapTrip]
    | .slice vs =>
      have hkind : (isStr t = true ∧ om = true) ∨ isPtr t = true := by
        have := ht.1
        simp only [Bool.or_eq_true, Bool.and_eq_true] at this
        exact this
      have hv' : ∀ v ∈ vs, HasTy t v := hv
      obtain ⟨ks, h1, h2, h3⟩ := slice_back (om := om) (G := G) hn hs hkind vs
        fun v hm => trip_ty G t om ht.2 n hn hs v (hv' v hm) (timesAlls_mem hp v hm)
      refine ⟨ks, ⟨by rw [toXml]; exact h1, h2, fun ns => ?_, by simp [isSlice], by simp [isStr, isPtr], by simp [isSlice]⟩⟩
      have := h3 ns []
      simp only [listOf, List.nil_append] at this
      rw [zeroVal, soapTrip]
      exact this
    | .ptr _ => exact absurd hv (by simp [HasTy])
    | .str _ => exact absurd hv (by simp [HasTy])
    | .int _ => exact absurd hv (by simp [HasTy])
    | .float _ => exact absurd hv (by simp [HasTy])
    | .bool _ => exact absurd hv (by simp [HasTy])
    | .time _ => exact absurd hv (by simp [HasTy])
    | .struct _ => exact absurd hv (by simp [HasTy])
  | .struct info ts =>
    simp only [okTy, Bool.and_eq_true, Option.isNone_iff_eq_none] at ht
    match v with
    | .struct vs =>
      obtain ⟨as, ks, h⟩ := fields_trip G info info.fields ts ht.2 vs hv hp
      refine ⟨[mkElem n as ks], ⟨?_, ?_, ?_, by simp, by simp [isStr, isPtr], by simp⟩⟩
      · rw [toXml, attrsOf, h.attrs]
        simp only [GoRes.bind]
        rw [kidsOf, h.kids]
        simp only [GoRes.bind, ht.1]
      · intro k hk
        simp only [List.mem_singleton] at hk
        subst hk
        exact ⟨as, ks, rfl, h.attrPlain, mkElem_tidy hn h.attrPlain h.tidy⟩
      · intro ns
        obtain ⟨n', as', cs', e, -, -, hb⟩ := h.struct hn hs ns
        simp only [cleanNodes, resolves, e, foldNodes]
        rw [hb (by simp [checkName, ht.1])]
        rfl
    | .nil => exact absurd hv (by simp [HasTy])
    | .slice _ => exact absurd hv (by simp [HasTy])
    | .ptr _ => exact absurd hv (by simp [HasTy])
    | .str _ => exact absurd hv (by simp [HasTy])
    | .int _ => exact absurd hv (by simp [HasTy])
    | .float _ => exact absurd hv (by simp [HasTy])
    | .bool _ => exact absurd hv (by simp [HasTy])
    | .time _ => exact absurd hv (by simp [HasTy])
/-- The same for the fields of a struct. -/
theorem fields_trip (G : FloatText) (info : StructInfo) (fs : List FieldInfo) (ts : List Ty) (hok : okFields info fs ts = true)
    (vs : List Val) (hv : HasTys ts vs) (hp : Val.TimesAlls GoTime.Plain vs) : ∃ as ks, FieldsTrip G info fs ts vs as ks := by
  match ts, fs, vs with
  | [], [], [] =>
    exact ⟨[], [], ⟨rfl, rfl, by simp, rfl, by simp, by simp, rfl, rfl, fun _ => rfl, fun _ => by simp [setData, soapTrips, stage]⟩⟩
  | t :: ts, f :: fs, v :: vs =>
    simp only [okFields, Bool.and_eq_true] at hok
    obtain ⟨⟨hf, ht⟩, hfs⟩ := hok
    obtain ⟨as, ks, ih⟩ := fields_trip G info fs ts hfs vs hv.2 hp.2
    cases hk : f.xmlKind with
    | elem =>
      simp only [okField, hk, Bool.and_eq_true, decide_eq_true_eq, List.all_eq_true, Bool.not_eq_true', Bool.and_eq_false_imp,
        beq_iff_eq, beq_eq_false_iff_ne] at hf
      obtain ⟨⟨hpl, hcl⟩, hdis⟩ := hf
      obtain ⟨own, hown⟩ := trip_ty G t f.xmlOmit ht (fieldName info f) hpl hcl v hv.1 hp.1
      refine ⟨as, own ++ ks, ⟨?_, ?_, ?_, ih.attrPlain, ?_, ?_, ?_, ?_, ?_, ?_⟩⟩
      · rw [List.zip_cons_cons, List.map_cons]
        exact joinAll_cons (a := []) (by simp [attrOf, hk]) ih.attrs
      · rw [toXmls, List.zip_cons_cons, List.zip_cons_cons, List.map_cons]
        exact joinAll_cons (by simp only [kidOf, hk]; exact hown.written) ih.kids
      · intro a ha
        obtain ⟨g, hg, x⟩ := ih.attrNames a ha
        exact ⟨g, by simp [hg], x⟩
      · intro g hg hgk
        rcases List.mem_cons.1 hg with rfl | hg
        · rw [hk] at hgk; cases hgk
        · exact ih.notNs g hg hgk
      · intro k hm
        rcases List.mem_append.1 hm with hm | hm
        · exact Or.inr ⟨f, by simp, hk, hpl, hcl, hown.good k hm⟩
        · rcases ih.kidNames k hm with ⟨s, e, g, hg, x⟩ | ⟨g, hg, x⟩
          · exact Or.inl ⟨s, e, g, by simp [hg], x⟩
          · exact Or.inr ⟨g, by simp [hg], x⟩
      · exact elems_tidys_append (fun k hm => ⟨_, hown.good k hm⟩) ih.tidy
      · rw [zeroVals, attrsFold_tail (by simp [hk]), ih.backAttrs]
        simp [stage, hk]
      · intro ns
        rw [cleanNodes_append, resolves_append, fromXmls, stage, hk]
        simp only [show (XmlKind.elem == XmlKind.attr) = false from rfl, Bool.false_eq_true, if_false]
        rw [kidsFold_head]
        · rw [hown.back ns]
          simp only [GoRes.bind]
          rw [kidsFold_tail _ (later_kid ih (fun _ g hg hgk => hdis g hg hgk) ns), ih.backKids]
          simp [stage, hk]
        · intro r hr
          obtain ⟨k, hm, rfl⟩ := mem_resolved hr
          obtain ⟨n', as', ks', e, -, hmt⟩ := (hown.good k hm).resolve hpl hcl ns
          exact ⟨_, _, _, e, by simp [hk, hmt]⟩
      · intro ns
        rw [cleanNodes_append, resolves_append, dataOf_append, stage, setData, if_neg (by rw [hk]; simp), hk,
          dataOf_elems (resolved_elems (fun k hm => ⟨_, hown.good k hm, hpl, hcl⟩) ns), List.nil_append, ih.backData]
        simp [soapTrips, hk]
    | attr =>
      simp only [okField, hk, Bool.and_eq_true, List.all_eq_true, Bool.not_eq_true', Bool.and_eq_false_imp,
        beq_iff_eq, beq_eq_false_iff_ne] at hf
      obtain ⟨⟨hpl, hst⟩, hdis⟩ := hf
      obtain ⟨s, h1, h2⟩ := simple_trip G hst hv.1 hp.1
      have hown : ∃ own : List (Text × Text), attrOf G f v = .ok own ∧
          (own = [(f.xml, s)] ∨ own = [] ∧ soapTrip t v = zeroVal t) := by
        by_cases he : f.xmlOmit = true ∧ Codec.isEmpty v = true
        · exact ⟨[], by rw [attrOf, if_neg fun x => x.2 he], Or.inr ⟨rfl, empty_zero hst hv.1 he.2⟩⟩
        · exact ⟨[(f.xml, s)], by rw [attrOf, if_pos ⟨hk, he⟩, h1]; rfl, Or.inl rfl⟩
      obtain ⟨own, ho1, ho2⟩ := hown
      have hlater : ∀ a ∈ resAttrs as, f.xmlKind = .attr → f.xml ≠ a.1.loc := by
        intro a ha _
        obtain ⟨b, hb, e⟩ := resAttrs_mem ha
        obtain ⟨g, hg, hgk, hgx⟩ := ih.attrNames b hb
        rw [e, ← hgx]
        exact fun x => hdis g hg hgk x.symm
      have hhead : attrsFold (f :: fs) (t :: ts) (resAttrs own) (zeroVals (t :: ts)) = .ok (soapTrip t v :: zeroVals ts) := by
        rcases ho2 with rfl | ⟨rfl, he⟩
        · simp only [resAttrs, List.map_cons, List.map_nil, attrsFold, setAttr, zeroVals]
          rw [if_pos (by simp [hk]), h2]
          simp only [GoRes.bind]
          rw [setAttr_other fun g hg hgk => hdis g hg hgk]
        · simp only [resAttrs, List.map_nil, attrsFold, zeroVals, he]
      refine ⟨own ++ as, ks, ⟨?_, ?_, ?_, ?_, ?_, ?_, ih.tidy, ?_, ?_, ?_⟩⟩
      · rw [List.zip_cons_cons, List.map_cons]
        exact joinAll_cons ho1 ih.attrs
      · rw [toXmls, List.zip_cons_cons, List.zip_cons_cons, List.map_cons]
        exact joinAll_cons (a := []) (by simp only [kidOf, hk]) ih.kids
      · intro a ha
        rcases List.mem_append.1 ha with ha | ha
        · rcases ho2 with rfl | ⟨rfl, -⟩
          · simp only [List.mem_singleton] at ha; subst ha; exact ⟨f, by simp, hk, rfl⟩
          · cases ha
        · obtain ⟨g, hg, x⟩ := ih.attrNames a ha
          exact ⟨g, by simp [hg], x⟩
      · rw [List.all_append, ih.attrPlain, Bool.and_true]
        rcases ho2 with rfl | ⟨rfl, -⟩ <;> simp [hpl]
      · intro g hg hgk
        rcases List.mem_cons.1 hg with rfl | hg
        · exact plainName.ne hpl
        · exact ih.notNs g hg hgk
      · intro k hm
        rcases ih.kidNames k hm with ⟨s, e, g, hg, x⟩ | ⟨g, hg, x⟩
        · exact Or.inl ⟨s, e, g, by simp [hg], x⟩
        · exact Or.inr ⟨g, by simp [hg], x⟩
      · rw [show resAttrs (own ++ as) = resAttrs own ++ resAttrs as by simp [resAttrs], attrsFold_append, hhead]
        simp only [GoRes.bind]
        rw [attrsFold_tail hlater, ih.backAttrs]
        simp [stage, hk]
      · intro ns
        rw [fromXmls, stage, kidsFold_tail _ (by simp [hk]), ih.backKids]
        simp [stage, hk]
      · intro ns
        rw [stage, setData, if_neg (by rw [hk]; simp), ih.backData]
        simp [soapTrips, hk]
    | chardata =>
      simp only [okField, hk, Bool.and_eq_true, List.all_eq_true, bne_iff_ne] at hf
      obtain ⟨hst, hdis⟩ := hf
      obtain ⟨s, h1, h2⟩ := simple_trip G hst hv.1 hp.1
      have hels := not_text ih hdis
      refine ⟨as, txt s ++ ks, ⟨?_, ?_, ?_, ih.attrPlain, ?_, ?_, ?_, ?_, ?_, ?_⟩⟩
      · rw [List.zip_cons_cons, List.map_cons]
        exact joinAll_cons (a := []) (by simp [attrOf, hk]) ih.attrs
      · rw [toXmls, List.zip_cons_cons, List.zip_cons_cons, List.map_cons]
        exact joinAll_cons (by simp only [kidOf, hk, h1]; rfl) ih.kids
      · intro a ha
        obtain ⟨g, hg, x⟩ := ih.attrNames a ha
        exact ⟨g, by simp [hg], x⟩
      · intro g hg hgk
        rcases List.mem_cons.1 hg with rfl | hg
        · rw [hk] at hgk; cases hgk
        · exact ih.notNs g hg hgk
      · intro k hm
        rcases List.mem_append.1 hm with hm | hm
        · unfold txt at hm
          split at hm
          · cases hm
          · simp only [List.mem_singleton] at hm
            exact Or.inl ⟨s, hm, f, by simp, hk⟩
        · rcases ih.kidNames k hm with ⟨s, e, g, hg, x⟩ | ⟨g, hg, x⟩
          · exact Or.inl ⟨s, e, g, by simp [hg], x⟩
          · exact Or.inr ⟨g, by simp [hg], x⟩
      · unfold txt
        split
        · exact ih.tidy
        · rename_i hne
          simp only [List.singleton_append, tidys, Bool.not_false, Bool.true_and, Bool.and_eq_true, Bool.not_eq_true',
            List.isEmpty_eq_false_iff]
          exact ⟨hne, elems_tidys (fun k hm => let ⟨n, h, _⟩ := hels k hm; ⟨n, h⟩) true⟩
      · rw [zeroVals, attrsFold_tail (by simp [hk]), ih.backAttrs]
        simp [stage, hk]
      · intro ns
        have htxt : ∀ vs, kidsFold (fieldName info) (f :: fs) (fromXmls (t :: ts)) (resolves ns (cleanNodes (txt s)) ++
            resolves ns (cleanNodes ks)) vs = kidsFold (fieldName info) (f :: fs) (fromXmls (t :: ts)) (resolves ns (cleanNodes ks)) vs := by
          intro vs
          unfold txt
          split
          · rfl
          · simp [cleanNodes, cleanNode, resolves, resolve, kidsFold]
        rw [cleanNodes_append, resolves_append, htxt, fromXmls, stage, kidsFold_tail _ (by simp [hk]), ih.backKids]
        simp [stage, hk]
      · intro ns
        rw [cleanNodes_append, resolves_append, dataOf_append, dataOf_txt, dataOf_elems (resolved_elems hels ns), List.append_nil, stage,
          setData, if_pos hk, h2]
        simp only [GoRes.bind]
        rw [stage_noData _ _ _ hdis]
        simp [soapTrips, hk]
    | skip =>
      refine ⟨as, ks, ⟨?_, ?_, ?_, ih.attrPlain, ?_, ?_, ih.tidy, ?_, ?_, ?_⟩⟩
      · rw [List.zip_cons_cons, List.map_cons]
        exact joinAll_cons (a := []) (by simp [attrOf, hk]) ih.attrs
      · rw [toXmls, List.zip_cons_cons, List.zip_cons_cons, List.map_cons]
        exact joinAll_cons (a := []) (by simp only [kidOf, hk]) ih.kids
      · intro a ha
        obtain ⟨g, hg, x⟩ := ih.attrNames a ha
        exact ⟨g, by simp [hg], x⟩
      · intro g hg hgk
        rcases List.mem_cons.1 hg with rfl | hg
        · rw [hk] at hgk; cases hgk
        · exact ih.notNs g hg hgk
      · intro k hm
        rcases ih.kidNames k hm with ⟨s, e, g, hg, x⟩ | ⟨g, hg, x⟩
        · exact Or.inl ⟨s, e, g, by simp [hg], x⟩
        · exact Or.inr ⟨g, by simp [hg], x⟩
      · rw [zeroVals, attrsFold_tail (by simp [hk]), ih.backAttrs]
        simp [stage, hk]
      · intro ns
        rw [fromXmls, stage, kidsFold_tail _ (by simp [hk]), ih.backKids]
        simp [stage, hk]
      · intro ns
        rw [stage, setData, if_neg (by rw [hk]; simp), ih.backData]
        simp [soapTrips, hk]
  | [], _ :: _, _ => simp [okFields] at hok
  | _ :: _, [], _ => simp [okFields] at hok
  | [], _, _ :: _ => exact absurd hv (by simp [HasTys])
  | _ :: _, _, [] => exact absurd hv (by simp [HasTys])
end

end Verif.Xml
