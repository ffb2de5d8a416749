import Verif.Lemmas.Soap
/-!
# SOAP: nothing panics in the codec
-/
set_option linter.unusedSimpArgs false
namespace Verif.Xml
open Json

/-! ### Writing -/

theorem joinAll_noPanic {α : Type} : ∀ {xs : List (GoRes (List α))}, (∀ x ∈ xs, x.isPanic = false) → (joinAll xs).isPanic = false
  | [], _ => rfl
  | x :: xs, h => by
    have h1 := h x (by simp)
    have h2 := joinAll_noPanic (xs := xs) fun y hy => h y (by simp [hy])
    unfold joinAll
    cases x with
    | ok a => cases hj : joinAll xs <;> rw [hj] at h2 <;> simp_all [GoRes.isPanic, GoRes.bind]
    | err m => rfl
    | panic m => cases h1

theorem bind_noPanic {α β : Type} {x : GoRes α} {f : α → GoRes β} (h : x.isPanic = false) (hf : ∀ a, (f a).isPanic = false) :
    (x.bind f).isPanic = false := by
  cases x with
  | ok a => exact hf a
  | err m => rfl
  | panic m => cases h

theorem simpleText_noPanic (G : FloatText) {t : Ty} (ht : simpleTy t = true) {v : Val} (hv : HasTy t v) :
    (simpleText G v).isPanic = false := by
  cases t <;> simp [simpleTy] at ht <;> cases v <;> (try simp only [HasTy] at hv)
  case float.float f => cases f <;> rfl
  case time.time x =>
    rw [simpleText]
    split <;> rfl
  all_goals rfl

mutual
theorem toXml_noPanic (G : FloatText) (t : Ty) (om : Bool) (ht : okTy om t = true) (n : XName) (v : Val) (hv : HasTy t v) :
    (toXml G t n om v).isPanic = false := by
  have simp_case : simpleTy t = true → (toXml G t n om v).isPanic = false := by
    intro hs
    rw [toXml_simple G hs]
    split
    · rfl
    · exact bind_noPanic (simpleText_noPanic G hs hv) fun _ => rfl
  match t with
  | .str => exact simp_case rfl
  | .int b => exact simp_case rfl
  | .float => exact simp_case rfl
  | .bool => exact simp_case rfl
  | .time => exact simp_case rfl
  | .ptr t =>
    simp only [okTy, Bool.and_eq_true] at ht
    match v with
    | .nil => rw [toXml]; rfl
    | .ptr v => rw [toXml]; exact toXml_noPanic G t false ht.2 n v hv
    | .str _ => exact absurd hv (by simp [HasTy])
    | .int _ => exact absurd hv (by simp [HasTy])
    | .float _ => exact absurd hv (by simp [HasTy])
    | .bool _ => exact absurd hv (by simp [HasTy])
    | .time _ => exact absurd hv (by simp [HasTy])
    | .slice _ => exact absurd hv (by simp [HasTy])
    | .struct _ => exact absurd hv (by simp [HasTy])
  | .slice t =>
    simp only [okTy, Bool.and_eq_true] at ht
    match v with
    | .nil => rw [toXml]; rfl
    | .slice vs =>
      have hv' : ∀ v ∈ vs, HasTy t v := hv
      rw [toXml]
      apply joinAll_noPanic
      intro x hx
      obtain ⟨v, hm, rfl⟩ := List.mem_map.1 hx
      exact toXml_noPanic G t om ht.2 n v (hv' v hm)
    | .ptr _ => exact absurd hv (by simp [HasTy])
    | .str _ => exact absurd hv (by simp [HasTy])
    | .int _ => exact absurd hv (by simp [HasTy])
    | .float _ => exact absurd hv (by simp [HasTy])
    | .bool _ => exact absurd hv (by simp [HasTy])
    | .time _ => exact absurd hv (by simp [HasTy])
    | .struct _ => exact absurd hv (by simp [HasTy])
  | .struct info ts =>
    simp only [okTy, Bool.and_eq_true, Option.isNone_iff_eq_none] at ht
    match v with
    | .struct vs =>
      obtain ⟨h1, h2⟩ := toXmls_noPanic G info info.fields ts ht.2 vs hv
      rw [toXml]
      exact bind_noPanic h1 fun _ => bind_noPanic h2 fun _ => rfl
    | .nil => exact absurd hv (by simp [HasTy])
    | .slice _ => exact absurd hv (by simp [HasTy])
    | .ptr _ => exact absurd hv (by simp [HasTy])
    | .str _ => exact absurd hv (by simp [HasTy])
    | .int _ => exact absurd hv (by simp [HasTy])
    | .float _ => exact absurd hv (by simp [HasTy])
    | .bool _ => exact absurd hv (by simp [HasTy])
    | .time _ => exact absurd hv (by simp [HasTy])
theorem toXmls_noPanic (G : FloatText) (info : StructInfo) (fs : List FieldInfo) (ts : List Ty) (hok : okFields info fs ts = true)
    (vs : List Val) (hv : HasTys ts vs) :
    (joinAll ((fs.zip vs).map fun x => attrOf G x.1 x.2)).isPanic = false ∧
    (joinAll ((fs.zip (vs.zip (toXmls G info fs ts vs))).map fun x => kidOf G x.1 x.2.1 x.2.2)).isPanic = false := by
  match ts, fs, vs with
  | [], [], [] => exact ⟨rfl, rfl⟩
  | t :: ts, f :: fs, v :: vs =>
    simp only [okFields, Bool.and_eq_true] at hok
    obtain ⟨⟨hf, ht⟩, hfs⟩ := hok
    obtain ⟨h1, h2⟩ := toXmls_noPanic G info fs ts hfs vs hv.2
    have h0 := toXml_noPanic G t f.xmlOmit ht (fieldName info f) v hv.1
    constructor
    · rw [List.zip_cons_cons, List.map_cons, joinAll]
      refine bind_noPanic ?_ fun _ => bind_noPanic h1 fun _ => rfl
      unfold attrOf
      split
      · rename_i hk
        have hk1 : f.xmlKind = .attr := hk.1
        simp only [okField, hk1, Bool.and_eq_true] at hf
        exact bind_noPanic (simpleText_noPanic G hf.1.2 hv.1) fun _ => rfl
      · rfl
    · rw [toXmls, List.zip_cons_cons, List.zip_cons_cons, List.map_cons, joinAll]
      refine bind_noPanic ?_ fun _ => bind_noPanic h2 fun _ => rfl
      unfold kidOf
      cases hk : f.xmlKind with
      | elem => exact h0
      | chardata =>
        simp only [okField, hk, Bool.and_eq_true] at hf
        exact bind_noPanic (simpleText_noPanic G hf.1 hv.1) fun _ => rfl
      | attr => rfl
      | skip => rfl
  | [], _ :: _, _ => simp [okFields] at hok
  | _ :: _, [], _ => simp [okFields] at hok
  | [], _, _ :: _ => exact absurd hv (by simp [HasTys])
  | _ :: _, _, [] => exact absurd hv (by simp [HasTys])
end

/-! ### Reading -/

mutual
/-- As many types as fields. -/
def wfTy : Ty → Bool
  | .ptr t => wfTy t
  | .slice t => wfTy t
  | .struct info ts => (info.fields.length == ts.length) && wfTys ts
  | _ => true
/-- The same for a list. -/
def wfTys : List Ty → Bool
  | [] => true
  | t :: ts => wfTy t && wfTys ts
end

theorem fromText_noPanic (t : Ty) (s : Text) : (fromText t s).isPanic = false := by
  cases t <;> simp only [fromText] <;> (try split) <;> (try split) <;> rfl

theorem setAttr_noPanic (n : XName) (s : Text) : ∀ fs ts vs, (setAttr n s fs ts vs).isPanic = false
  | [], ts, vs => by cases ts <;> cases vs <;> rfl
  | f :: fs, [], vs => by cases vs <;> rfl
  | f :: fs, t :: ts, [] => rfl
  | f :: fs, t :: ts, v :: vs => by
    rw [setAttr]
    refine bind_noPanic ?_ fun _ => bind_noPanic (setAttr_noPanic n s fs ts vs) fun _ => rfl
    split
    · exact fromText_noPanic t s
    · rfl

theorem setAttrs_noPanic (info : StructInfo) (ts : List Ty) : ∀ as vs, (setAttrs info ts as vs).isPanic = false
  | [], _ => rfl
  | (n, s) :: as, vs => by
    rw [setAttrs]
    exact bind_noPanic (setAttr_noPanic n s _ ts vs) fun vs' => setAttrs_noPanic info ts as vs'

theorem setData_noPanic (s : Text) : ∀ fs ts vs, (setData s fs ts vs).isPanic = false
  | [], ts, vs => by cases ts <;> cases vs <;> rfl
  | f :: fs, [], vs => by cases vs <;> rfl
  | f :: fs, t :: ts, [] => rfl
  | f :: fs, t :: ts, v :: vs => by
    rw [setData]
    split
    · exact bind_noPanic (fromText_noPanic t s) fun _ => rfl
    · exact bind_noPanic (setData_noPanic s fs ts vs) fun _ => rfl

theorem setKids_noPanic (info : StructInfo) (decs : List ElemDec) (hl : info.fields.length = decs.length)
    (hd : ∀ d ∈ decs, ∀ n as ks v, (d n as ks v).isPanic = false) : ∀ ks vs, (setKids info decs ks vs).isPanic = false
  | [], _ => rfl
  | .text _ :: ks, vs => by rw [setKids]; exact setKids_noPanic info decs hl hd ks vs
  | .elem n as cs :: ks, vs => by
    rw [setKids]
    cases hf : Xml.fieldOf info n with
    | none => exact setKids_noPanic info decs hl hd ks vs
    | some i =>
      have hi : i < decs.length := by
        rw [← hl]
        unfold Xml.fieldOf at hf
        rw [List.findIdx?_eq_some_iff_getElem] at hf
        exact hf.1
      simp only
      rw [show decs.getD i (fun _ _ _ _ => .panic "no such field") = decs[i] by simp [List.getD, hi]]
      exact bind_noPanic (hd _ (List.getElem_mem hi) n as cs _) fun v => setKids_noPanic info decs hl hd ks _

theorem fromXmls_length : ∀ ts, (fromXmls ts).length = ts.length
  | [] => rfl
  | t :: ts => by simp [fromXmls, fromXmls_length ts]

theorem checkName_noPanic (info : StructInfo) (n : XName) : (checkName info n).isPanic = false := by
  unfold checkName
  split
  · rfl
  · split <;> rfl

mutual
theorem fromXml_noPanic (t : Ty) (ht : wfTy t = true) (n : XName) (as : List (XName × Text)) (ks : List RNode) (v : Val) :
    (fromXml t n as ks v).isPanic = false := by
  match t with
  | .str => rw [fromXml_simple rfl]; exact fromText_noPanic _ _
  | .int b => rw [fromXml_simple rfl]; exact fromText_noPanic _ _
  | .float => rw [fromXml_simple rfl]; exact fromText_noPanic _ _
  | .bool => rw [fromXml_simple rfl]; exact fromText_noPanic _ _
  | .time => rw [fromXml_simple rfl]; exact fromText_noPanic _ _
  | .ptr t =>
    rw [fromXml]
    exact bind_noPanic (fromXml_noPanic t ht n as ks _) fun _ => rfl
  | .slice t =>
    rw [fromXml]
    exact bind_noPanic (fromXml_noPanic t ht n as ks _) fun _ => rfl
  | .struct info ts =>
    simp only [wfTy, Bool.and_eq_true, beq_iff_eq] at ht
    rw [fromXml]
    exact bind_noPanic (checkName_noPanic info n) fun _ => bind_noPanic (setAttrs_noPanic info ts as _) fun vs =>
      bind_noPanic (setKids_noPanic info _ (by rw [fromXmls_length]; exact ht.1) (fromXmls_noPanic ts ht.2) ks vs) fun vs =>
      bind_noPanic (setData_noPanic _ _ ts vs) fun _ => rfl
theorem fromXmls_noPanic (ts : List Ty) (ht : wfTys ts = true) :
    ∀ d ∈ fromXmls ts, ∀ n as ks v, (d n as ks v).isPanic = false := by
  match ts with
  | [] => intro d hd; cases hd
  | t :: ts =>
    simp only [wfTys, Bool.and_eq_true] at ht
    intro d hd
    rw [fromXmls] at hd
    rcases List.mem_cons.1 hd with rfl | hd
    · exact fromXml_noPanic t ht.1
    · exact fromXmls_noPanic ts ht.2 d hd
end

end Verif.Xml

namespace Verif.Soap
open Xml Ocppj

set_option maxRecDepth 8000 in
theorem wf_req : ∀ r : ReqType, wfTy (MsgType.req r).ty = true := by
  intro r; cases r <;> decide

set_option maxRecDepth 8000 in
theorem wf_resp : ∀ r : RespType, wfTy (MsgType.resp r).ty = true := by
  intro r; cases r <;> decide

theorem wf_msg : ∀ m : MsgType, wfTy m.ty = true
  | .req r => wf_req r
  | .resp r => wf_resp r

theorem readBody_noPanic : ∀ ks b, (readBody ks b).isPanic = false
  | [], _ => rfl
  | .text _ :: ks, b => by rw [readBody]; exact readBody_noPanic ks b
  | .elem n as cs :: ks, b => by
    rw [readBody]
    split
    · exact bind_noPanic (fromXml_noPanic _ (by decide) _ _ _ _) fun _ => readBody_noPanic ks _
    · split
      · rfl
      · exact bind_noPanic (fromXml_noPanic _ (wf_msg _) _ _ _ _) fun _ => readBody_noPanic ks _

theorem readParts_noPanic : ∀ ks e, (readParts ks e).isPanic = false
  | [], _ => rfl
  | .text _ :: ks, e => by rw [readParts]; exact readParts_noPanic ks e
  | .elem n as cs :: ks, e => by
    rw [readParts]
    split
    · exact bind_noPanic (fromXml_noPanic _ (by decide) _ _ _ _) fun _ => readParts_noPanic ks _
    · split
      · exact bind_noPanic (readBody_noPanic _ _) fun _ => readParts_noPanic ks _
      · exact readParts_noPanic ks e

theorem decode_noPanic (t : Text) : (decode t).isPanic = false := by
  unfold decode
  split
  · rfl
  · unfold readRoot
    split
    · rfl
    · split
      · exact readParts_noPanic _ _
      · rfl

theorem content_noPanic (G : FloatText) (m : MsgType) {v : Val} (hv : HasTy m.ty v) : (contentNodes G m v).isPanic = false := by
  have hok := okTop_msg m
  unfold contentNodes
  generalize m.ty = t at *
  cases t <;> simp only [okTop, Bool.false_eq_true] at hok
  rename_i info ts
  cases hx : info.xmlName with
  | none => simp [hx] at hok
  | some x =>
    simp only [hx, Bool.and_eq_true, decide_eq_true_eq] at hok
    obtain ⟨⟨⟨h1, h2⟩, h3⟩, -⟩ := hok
    cases v <;> (try simp only [HasTy] at hv)
    rename_i vs
    obtain ⟨h1, h2⟩ := toXmls_noPanic G info info.fields ts h3 vs hv
    rw [toXml]
    exact bind_noPanic h1 fun _ => bind_noPanic h2 fun _ => rfl

end Verif.Soap
