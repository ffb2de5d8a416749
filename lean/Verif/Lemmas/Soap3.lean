import Verif.Lemmas.Soap2
/-!
# SOAP: bodies
-/
set_option linter.unusedSimpArgs false
namespace Verif.Soap
open Xml Ocppj

/-! ### The table -/

theorem table_req : ∀ r : ReqType, bound (.req r) = true → bodyTable.lookup (nameOf (MsgType.req r).ty).loc = some (.req r) := by
  intro r; cases r <;> decide

theorem table_resp : ∀ r : RespType, bound (.resp r) = true → bodyTable.lookup (nameOf (MsgType.resp r).ty).loc = some (.resp r) := by
  intro r; cases r <;> decide

theorem table_bound : ∀ m : MsgType, bound m = true → bodyTable.lookup (nameOf m.ty).loc = some m
  | .req r => table_req r
  | .resp r => table_resp r

theorem table_sound : bodyTable.all (fun x => bound x.2 && ((nameOf x.2.ty).loc == x.1)) = true := by decide +kernel

theorem mem_of_lookup {α β : Type} [BEq α] [LawfulBEq α] {l : List (α × β)} {a : α} {b : β} (h : l.lookup a = some b) : (a, b) ∈ l := by
  induction l with
  | nil => cases h
  | cons x l ih =>
    obtain ⟨c, d⟩ := x
    rw [List.lookup_cons] at h
    cases hc : (a == c) with
    | true =>
      rw [hc] at h
      have := eq_of_beq hc
      subst this
      cases h
      simp
    | false =>
      rw [hc] at h
      exact List.mem_cons_of_mem _ (ih h)

/-- The table has exactly the messages that can be received. -/
theorem lookup_iff (l : Text) (m : MsgType) : bodyTable.lookup l = some m ↔ bound m = true ∧ (nameOf m.ty).loc = l := by
  constructor
  · intro h
    have := List.all_eq_true.1 table_sound _ (mem_of_lookup h)
    simpa using this
  · rintro ⟨h, rfl⟩
    exact table_bound m h

theorem name_req : ∀ r : ReqType, (nameOf (MsgType.req r).ty).loc ≠ "Fault".toList ∧ (nameOf (MsgType.req r).ty).space ≠ [] := by
  intro r; cases r <;> decide

theorem name_resp : ∀ r : RespType, (nameOf (MsgType.resp r).ty).loc ≠ "Fault".toList ∧ (nameOf (MsgType.resp r).ty).space ≠ [] := by
  intro r; cases r <;> decide

theorem name_msg : ∀ m : MsgType, (nameOf m.ty).loc ≠ "Fault".toList ∧ (nameOf m.ty).space ≠ []
  | .req r => name_req r
  | .resp r => name_resp r

/-- What the table has for the others. -/
def strayOk (m : MsgType) : Bool :=
  match bodyTable.lookup (nameOf m.ty).loc with
  | none => true
  | some m' => (nameOf m'.ty).space != (nameOf m.ty).space

theorem stray_req : ∀ r : ReqType, bound (.req r) = false → strayOk (.req r) = true := by
  intro r; cases r <;> decide

theorem stray_resp : ∀ r : RespType, bound (.resp r) = false → strayOk (.resp r) = true := by
  intro r; cases r <;> decide

theorem stray_msg : ∀ m : MsgType, bound m = false → strayOk m = true
  | .req r => stray_req r
  | .resp r => stray_resp r

/-- The name is checked. -/
theorem fromXml_name {m : MsgType} {n : XName} {as : List (XName × Text)} {ks : List RNode} {v : Val}
    (h : matches_ (nameOf m.ty) n = false) : ∃ e, fromXml m.ty n as ks v = .err e := by
  have hok := okTop_msg m
  generalize m.ty = t at *
  cases t <;> simp only [okTop, Bool.false_eq_true] at hok
  rename_i info ts
  cases hx : info.xmlName with
  | none => simp [hx] at hok
  | some x =>
    simp only [nameOf, hx] at h
    rw [fromXml]
    simp [checkName, hx, h]

/-! ### Bodies -/

theorem readBody_message (G : FloatText) {m : MsgType} (hb : bound m = true) {v : Val} (hv : HasTy m.ty v) (hp : v.TimesAll GoTime.Plain) :
    ∃ k, contentNodes G m v = .ok [k] ∧ (∃ n, GoodNode n k) ∧ ∀ ns b ks,
      readBody (resolves ns (cleanNodes (k :: ks))) b = readBody (resolves ns (cleanNodes ks)) { b with content := some (m, soapTrip m.ty v) } := by
  obtain ⟨k, h1, h2, h3⟩ := content_trip G m hv hp
  refine ⟨k, h1, ⟨_, h2⟩, fun ns b ks => ?_⟩
  obtain ⟨n, as, cs, e, hl, -, hf⟩ := h3 ns
  simp only [cleanNodes, resolves, e]
  rw [readBody, if_neg (by rw [hl]; exact (name_msg m).1), hl, table_bound m hb]
  simp only [hf, GoRes.bind]

theorem readBody_stray (G : FloatText) {m : MsgType} (hb : bound m = false) {v : Val} (hv : HasTy m.ty v) (hp : v.TimesAll GoTime.Plain) :
    ∃ k, contentNodes G m v = .ok [k] ∧ (∃ n, GoodNode n k) ∧ ∀ ns b ks, ∃ e,
      readBody (resolves ns (cleanNodes (k :: ks))) b = .err e := by
  obtain ⟨k, h1, h2, h3⟩ := content_trip G m hv hp
  refine ⟨k, h1, ⟨_, h2⟩, fun ns b ks => ?_⟩
  obtain ⟨n, as, cs, e, hl, hm, -⟩ := h3 ns
  simp only [cleanNodes, resolves, e]
  rw [readBody, if_neg (by rw [hl]; exact (name_msg m).1), hl]
  have hs := stray_msg m hb
  unfold strayOk at hs
  cases hlk : bodyTable.lookup (nameOf m.ty).loc with
  | none => exact ⟨_, rfl⟩
  | some m' =>
    rw [hlk] at hs
    simp only [bne_iff_ne] at hs
    have hsp : n.space = (nameOf m.ty).space := by
      have h0 := (name_msg m).2
      simp only [matches_, Bool.and_eq_true, Bool.or_eq_true, beq_iff_eq] at hm
      rcases hm.1 with h | h
      · exact absurd h h0
      · exact h.symm
    have hne : matches_ (nameOf m'.ty) n = false := by
      have h0 := (name_msg m').2
      have h1 : (nameOf m'.ty).space ≠ n.space := by rw [hsp]; exact hs
      simp [matches_, h0, h1]
    obtain ⟨e', he⟩ := fromXml_name (as := as) (ks := cs) (v := zeroVal m'.ty) hne
    refine ⟨e', ?_⟩
    simp only [he, GoRes.bind]

theorem readBody_fault (reason : Text) (ns : List (Text × Text)) (b : Body) :
    readBody (resolves ns (cleanNodes [faultNode reason])) b = .ok { b with fault := some (zeroVal faultTy) } := by
  obtain ⟨n, as, cs, e, hl, hf⟩ := fault_trip reason ns
  simp only [cleanNodes, resolves, e]
  rw [readBody, if_pos hl, hf]
  rfl

/-- An envelope with a message. -/
theorem decode_message (G : FloatText) {m : MsgType} (hb : bound m = true) {v : Val} (hv : HasTy m.ty v) (hp : v.TimesAll GoTime.Plain)
    (hd : Option Header) (fault : Option Text) (rest : Text) :
    ∃ c, contentNodes G m v = .ok c ∧ decode (print (envelopeNode hd c fault) ++ rest) =
      .ok ⟨hd.map headerVal, ⟨some (m, soapTrip m.ty v), fault.map fun _ => zeroVal faultTy⟩⟩ := by
  obtain ⟨k, h1, h2, h3⟩ := readBody_message G hb hv hp
  refine ⟨[k], h1, ?_⟩
  obtain ⟨ns, e⟩ := decode_envelope hd (content := [k]) (by simpa using h2) fault rest
  rw [e, List.singleton_append, h3]
  cases fault with
  | none => rfl
  | some s =>
    rw [Option.toList, List.map_cons, List.map_nil, readBody_fault]
    rfl

theorem decode_stray (G : FloatText) {m : MsgType} (hb : bound m = false) {v : Val} (hv : HasTy m.ty v) (hp : v.TimesAll GoTime.Plain)
    (hd : Option Header) (fault : Option Text) (rest : Text) :
    ∃ c, contentNodes G m v = .ok c ∧ ∃ e, decode (print (envelopeNode hd c fault) ++ rest) = .err e := by
  obtain ⟨k, h1, h2, h3⟩ := readBody_stray G hb hv hp
  refine ⟨[k], h1, ?_⟩
  obtain ⟨ns, e⟩ := decode_envelope hd (content := [k]) (by simpa using h2) fault rest
  obtain ⟨e', he⟩ := h3 ns ⟨none, none⟩ (fault.toList.map faultNode)
  exact ⟨e', by rw [e, List.singleton_append, he]; rfl⟩

theorem decode_empty (hd : Option Header) (fault : Option Text) (rest : Text) :
    decode (print (envelopeNode hd [] fault) ++ rest) = .ok ⟨hd.map headerVal, ⟨none, fault.map fun _ => zeroVal faultTy⟩⟩ := by
  obtain ⟨ns, e⟩ := decode_envelope hd (content := []) (by simp) fault rest
  rw [e, List.nil_append]
  cases fault with
  | none => rfl
  | some s =>
    rw [Option.toList, List.map_cons, List.map_nil, readBody_fault]
    rfl

end Verif.Soap
