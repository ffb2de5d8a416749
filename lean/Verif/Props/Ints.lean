import Verif.Lemmas.Ocppj6
import Verif.Props.Frame
import Verif.Props.Time
/-!
# C15: what becomes of an integer beyond plus/minus 2^53
-/
set_option linter.unusedSimpArgs false
namespace Verif.Ocppj
open Json Codec Decode Encode Trip

theorem payload_decode_any (F : FloatFmt) (o : Order) (m : MsgType) (v : Val) (hv : HasTy m.ty v)
    (hw' : HasTy m.ty (v.mapInts (onWire F))) (hp : (v.mapInts (onWire F)).TimesAll GoTime.Plain) (text : Text)
    (hm : marshal F m.ty v = .ok text) {j : JVal} {p : Payload} (hj : JsonText j text) (hh : Holds j (.obj p)) :
    ∃ v', decode o m.ty (anyText F (.obj p)) = .ok v' ∧ v' = trip m.ty m.schema (v.mapInts (onWire F)) ∧
      (m ≠ .req .csreqSendLocalList → v' = (v.mapInts (onWire F)).cutTimes) := by
  obtain ⟨ms, hj', _, hw⟩ := C01_readable F m v hv text hm
  rw [jsonText_unique hj hj'] at hh
  obtain ⟨p', ms', hp1, h2, hp2⟩ := payload_conv F m v hv ms hw
  have hp3 : p' = p := by
    have := holds_unique ((toAny_iff (.obj ms) (.obj p')).1 (by simp [toAny, hp1])) _ hh
    simpa using this
  subst hp3
  refine ⟨_, ?_, rfl, ?_⟩
  · rw [decode_iff (anyText_value F _).jsonText]
    simp only [jsonOf]
    exact read_perm F m _ hw' hp ms' _ h2 hp2
  · intro hne
    have hc : covered m.ty m.schema = true := by
      cases m with
      | req r => exact covered_req r (fun e => hne (by rw [e]))
      | resp r => exact covered_resp r
    exact trip_cut _ _ hc _ hw'

mutual
theorem timesAll_mapInts {P : GoTime → Prop} (f : Int → Int) (v : Val) : (v.mapInts f).TimesAll P ↔ v.TimesAll P := by
  match v with
  | .ptr v => simpa only [Val.mapInts, Val.TimesAll] using timesAll_mapInts f v
  | .slice vs => simpa only [Val.mapInts, Val.TimesAll] using timesAlls_mapInts f vs
  | .struct vs => simpa only [Val.mapInts, Val.TimesAll] using timesAlls_mapInts f vs
  | .int n => simp only [Val.mapInts, Val.TimesAll]
  | .str _ | .float _ | .bool _ | .nil | .time _ => simp only [Val.mapInts]
  termination_by structural v
theorem timesAlls_mapInts {P : GoTime → Prop} (f : Int → Int) (vs : List Val) :
    Val.TimesAlls P (Val.mapIntss f vs) ↔ Val.TimesAlls P vs := by
  match vs with
  | [] => simp only [Val.mapIntss]
  | v :: vs => simp only [Val.mapIntss, Val.TimesAlls, timesAll_mapInts f v, timesAlls_mapInts f vs]
  termination_by structural vs
end

/-- What an OCPP-J connection does to integers: it keeps the float64 nearest to the integer but not the integer, except for
integers up to 2^53; integers with the same nearest float64 become the same integer. -/
structure KeepsFloat (f : ℤ → ℤ) : Prop where
  near : ∀ n, |n| ≤ 2 ^ 63 → fl64 (f n : ℚ) = fl64 n
  small : ∀ n, |n| ≤ 2 ^ 53 → f n = n
  same : ∀ n n' : ℤ, |n| ≤ 2 ^ 63 → |n'| ≤ 2 ^ 63 → fl64 (n : ℚ) = fl64 n' → f n = f n'

theorem keepsFloat (F : FloatFmt) : KeepsFloat (onWire F) where
  near n h := (onWire_spec F n h).2.1
  small n h := (onWire_spec F n (le_trans h (by norm_num))).2.2.2 h
  same n n' h h' e := by
    rw [fl64_intCast n h, fl64_intCast n' h'] at e
    unfold onWire
    rw [Option.some.inj e]

/-- **C15** A request of a supported type with any integers: there is one function on the integers (the same for all
requests) which keeps integers up to 2^53 and otherwise only the nearest float64, such that the other side's handler is given
the request with every integer replaced, provided these still fit their types. -/
theorem C15_request (F : FloatFmt) : ∃ f : ℤ → ℤ, KeepsFloat f ∧
    ∀ (o : Order) (id : String) (r : Req), r.type.action ≠ "DataTransfer".toList → HasTy r.type.ty r.val →
      r.val.TimesAll GoTime.Plain → ∀ text, marshal F r.type.ty r.val = .ok text → HasTy r.type.ty (r.val.mapInts f) →
      ∃ t p v, encCall F id r = .ok t ∧ receive t = .ok (some (.call id (String.ofList r.type.action) p)) ∧
        callToRequest F o (String.ofList r.type.action) p = .ok ⟨r.type, v⟩ ∧
        (r.type ≠ .csreqSendLocalList → v = (r.val.mapInts f).cutTimes) := by
  refine ⟨onWire F, keepsFloat F, ?_⟩
  intro o id r hs hv hp text hm hw'
  obtain ⟨t, j, p, h1, h2, _, h3, h4⟩ := C10_request F id r hv text hm
  obtain ⟨v, h5, _, h7⟩ := payload_decode_any F o (.req r.type) r.val hv hw' ((timesAll_mapInts _ _).2 hp) text hm h1 h2
  refine ⟨t, p, v, h3, h4, ?_, fun hne => h7 (by simpa using hne)⟩
  have ha : reqFromAction (String.ofList r.type.action).toList = some r.type := by
    rw [String.toList_ofList]
    revert hs
    cases r.type <;> decide
  unfold callToRequest
  rw [ha]
  simp only []
  rw [show decode o r.type.ty (anyText F (.obj p)) = _ from h5]

/-- **C15** The same for the response to a call of a supported type. -/
theorem C15_response (F : FloatFmt) : ∃ f : ℤ → ℤ, KeepsFloat f ∧
    ∀ (o : Order) (id : String) (q : ReqType), q.action ≠ "DataTransfer".toList → ∀ r : Resp, r.type = q.response →
      HasTy r.type.ty r.val → r.val.TimesAll GoTime.Plain → ∀ text, marshal F r.type.ty r.val = .ok text →
      HasTy r.type.ty (r.val.mapInts f) →
      ∃ t p, encReply F id (some r) none = .ok t ∧ receive t = .ok (some (.result id p)) ∧
        resultToResponse F o (String.ofList q.action) p = .ok ⟨r.type, (r.val.mapInts f).cutTimes⟩ := by
  refine ⟨onWire F, keepsFloat F, ?_⟩
  intro o id q hs r ht hv hp text hm hw'
  obtain ⟨t, j, p, h1, h2, h3, h4⟩ := C10_result F id r hv text hm
  obtain ⟨v, h5, _, h7⟩ := payload_decode_any F o (.resp r.type) r.val hv hw' ((timesAll_mapInts _ _).2 hp) text hm h1 h2
  refine ⟨t, p, h3, h4, ?_⟩
  have ha : reqFromAction (String.ofList q.action).toList = some q := by
    rw [String.toList_ofList]
    revert hs
    cases q <;> decide
  unfold resultToResponse
  rw [ha]
  simp only []
  rw [← ht, show decode o r.type.ty (anyText F (.obj p)) = _ from h5, h7 (by simp)]

theorem cancel_hasTy {n : Int} (h : -(2 ^ 63) ≤ n ∧ n < 2 ^ 63) : HasTy (MsgType.req .csreqCancelReservation).ty (.struct [.int n]) :=
  ⟨h, True.intro⟩

theorem cancel_read {ms : List (Text × JVal)} {v : Val} :
    (MsgType.req .csreqCancelReservation).read (.obj ms) = some v ↔ (∀ e ∈ ms, e.1 = "reservationId".toList) ∧
      ∃ j x, lastVal ms "reservationId".toList = some j ∧ read (.int 64) .num j (zeroVal (.int 64)) = some x ∧ v = .struct [x] :=
  read_single (m := .req .csreqCancelReservation)
    (f := ⟨"ReservationId", "reservationId".toList, false, .elem, "reservationId".toList, false⟩) rfl rfl rfl rfl

/-! ### C63 -/

/-- Scalar types: everything but slices and structs. -/
def isScalar : Ty → Bool
  | .slice _ | .struct _ _ => false
  | .ptr t => isScalar t
  | _ => true

/-- `Means t j x`: the field of scalar type `t` for which a peer sent the JSON value `j` has the value `x`.  A number is first
rounded to float64, whatever its spelling; an integer field then is an integer with this float64 (exactly this number if it is
at most 2^53), so the number must be integral and within the field's range. -/
inductive Means : Ty → JVal → Val → Prop where
  | null {t} : Means t .null (zeroVal t)
  | str {s} : Means .str (.str s) (.str s)
  | bool {b} : Means .bool (.bool b) (.bool b)
  | float {l q} : IsNum l q → Means .float (.num l) (.float (.fin q))
  | int {b : Nat} {l : NumLit} {n k : ℤ} : IsNum l (k : ℚ) → fl64 (n : ℚ) = some (k : ℚ) → (|k| ≤ 2 ^ 53 → n = k) → -(2 ^ (b - 1)) ≤ n → n < 2 ^ (b - 1) →
      Means (.int b) (.num l) (.int n)
  | time {s g} {st : Cal.Stamp} : st.Valid → st.Spelled s → st.Denotes g → Means .time (.str s) (.time g)
  | ptr {t j x} : j ≠ .null → Means t j x → Means (.ptr t) j (.ptr x)

theorem int_of_fmt {F : FloatFmt} {q : ℚ} (hq : IsF64 q) (hi : (F.fmt q).isInt = true) (h63 : |(F.fmt q).intVal| ≤ 2 ^ 63) :
    ∃ k : ℤ, q = k ∧ fl64 ((F.fmt q).intVal : ℚ) = some (k : ℚ) ∧ (|k| ≤ 2 ^ 53 → (F.fmt q).intVal = k) := by
  have hrt := F.roundtrip q hq
  rw [value_of_isInt hi] at hrt
  obtain ⟨k, hk, -, -⟩ := roundF64_intCast _ h63
  have h1 := fl64_intCast _ h63
  rw [hk] at h1
  have hqk : q = k := by rw [hrt] at h1; exact Option.some.inj h1
  refine ⟨k, hqk, h1, fun hs => ?_⟩
  rw [hqk, F.int k hs, intVal_ofInt]

theorem means_of (F : FloatFmt) (o : Order) (t : Ty) (ht : isScalar t = true) (hi : okInts t = true) (j : JVal) (a : GoAny)
    (h : Holds j a) (x : Val) (p : List Nat) (hx : unmarshal o t p (jsonOf F a) (zeroVal t) = .ok x) : Means t j x := by
  match t with
  | .str =>
    cases h <;> simp only [jsonOf, unmarshal, reduceCtorEq, GoRes.ok.injEq] at hx <;> subst hx <;> constructor
  | .bool =>
    cases h <;> simp only [jsonOf, unmarshal, reduceCtorEq, GoRes.ok.injEq] at hx <;> subst hx <;> constructor
  | .float =>
    cases h with
    | num hl =>
      simp only [jsonOf, unmarshal] at hx
      rw [F.roundtrip _ (fl64_isF64 hl)] at hx
      cases hx
      exact .float hl
    | null => simp only [jsonOf, unmarshal, GoRes.ok.injEq] at hx; subst hx; constructor
    | _ => simp only [jsonOf, unmarshal, reduceCtorEq] at hx
  | .int b =>
    cases h with
    | num hl =>
      rename_i l q
      simp only [jsonOf, unmarshal] at hx
      split at hx
      · rename_i hc
        cases hx
        have hb : b ≤ 64 := by simpa [okInts] using hi
        have hp : (2 : ℤ) ^ (b - 1) ≤ 2 ^ 63 := pow_le_pow_right₀ (by norm_num) (by omega)
        obtain ⟨k, rfl, h1, h2⟩ := int_of_fmt (F := F) (fl64_isF64 hl) hc.1 (by rw [abs_le]; constructor <;> linarith [hc.2.1, hc.2.2])
        exact .int hl h1 h2 hc.2.1 hc.2.2
      · cases hx
    | null => simp only [jsonOf, unmarshal, GoRes.ok.injEq] at hx; subst hx; constructor
    | _ => simp only [jsonOf, unmarshal, reduceCtorEq] at hx
  | .time =>
    cases h with
    | str =>
      simp only [jsonOf, unmarshal] at hx
      split at hx
      · rename_i g hg
        cases hx
        obtain ⟨st, h1, h2, h3⟩ := (Cal.parseTime_iff _ _).1 hg
        exact .time h1 h2 h3
      · cases hx
    | null => simp only [jsonOf, unmarshal, GoRes.ok.injEq] at hx; subst hx; constructor
    | _ => simp only [jsonOf, unmarshal, reduceCtorEq] at hx
  | .ptr t =>
    by_cases hj : j = .null
    · subst hj
      cases h
      simp only [jsonOf, unmarshal, GoRes.ok.injEq] at hx
      subst hx
      exact .null
    · have ha : jsonOf F a ≠ .null := by
        cases h <;> simp [jsonOf] at hj ⊢
      have : unmarshal o (.ptr t) p (jsonOf F a) (zeroVal (.ptr t)) =
          (unmarshal o t p (jsonOf F a) (zeroVal t)).bind fun v => .ok (.ptr v) := by
        revert ha
        cases jsonOf F a <;> intro ha <;> first | exact absurd rfl ha | rfl
      rw [this, GoRes.bind_eq_ok] at hx
      obtain ⟨v, hv, he⟩ := hx
      cases he
      exact .ptr hj (means_of F o t (by simpa [isScalar] using ht) (by simpa [okInts] using hi) j a h v p hv)
  | .slice _ => simp [isScalar] at ht
  | .struct _ _ => simp [isScalar] at ht
  termination_by structural t

theorem entries_split {F : FloatFmt} {p : Payload} {k : Text} {a : GoAny} (h : p.lookup k = some a)
    (hs : (p.map Prod.fst).Pairwise (fun a b => keyLt a b = true)) :
    ∃ pre post, jsonOfEntries F p = pre ++ (k, jsonOf F a) :: post ∧ k ∉ post.map Prod.fst := by
  rw [jsonOfEntries_map]
  obtain ⟨pre, post, rfl⟩ := List.append_of_mem (lookup_mem' h)
  refine ⟨_, post.map fun x => (x.1, jsonOf F x.2), by rw [List.map_append, List.map_cons], ?_⟩
  intro hk
  rw [List.map_map] at hk
  have hk' : k ∈ post.map Prod.fst := by simpa [Function.comp_def] using hk
  rw [List.map_append, List.pairwise_append, List.map_cons, List.pairwise_cons] at hs
  have := hs.2.1.1 k hk'
  exact absurd this (by rw [keyLt_irrefl]; simp)

theorem okIntss_get {ts : List Ty} (h : okIntss ts = true) {i : Nat} {t : Ty} (ht : ts[i]? = some t) : okInts t = true := by
  induction ts generalizing i with
  | nil => simp at ht
  | cons a ts ih =>
    simp only [okIntss, Bool.and_eq_true] at h
    cases i with
    | zero => simp at ht; subst ht; exact h.1
    | succ i => exact ih h.2 (by simpa using ht)

/-- The scalar fields of a payload's message. -/
theorem payload_field (F : FloatFmt) (o : Order) (m : MsgType) (hm : m.lenient = false) (ms : List (Text × JVal)) (p : Payload)
    (hh : Holds (.obj ms) (.obj p)) (v : Val) (h : decode o m.ty (anyText F (.obj p)) = .ok v) (info : StructInfo) (ts : List Ty)
    (hty : m.ty = .struct info ts) (i : Nat) (f : FieldInfo) (t : Ty) (hf : info.fields[i]? = some f) (hti : ts[i]? = some t)
    (ht : isScalar t = true) :
    ∃ vs x, v = .struct vs ∧ vs[i]? = some x ∧ (∀ j, lastVal ms f.json = some j → Means t j x) ∧
      (f.json ∉ ms.map Prod.fst → x = zeroVal t) := by
  have hjt := (anyText_value F (.obj p)).jsonText
  simp only [jsonOf] at hjt
  obtain ⟨vs, x, rfl, hx, h1, h2⟩ := C04_field o m hm _ _ v hjt h info ts hty i f t hf hti
  have hi : okInts t = true := by
    have := okInts_msg m
    rw [hty] at this
    simp only [okInts] at this
    exact okIntss_get this hti
  cases hh with
  | obj hs hl hsome hr =>
    refine ⟨vs, x, rfl, hx, ?_, ?_⟩
    · intro j hj
      have := hsome f.json
      rw [hj] at this
      obtain ⟨a, ha⟩ := Option.isSome_iff_exists.1 this
      obtain ⟨pre, post, he, hp⟩ := entries_split (F := F) ha hs
      exact means_of F o t ht hi j a (hl _ _ _ ha hj) x [] (h1 pre _ post he hp)
    · intro hn
      refine h2 ?_
      rw [jsonOfEntries_map, List.map_map]
      intro hk
      have hk' : f.json ∈ p.map Prod.fst := by simpa [Function.comp_def] using hk
      have := hsome f.json
      rw [lastVal_none.2 hn] at this
      have hnone : p.lookup f.json = none := by simpa using this
      exact absurd hk' (by
        rw [List.lookup_eq_none_iff] at hnone
        intro hk
        obtain ⟨e, he, hek⟩ := List.mem_map.1 hk
        have := hnone e he
        simp [hek] at this)

theorem receive_arr {text : Text} {vs : List JVal} (hj : JsonText (.arr vs) text) {m : Msg Payload} (hr : receive text = .ok (some m)) :
    Shape vs m := by
  obtain ⟨vs', h1, -, h2⟩ := ((unmarshalMessage_spec (normalise text)).1 m).1 hr
  have := jsonText_unique h1 (normalise_value hj).jsonText
  cases this
  exact h2

/-- **C63** What a Call of any peer means.  A text with a frame `[n, id, action, {ms}, …]` is read as a Call and accepted as
the request `q`.  Then `q` is of the type of that action, and each of its scalar fields has the meaning of the last property of
its name, or is zero if there is none. -/
theorem C63_request (F : FloatFmt) (o : Order) (text : Text) (k : NumLit) (id a : Text) (ms : List (Text × JVal)) (rest : List JVal)
    (hj : JsonText (.arr (.num k :: .str id :: .str a :: .obj ms :: rest)) text) (i action : String) (p : Payload)
    (hr : receive text = .ok (some (.call i action p))) (q : Req) (hq : callToRequest F o action p = .ok q) :
    i.toList = id ∧ action.toList = a ∧ q.type.action = a ∧
    ((MsgType.req q.type).lenient = false → ∀ info ts, q.type.ty = .struct info ts →
      ∀ (n : Nat) f t, info.fields[n]? = some f → ts[n]? = some t → isScalar t = true →
      ∃ vs x, q.val = .struct vs ∧ vs[n]? = some x ∧ (∀ j, lastVal ms f.json = some j → Means t j x) ∧
        (f.json ∉ ms.map Prod.fst → x = zeroVal t)) := by
  have hs := receive_arr hj hr
  cases hs with
  | call _ hh =>
    unfold callToRequest at hq
    cases ha : reqFromAction (String.ofList a).toList with
    | none => rw [ha] at hq; cases hq
    | some r =>
      rw [ha] at hq
      simp only [] at hq
      split at hq
      · rename_i v hv
        cases hq
        refine ⟨String.toList_ofList, String.toList_ofList, ?_, ?_⟩
        · rw [C17_actions.1 _ _ ha, String.toList_ofList]
        · intro hm info ts hty n f t hf ht hsc
          exact payload_field F o (.req r) hm ms p hh v hv info ts hty n f t hf ht hsc
      · cases hq

/-- **C63** The same for a CallResult, accepted as the response to a sent call of type `c`. -/
theorem C63_response (F : FloatFmt) (o : Order) (text : Text) (k : NumLit) (id : Text) (ms : List (Text × JVal)) (rest : List JVal)
    (hj : JsonText (.arr (.num k :: .str id :: .obj ms :: rest)) text) (i : String) (p : Payload)
    (hr : receive text = .ok (some (.result i p))) (c : ReqType) (q : Resp)
    (hq : resultToResponse F o (String.ofList c.action) p = .ok q) :
    i.toList = id ∧ q.type = c.response ∧
    ((MsgType.resp q.type).lenient = false → ∀ info ts, q.type.ty = .struct info ts →
      ∀ (n : Nat) f t, info.fields[n]? = some f → ts[n]? = some t → isScalar t = true →
      ∃ vs x, q.val = .struct vs ∧ vs[n]? = some x ∧ (∀ j, lastVal ms f.json = some j → Means t j x) ∧
        (f.json ∉ ms.map Prod.fst → x = zeroVal t)) := by
  have hs := receive_arr hj hr
  cases hs with
  | result _ hh =>
    unfold resultToResponse at hq
    rw [String.toList_ofList] at hq
    cases ha : reqFromAction c.action with
    | none => rw [ha] at hq; cases hq
    | some r =>
      have hrc : r = c := by
        by_cases hd : c.action = "DataTransfer".toList
        · rw [hd, C17_actions.2.2.1] at ha; cases ha
        · rw [C17_actions.2.1 c hd] at ha; exact (Option.some.inj ha).symm
      subst hrc
      rw [ha] at hq
      simp only [] at hq
      split at hq
      · rename_i v hv
        cases hq
        refine ⟨String.toList_ofList, rfl, ?_⟩
        intro hm info ts hty n f t hf ht hsc
        exact payload_field F o (.resp r.response) hm ms p hh v hv info ts hty n f t hf ht hsc
      · cases hq
      · cases hq

/-- **C63** A Call in which the property of an integer field is a number whose float64 is no integer is refused with
FormationViolation. -/
theorem C63_fraction (F : FloatFmt) (o : Order) (text : Text) (k : NumLit) (id : Text) (ms : List (Text × JVal)) (rest : List JVal)
    (r : ReqType) (hs : r.action ≠ "DataTransfer".toList) (hm : (MsgType.req r).lenient = false)
    (hj : JsonText (.arr (.num k :: .str id :: .str r.action :: .obj ms :: rest)) text) (i action : String) (p : Payload)
    (hr : receive text = .ok (some (.call i action p))) (info : StructInfo) (ts : List Ty) (hty : r.ty = .struct info ts)
    (n b : Nat) (f : FieldInfo) (t : Ty) (hf : info.fields[n]? = some f) (hti : ts[n]? = some t) (ht : t = .int b ∨ t = .ptr (.int b))
    (l : NumLit) (hl : lastVal ms f.json = some (.num l)) (hfr : ∀ z : ℤ, ¬ IsNum l (z : ℚ)) :
    callToRequest F o action p = .error "FormationViolation" := by
  have ha : action.toList = r.action := by
    cases receive_arr hj hr; exact String.toList_ofList
  cases hc : callToRequest F o action p with
  | ok q =>
    exfalso
    obtain ⟨-, -, h3, h4⟩ := C63_request F o text k id _ ms rest hj i action p hr q hc
    have hqr : q.type = r := by
      unfold callToRequest at hc
      rw [ha, C17_actions.2.1 r hs] at hc
      simp only [] at hc
      split at hc <;> cases hc
      rfl
    subst hqr
    obtain ⟨vs, x, -, -, h5, -⟩ := h4 hm info ts hty n f t hf hti (by rcases ht with rfl | rfl <;> rfl)
    have := h5 _ hl
    rcases ht with rfl | rfl
    · cases this with
      | int h _ _ _ _ => exact hfr _ h
    · cases this with
      | ptr _ h => cases h with
        | int h _ _ _ _ => exact hfr _ h
  | error e =>
    unfold callToRequest at hc
    rw [ha, C17_actions.2.1 r hs] at hc
    simp only [] at hc
    split at hc <;> cases hc
    rfl

/-- The Call a peer sends to cancel a reservation, with the number spelled as it likes. -/
theorem cancel_call (F : FloatFmt) (o : Order) (q : ℤ) (hq : |q| ≤ 2 ^ 53) :
    callToRequest F o "CancelReservation" [("reservationId".toList, .num q)] = .ok (cancelReservation q) := by
  have hd : decode o (MsgType.req .csreqCancelReservation).ty (anyText F (.obj [("reservationId".toList, .num q)])) =
      .ok (.struct [.int q]) := by
    rw [decode_iff (anyText_value F _).jsonText]
    simp only [jsonOf, jsonOfEntries]
    rw [F.int q hq]
    have h63 : HasTy (MsgType.req .csreqCancelReservation).ty (.struct [.int q]) :=
      cancel_hasTy (by rw [abs_le] at hq; constructor <;> linarith [hq.1, hq.2])
    have := read_perm F (.req .csreqCancelReservation) _ h63 ⟨True.intro, True.intro⟩ _ _ (cancel_wire F q) (List.Perm.refl _)
    rw [this, trip_cut (MsgType.req .csreqCancelReservation).ty (MsgType.req .csreqCancelReservation).schema
      (covered_req .csreqCancelReservation (by decide)) _ h63]
    rfl
  unfold callToRequest
  have ha : reqFromAction "CancelReservation".toList = some .csreqCancelReservation := by decide
  rw [ha]
  simp only []
  rw [show decode o ReqType.csreqCancelReservation.ty (anyText F _) = _ from hd]
  rfl

/-- The literal `1e2`. -/
def oneE2 : NumLit := ⟨false, 1, [], some 2⟩

theorem oneE2_num : IsNum oneE2 ((100 : ℤ) : ℚ) := by
  have h : oneE2.value = ((100 : ℤ) : ℚ) := by norm_num [oneE2, NumLit.value, fracVal]
  unfold IsNum
  rw [h]
  exact isF64_int (by norm_num)

/-- A Call that spells the reservation number `1e2` is read and accepted as a request to cancel reservation 100. -/
example (F : FloatFmt) (o : Order) : ∃ text p,
    JsonText (.arr [.num (.ofInt 2), .str "7".toList, .str "CancelReservation".toList, .obj [("reservationId".toList, .num oneE2)]]) text ∧
    receive text = .ok (some (.call "7" "CancelReservation" p)) ∧
    callToRequest F o "CancelReservation" p = .ok (cancelReservation 100) := by
  have h2 : IsNum (.ofInt 2) 2 := by
    have := isF64_2; unfold IsF64 at this; unfold IsNum; rw [value_ofInt]; exact_mod_cast this
  have hh : Holds (.obj [("reservationId".toList, .num oneE2)]) (.obj [("reservationId".toList, .num ((100 : ℤ) : ℚ))]) := by
    refine (toAny_iff _ _).1 ?_
    have := oneE2_num
    unfold IsNum at this
    simp only [toAny, toEntries, this, Option.map, mapPut]
  obtain ⟨kt, hs⟩ : ∃ kt, Str "reservationId".toList kt := by
    have h := value_quote "reservationId".toList
    cases h with
    | str h => exact ⟨_, h⟩
  have nil : IsWs [] := by intro c hc; cases hc
  obtain ⟨text, _, hv⟩ := frameText_value
    (js := [.num (.ofInt 2), .str "7".toList, .str "CancelReservation".toList, .obj [("reservationId".toList, .num oneE2)]])
    (ts := [_, _, _, _]) (.cons (value_rawOfLit _) (.cons (value_quote _) (.cons (value_quote _)
      (.cons (.obj (.one nil hs nil nil (value_rawOfLit _) nil)) .nil))))
  have hj := hv.jsonText
  refine ⟨_, _, hj, ?_, cancel_call F o 100 (by norm_num)⟩
  exact read_shape hj ⟨⟨2, h2⟩, True.intro, True.intro, holds_inRange hh, True.intro⟩ (Shape.call h2 hh)

/-- A literal whose float64 is no integer. -/
example : ∀ z : ℤ, ¬ IsNum ⟨false, 2, [5], none⟩ (z : ℚ) := by
  intro z h
  have hv : (⟨false, 2, [5], none⟩ : NumLit).value = (5 / 2 : ℚ) := by norm_num [NumLit.value, fracVal]
  have h5 : fl64 (5 / 2) = some (5 / 2) := by
    have hlog : Int.log 2 |(5 / 2 : ℚ)| = 1 := by
      rw [abs_of_pos (by norm_num)]
      have hlt : (5 / 2 : ℚ) < (2 : ℚ) ^ ((1 : ℤ) + 1) := by norm_num
      have hge : (2 : ℚ) ^ (1 : ℤ) ≤ 5 / 2 := by norm_num
      have a := (Int.lt_zpow_iff_log_lt (b := 2) (by norm_num) (x := 2) (r := (5 / 2 : ℚ)) (by norm_num)).1 (by simpa using hlt)
      have b := (Int.zpow_le_iff_le_log (b := 2) (by norm_num) (x := 1) (r := (5 / 2 : ℚ)) (by norm_num)).1 (by simpa using hge)
      omega
    have hu : ulpExp (5 / 2) = -51 := by unfold ulpExp; rw [hlog]; norm_num
    have hr : roundEven ((5 / 2 : ℚ) / (2 : ℚ) ^ (-51 : ℤ)) = 5 * 2 ^ 50 := by
      have e : (5 / 2 : ℚ) / (2 : ℚ) ^ (-51 : ℤ) = ((5 * 2 ^ 50 : ℤ) : ℚ) := by norm_num
      rw [e]
      unfold roundEven
      simp only [Int.floor_intCast, sub_self]
      norm_num
    have : roundF64 (5 / 2) = 5 / 2 := by
      unfold roundF64
      rw [hu, hr]; norm_num
    unfold fl64
    rw [this, if_pos]
    rw [abs_of_pos (by norm_num)]
    calc (5 / 2 : ℚ) ≤ (2 : ℚ) ^ (2 : ℤ) := by norm_num
      _ < _ := zpow_lt_zpow_right₀ (by norm_num) (by norm_num)
  unfold IsNum at h
  rw [hv, h5] at h
  have := Option.some.inj h
  have h2 : (5 : ℤ) = 2 * z := by
    have : (5 : ℚ) = 2 * z := by linarith
    exact_mod_cast this
  omega

/-- A request beyond 2^53 whose integers still fit when they arrive. -/
example (f : ℤ → ℤ) (hf : KeepsFloat f) :
    HasTy (cancelReservation (2 ^ 53 + 1)).type.ty ((cancelReservation (2 ^ 53 + 1)).val.mapInts f) := by
  have h0 : f (2 ^ 53 + 1) = f (2 ^ 53) := by
    refine hf.same _ _ (by norm_num) (by norm_num) ?_
    rw [fl64_odd]
    exact (isF64_int (n := 2 ^ 53) (by norm_num)).symm
  have h1 : f (2 ^ 53 + 1) = 2 ^ 53 := by rw [h0, hf.small _ (by norm_num)]
  show HasTy (MsgType.req .csreqCancelReservation).ty (.struct [.int (f (2 ^ 53 + 1))])
  rw [h1]
  exact cancel_hasTy (by norm_num)

end Verif.Ocppj
