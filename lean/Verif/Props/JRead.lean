import Verif.Lemmas.JRead3
import Verif.Lemmas.JNum
import Verif.Props.ConnOcpp
/-!
# C75, C76: payloads from a peer, against the schema files
-/
set_option linter.unusedSimpArgs false
namespace Verif.Ocppj
open Json Codec Decode Encode Trip Conn

theorem payload_gets (F : FloatFmt) (o : Order) (m : MsgType) {ms : List (Text × JVal)} {p : Payload} (hh : Holds (.obj ms) (.obj p))
    (hl : Lax m.jschema (.obj ms)) (v : Val) :
    decode o m.ty (anyText F (.obj p)) = .ok v ↔ Gets (onWire F) m.ty m.jschema (.obj ms) v := by
  rw [decode_iff (anyText_value F (.obj p)).jsonText]
  unfold MsgType.read
  rw [plain_msg]
  exact gets_iff F m.ty m.jschema (jfits_msg m) _ hl (Or.inr (by simp)) _ hh v

theorem payload_lax (F : FloatFmt) (o : Order) (m : MsgType) (hm : m.lenient = false) {ms : List (Text × JVal)} {p : Payload}
    (hh : Holds (.obj ms) (.obj p)) {v : Val} (h : decode o m.ty (anyText F (.obj p)) = .ok v) : Lax m.jschema (.obj ms) := by
  rw [decode_iff (anyText_value F (.obj p)).jsonText] at h
  unfold MsgType.read at h
  rw [plain_msg] at h
  exact lax_of_read F m.ty m.jschema (jfits_msg m) (by rw [strict_msg, hm]; rfl) _ _ hh v h

theorem call_shape {text : Text} {k : NumLit} {id a : Text} {ms : List (Text × JVal)} {rest : List JVal}
    (hj : JsonText (.arr (.num k :: .str id :: .str a :: .obj ms :: rest)) text) (hk : IsNum k 2) (hr : InRange (.obj ms)) (hrr : ∀ j ∈ rest, InRange j) :
    ∃ p, Holds (.obj ms) (.obj p) ∧ receive text = .ok (some (.call (String.ofList id) (String.ofList a) p)) := by
  obtain ⟨x, hx⟩ := Option.isSome_iff_exists.1 ((toAny_inRange (.obj ms)).2 hr)
  have hh := (toAny_iff _ _).1 hx
  cases hh with
  | @obj _ p a1 a2 a3 a4 =>
    have hh : Holds (.obj ms) (.obj p) := .obj a1 a2 a3 a4
    refine ⟨p, hh, ?_⟩
    exact read_shape hj ⟨⟨2, hk⟩, True.intro, True.intro, hr, inRanges_iff.2 hrr⟩ (Shape.call hk hh)

theorem result_shape {text : Text} {k : NumLit} {id : Text} {ms : List (Text × JVal)} {rest : List JVal}
    (hj : JsonText (.arr (.num k :: .str id :: .obj ms :: rest)) text) (hk : IsNum k 3) (hr : InRange (.obj ms)) (hrr : ∀ j ∈ rest, InRange j) :
    ∃ p, Holds (.obj ms) (.obj p) ∧ receive text = .ok (some (.result (String.ofList id) p)) := by
  obtain ⟨x, hx⟩ := Option.isSome_iff_exists.1 ((toAny_inRange (.obj ms)).2 hr)
  have hh := (toAny_iff _ _).1 hx
  cases hh with
  | @obj _ p a1 a2 a3 a4 =>
    have hh : Holds (.obj ms) (.obj p) := .obj a1 a2 a3 a4
    refine ⟨p, hh, ?_⟩
    exact read_shape hj ⟨⟨3, hk⟩, True.intro, hr, inRanges_iff.2 hrr⟩ (Shape.result hk hh)

theorem callToRequest_of {F : FloatFmt} {o : Order} {r : ReqType} (hs : r.action ≠ "DataTransfer".toList) (p : Payload) :
    (∀ q, callToRequest F o (String.ofList r.action) p = .ok q ↔ q.type = r ∧ decode o r.ty (anyText F (.obj p)) = .ok q.val) ∧
    ((∀ v, decode o r.ty (anyText F (.obj p)) ≠ .ok v) → callToRequest F o (String.ofList r.action) p = .error "FormationViolation") := by
  unfold callToRequest
  rw [String.toList_ofList, C17_actions.2.1 r hs]
  simp only []
  constructor
  · intro q
    cases hd : decode o r.ty (anyText F (.obj p)) with
    | ok v =>
      simp only [Except.ok.injEq, GoRes.ok.injEq]
      obtain ⟨qt, qv⟩ := q
      simp only [Req.mk.injEq]
      constructor
      · rintro ⟨rfl, rfl⟩; exact ⟨rfl, rfl⟩
      · rintro ⟨rfl, rfl⟩; exact ⟨rfl, rfl⟩
    | err e => simp
    | panic e => simp
  · intro hn
    split
    · rename_i v hv; exact absurd hv (hn v)
    · rfl

theorem resultToResponse_of {F : FloatFmt} {o : Order} {c : ReqType} (hs : c.action ≠ "DataTransfer".toList) (p : Payload) :
    (∀ q, resultToResponse F o (String.ofList c.action) p = .ok q ↔ q.type = c.response ∧ decode o c.response.ty (anyText F (.obj p)) = .ok q.val) ∧
    ((∀ v, decode o c.response.ty (anyText F (.obj p)) ≠ .ok v) → resultToResponse F o (String.ofList c.action) p = .err "FormationViolation") := by
  have hnp : ∀ e, decode o c.response.ty (anyText F (.obj p)) ≠ .panic e := by
    intro e h
    have := (C04_decode o (.resp c.response) (anyText F (.obj p))).2.1
    rw [show decode o (MsgType.resp c.response).ty _ = _ from h] at this
    cases this
  unfold resultToResponse
  rw [String.toList_ofList, C17_actions.2.1 c hs]
  simp only []
  constructor
  · intro q
    cases hd : decode o c.response.ty (anyText F (.obj p)) with
    | ok v =>
      simp only [GoRes.ok.injEq]
      obtain ⟨qt, qv⟩ := q
      simp only [Resp.mk.injEq]
      constructor
      · rintro ⟨rfl, rfl⟩; exact ⟨rfl, rfl⟩
      · rintro ⟨rfl, rfl⟩; exact ⟨rfl, rfl⟩
    | err e => simp
    | panic e => simp
  · intro hn
    cases hd : decode o c.response.ty (anyText F (.obj p)) with
    | ok v => exact absurd hd (hn v)
    | err e => rfl
    | panic e => exact absurd hd (hnp e)

/-- **C75** A Call whose payload is valid against the schema file of its action: the frame is read; the request that comes out (if any) has the
type of the action and its fields are those of the payload, where one function is applied to the integers, the same for all frames,
which keeps integers up to 2^53 and otherwise only the nearest float64; there is a request exactly if every number for an
integer field fits and every time stamp is one, and otherwise the Call is refused as a FormationViolation. -/
theorem C75_call (F : FloatFmt) : ∃ f : ℤ → ℤ, KeepsFloat f ∧
    ∀ (o : Order) (r : ReqType), r.action ≠ "DataTransfer".toList →
    ∀ (text : Text) (k : NumLit) (id : Text) (ms : List (Text × JVal)) (rest : List JVal),
      JsonText (.arr (.num k :: .str id :: .str r.action :: .obj ms :: rest)) text → IsNum k 2 →
      InRange (.obj ms) → (∀ j ∈ rest, InRange j) → Conforms r.jschema (.obj ms) →
      ∃ p, receive text = .ok (some (.call (String.ofList id) (String.ofList r.action) p)) ∧
        (∀ q, callToRequest F o (String.ofList r.action) p = .ok q ↔ q.type = r ∧ Gets f r.ty r.jschema (.obj ms) q.val) ∧
        ((∃ q, callToRequest F o (String.ofList r.action) p = .ok q) ↔ ∀ t j, Part r.ty r.jschema (.obj ms) t j → Takable t j) ∧
        (¬ (∀ t j, Part r.ty r.jschema (.obj ms) t j → Takable t j) →
          callToRequest F o (String.ofList r.action) p = .error "FormationViolation") := by
  refine ⟨onWire F, keepsFloat F, ?_⟩
  intro o r hs text k id ms rest hj hk hr hrr hc
  obtain ⟨p, hh, hrec⟩ := call_shape hj hk hr hrr
  have hl := conforms_lax hc
  have hg : ∀ v, decode o r.ty (anyText F (.obj p)) = .ok v ↔ Gets (onWire F) r.ty r.jschema (.obj ms) v :=
    payload_gets F o (.req r) hh hl
  have ht : (∃ v, Gets (onWire F) r.ty r.jschema (.obj ms) v) ↔ ∀ t j, Part r.ty r.jschema (.obj ms) t j → Takable t j :=
    takable_iff (onWire F) (MsgType.req r).ty _ (jfits_msg (.req r)) _ hl (Or.inr (by simp)) _ hh
  obtain ⟨h1, h2⟩ := callToRequest_of (F := F) (o := o) hs p
  refine ⟨p, hrec, fun q => (h1 q).trans (and_congr_right fun _ => hg _), ?_, ?_⟩
  · rw [← ht]
    constructor
    · rintro ⟨q, hq⟩; exact ⟨q.val, (hg _).1 ((h1 q).1 hq).2⟩
    · rintro ⟨v, hv⟩; exact ⟨⟨r, v⟩, (h1 _).2 ⟨rfl, (hg v).2 hv⟩⟩
  · intro hn
    refine h2 fun v hv => hn (ht.1 ⟨v, (hg v).1 hv⟩)

/-- **C75** The same for the response in a CallResult to a request of type `c`: the waiting `Send` gets the response, or the error. -/
theorem C75_result (F : FloatFmt) : ∃ f : ℤ → ℤ, KeepsFloat f ∧
    ∀ (o : Order) (c : ReqType), c.action ≠ "DataTransfer".toList →
    ∀ (text : Text) (k : NumLit) (id : Text) (ms : List (Text × JVal)) (rest : List JVal),
      JsonText (.arr (.num k :: .str id :: .obj ms :: rest)) text → IsNum k 3 →
      InRange (.obj ms) → (∀ j ∈ rest, InRange j) → Conforms c.response.jschema (.obj ms) →
      ∃ p, receive text = .ok (some (.result (String.ofList id) p)) ∧
        (∀ q, resultToResponse F o (String.ofList c.action) p = .ok q ↔
          q.type = c.response ∧ Gets f c.response.ty c.response.jschema (.obj ms) q.val) ∧
        ((∃ q, resultToResponse F o (String.ofList c.action) p = .ok q) ↔
          ∀ t j, Part c.response.ty c.response.jschema (.obj ms) t j → Takable t j) ∧
        (¬ (∀ t j, Part c.response.ty c.response.jschema (.obj ms) t j → Takable t j) →
          resultToResponse F o (String.ofList c.action) p = .err "FormationViolation") := by
  refine ⟨onWire F, keepsFloat F, ?_⟩
  intro o c hs text k id ms rest hj hk hr hrr hc
  obtain ⟨p, hh, hrec⟩ := result_shape hj hk hr hrr
  have hl := conforms_lax hc
  have hg : ∀ v, decode o c.response.ty (anyText F (.obj p)) = .ok v ↔ Gets (onWire F) c.response.ty c.response.jschema (.obj ms) v :=
    payload_gets F o (.resp c.response) hh hl
  have ht : (∃ v, Gets (onWire F) c.response.ty c.response.jschema (.obj ms) v) ↔
      ∀ t j, Part c.response.ty c.response.jschema (.obj ms) t j → Takable t j :=
    takable_iff (onWire F) (MsgType.resp c.response).ty _ (jfits_msg (.resp c.response)) _ hl (Or.inr (by simp)) _ hh
  obtain ⟨h1, h2⟩ := resultToResponse_of (F := F) (o := o) hs p
  refine ⟨p, hrec, fun q => (h1 q).trans (and_congr_right fun _ => hg _), ?_, ?_⟩
  · rw [← ht]
    constructor
    · rintro ⟨q, hq⟩; exact ⟨q.val, (hg _).1 ((h1 q).1 hq).2⟩
    · rintro ⟨v, hv⟩; exact ⟨⟨c.response, v⟩, (h1 _).2 ⟨rfl, (hg v).2 hv⟩⟩
  · intro hn
    refine h2 fun v hv => hn (ht.1 ⟨v, (hg v).1 hv⟩)

/-- **C75** What that means on a connection (see `C20_calls`): the valid Call is due to the handler with those fields, or due to be refused. -/
theorem C75_due (F : FloatFmt) : ∃ f : ℤ → ℤ, KeepsFloat f ∧
    ∀ (r : ReqType), r.action ≠ "DataTransfer".toList →
    ∀ (text : Text) (k : NumLit) (id : Text) (ms : List (Text × JVal)) (rest : List JVal),
      JsonText (.arr (.num k :: .str id :: .str r.action :: .obj ms :: rest)) text → IsNum k 2 →
      InRange (.obj ms) → (∀ j ∈ rest, InRange j) → Conforms r.jschema (.obj ms) →
      (∀ i q, requestDue F text = some (i, q) ↔ i = String.ofList id ∧ q.type = r ∧ Gets f r.ty r.jschema (.obj ms) q.val) ∧
      (∀ i c, refusalDue F text = some (i, c) ↔ i = String.ofList id ∧ c = "FormationViolation" ∧
        ¬ ∀ t j, Part r.ty r.jschema (.obj ms) t j → Takable t j) := by
  obtain ⟨f, hf, h⟩ := C75_call F
  refine ⟨f, hf, ?_⟩
  intro r hs text k id ms rest hj hk hr hrr hc
  obtain ⟨p, h1, h2, h3, h4⟩ := h ⟨fun _ l => l, fun _ _ => List.Perm.refl _⟩ r hs text k id ms rest hj hk hr hrr hc
  rw [callToRequest_eq] at h3 h4
  have hd : due F text = some (String.ofList id, dueTo F (String.ofList r.action) p) := by
    unfold due; rw [h1]
  constructor
  · intro i q
    have := h2 q
    rw [callToRequest_eq] at this
    rw [← this]
    unfold requestDue
    rw [hd]
    cases dueTo F (String.ofList r.action) p with
    | error c => simp
    | ok q' => simp [eq_comm]
  · intro i c
    unfold refusalDue
    rw [hd]
    by_cases hp : ∀ t j, Part r.ty r.jschema (.obj ms) t j → Takable t j
    · obtain ⟨q, hq⟩ := h3.2 hp
      rw [hq]
      simp only [reduceCtorEq, false_iff]
      rintro ⟨_, _, h⟩
      exact h hp
    · rw [h4 hp]
      constructor
      · intro h
        simp only [Option.some.injEq, Prod.mk.injEq] at h
        exact ⟨h.1.symm, h.2.symm, hp⟩
      · rintro ⟨rfl, rfl, _⟩; rfl

mutual
/-- The widths of the integers in a Go type. -/
def widths : Ty → List Nat
  | .int b => [b]
  | .ptr t => widths t
  | .slice t => widths t
  | .struct _ ts => widthss ts
  | _ => []
def widthss : List Ty → List Nat
  | [] => []
  | t :: ts => widths t ++ widthss ts
end

theorem widthss_mem {ts : List Ty} {t : Ty} (h : t ∈ ts) {b : Nat} (hb : b ∈ widths t) : b ∈ widthss ts := by
  induction ts with
  | nil => cases h
  | cons x ts ih =>
    rw [widthss, List.mem_append]
    rcases List.mem_cons.1 h with rfl | h
    · exact Or.inl hb
    · exact Or.inr (ih h)

theorem part_width {t t' : Ty} {sch : JSchema} {j j' : JVal} (h : Part t sch j t' j') {b : Nat} (ht : t' = .int b) : b ∈ widths t := by
  induction h with
  | int => cases ht; exact List.mem_singleton.2 rfl
  | ptr _ ih => exact ih ht
  | item _ _ ih => exact ih ht
  | prop _ h2 _ _ _ ih => exact widthss_mem (List.mem_of_getElem? h2) (ih ht)
  | _ => cases ht

set_option maxRecDepth 20000 in
theorem widths_msg (m : MsgType) : (widths m.ty).all (fun b => b == 64 || (b == 32 &&
    (m == .req .cpreqMeterValues || m == .resp .cprespStartTransaction || m == .req .csreqRemoteStartTransaction || m == .req .csreqRemoteStopTransaction))) = true := by
  cases m with
  | req r => cases r <;> decide
  | resp r => cases r <;> decide

/-- **C75** The integers that fit: all below 2^63 - 512 in absolute value, and the 32 bit integers for the four messages with 32 bit fields. -/
theorem C75_integers (m : MsgType) (j : JVal) (b : Nat) (l : NumLit) (n : ℤ) (hp : Part m.ty m.jschema j (.int b) (.num l)) (hn : l.value = (n : ℚ)) :
    (b = 64 ∧ (Takable (.int b) (.num l) ↔ |n| < 2 ^ 63 - 512)) ∨
    (b = 32 ∧ (Takable (.int b) (.num l) ↔ -(2 ^ 31) ≤ n ∧ n < 2 ^ 31) ∧
      (m = .req .cpreqMeterValues ∨ m = .resp .cprespStartTransaction ∨ m = .req .csreqRemoteStartTransaction ∨ m = .req .csreqRemoteStopTransaction)) := by
  have h := List.all_eq_true.1 (widths_msg m) b (part_width hp rfl)
  simp only [Bool.or_eq_true, beq_iff_eq, Bool.and_eq_true] at h
  rcases h with rfl | ⟨rfl, h⟩
  · exact Or.inl ⟨rfl, fits64 hn⟩
  · exact Or.inr ⟨rfl, fits32 hn, by tauto⟩

/-- **C76** For all requests but the two leniently decoded ones: which payloads make the handler see a request.  Those that
are valid against the schema file up to the enumerations and lengths of strings, and the kinds of numbers, or have `null` somewhere; none of that is
checked on receipt. -/
theorem C76_call (F : FloatFmt) : ∃ f : ℤ → ℤ, KeepsFloat f ∧
    ∀ (o : Order) (r : ReqType), r.action ≠ "DataTransfer".toList → (MsgType.req r).lenient = false →
    ∀ (text : Text) (k : NumLit) (id : Text) (ms : List (Text × JVal)) (rest : List JVal),
      JsonText (.arr (.num k :: .str id :: .str r.action :: .obj ms :: rest)) text → IsNum k 2 →
      InRange (.obj ms) → (∀ j ∈ rest, InRange j) →
      ∃ p, receive text = .ok (some (.call (String.ofList id) (String.ofList r.action) p)) ∧
        (∀ q, callToRequest F o (String.ofList r.action) p = .ok q ↔
          q.type = r ∧ Lax r.jschema (.obj ms) ∧ Gets f r.ty r.jschema (.obj ms) q.val) ∧
        (¬ (Lax r.jschema (.obj ms) ∧ ∀ t j, Part r.ty r.jschema (.obj ms) t j → Takable t j) →
          callToRequest F o (String.ofList r.action) p = .error "FormationViolation") := by
  refine ⟨onWire F, keepsFloat F, ?_⟩
  intro o r hs hle text k id ms rest hj hk hr hrr
  obtain ⟨p, hh, hrec⟩ := call_shape hj hk hr hrr
  have hg : ∀ v, decode o r.ty (anyText F (.obj p)) = .ok v ↔ Lax r.jschema (.obj ms) ∧ Gets (onWire F) r.ty r.jschema (.obj ms) v := by
    intro v
    constructor
    · intro hv
      have hl : Lax (MsgType.req r).jschema (.obj ms) := payload_lax F o (.req r) hle hh hv
      exact ⟨hl, (payload_gets F o (.req r) hh hl v).1 hv⟩
    · rintro ⟨hl, hv⟩
      exact (payload_gets F o (.req r) hh hl v).2 hv
  obtain ⟨h1, h2⟩ := callToRequest_of (F := F) (o := o) hs p
  refine ⟨p, hrec, fun q => (h1 q).trans (and_congr_right fun _ => hg _), ?_⟩
  intro hn
  refine h2 fun v hv => hn ?_
  obtain ⟨hl, hv⟩ := (hg v).1 hv
  exact ⟨hl, (takable_iff (onWire F) (MsgType.req r).ty _ (jfits_msg (.req r)) _ hl (Or.inr (by simp)) _ hh).1 ⟨v, hv⟩⟩

/-- **C76** And for all responses. -/
theorem C76_result (F : FloatFmt) : ∃ f : ℤ → ℤ, KeepsFloat f ∧
    ∀ (o : Order) (c : ReqType), c.action ≠ "DataTransfer".toList →
    ∀ (text : Text) (k : NumLit) (id : Text) (ms : List (Text × JVal)) (rest : List JVal),
      JsonText (.arr (.num k :: .str id :: .obj ms :: rest)) text → IsNum k 3 →
      InRange (.obj ms) → (∀ j ∈ rest, InRange j) →
      ∃ p, receive text = .ok (some (.result (String.ofList id) p)) ∧
        (∀ q, resultToResponse F o (String.ofList c.action) p = .ok q ↔
          q.type = c.response ∧ Lax c.response.jschema (.obj ms) ∧ Gets f c.response.ty c.response.jschema (.obj ms) q.val) ∧
        (¬ (Lax c.response.jschema (.obj ms) ∧ ∀ t j, Part c.response.ty c.response.jschema (.obj ms) t j → Takable t j) →
          resultToResponse F o (String.ofList c.action) p = .err "FormationViolation") := by
  refine ⟨onWire F, keepsFloat F, ?_⟩
  intro o c hs text k id ms rest hj hk hr hrr
  obtain ⟨p, hh, hrec⟩ := result_shape hj hk hr hrr
  have hle : (MsgType.resp c.response).lenient = false := by cases c.response <;> decide
  have hg : ∀ v, decode o c.response.ty (anyText F (.obj p)) = .ok v ↔
      Lax c.response.jschema (.obj ms) ∧ Gets (onWire F) c.response.ty c.response.jschema (.obj ms) v := by
    intro v
    constructor
    · intro hv
      have hl : Lax (MsgType.resp c.response).jschema (.obj ms) := payload_lax F o (.resp c.response) hle hh hv
      exact ⟨hl, (payload_gets F o (.resp c.response) hh hl v).1 hv⟩
    · rintro ⟨hl, hv⟩
      exact (payload_gets F o (.resp c.response) hh hl v).2 hv
  obtain ⟨h1, h2⟩ := resultToResponse_of (F := F) (o := o) hs p
  refine ⟨p, hrec, fun q => (h1 q).trans (and_congr_right fun _ => hg _), ?_⟩
  intro hn
  refine h2 fun v hv => hn ?_
  obtain ⟨hl, hv⟩ := (hg v).1 hv
  exact ⟨hl, (takable_iff (onWire F) (MsgType.resp c.response).ty _ (jfits_msg (.resp c.response)) _ hl (Or.inr (by simp)) _ hh).1 ⟨v, hv⟩⟩

/-! ### The hypotheses are met -/

theorem noWs : IsWs [] := by intro c hc; cases hc

theorem elems_text {js : List JVal} (h : ∀ j ∈ js, ∃ t, Value j t) (hne : js ≠ []) : ∃ t, Elems js t := by
  induction js with
  | nil => exact absurd rfl hne
  | cons j js ih =>
    obtain ⟨t, ht⟩ := h j (by simp)
    cases js with
    | nil => exact ⟨_, .one noWs ht noWs⟩
    | cons k ks =>
      obtain ⟨u, hu⟩ := ih (fun x hx => h x (by simp [hx])) (by simp)
      exact ⟨_, .cons noWs ht noWs hu⟩

theorem members_text {ms : List (Text × JVal)} (h : ∀ m ∈ ms, ∃ t, Value m.2 t) (hne : ms ≠ []) : ∃ t, Members ms t := by
  have hs : ∀ k : Text, ∃ kt, Str k kt := fun k => by
    have h := value_quote k
    cases h with
    | str h => exact ⟨_, h⟩
  induction ms with
  | nil => exact absurd rfl hne
  | cons j js ih =>
    obtain ⟨t, ht⟩ := h j (by simp)
    obtain ⟨kt, hk⟩ := hs j.1
    cases js with
    | nil => exact ⟨_, .one noWs hk noWs noWs ht noWs⟩
    | cons k ks =>
      obtain ⟨u, hu⟩ := ih (fun x hx => h x (by simp [hx])) (by simp)
      exact ⟨_, .cons noWs hk noWs noWs ht noWs hu⟩

/-- Every JSON value is denoted by a text. -/
theorem value_text (j : JVal) : ∃ t, Value j t := by
  match j with
  | .null => exact ⟨_, .null⟩
  | .bool true => exact ⟨_, .true_⟩
  | .bool false => exact ⟨_, .false_⟩
  | .num l => exact ⟨_, value_rawOfLit l⟩
  | .str s => exact ⟨_, value_quote s⟩
  | .arr js =>
    by_cases hj : js = []
    · subst hj; exact ⟨_, .arrNil noWs⟩
    · obtain ⟨t, ht⟩ := elems_text (js := js) (fun j _ => value_text j) hj
      exact ⟨_, .arr ht⟩
  | .obj ms =>
    by_cases hj : ms = []
    · subst hj; exact ⟨_, .objNil noWs⟩
    · obtain ⟨t, ht⟩ := members_text (ms := ms) (fun m _ => value_text m.2) hj
      exact ⟨_, .obj ht⟩
termination_by sizeOf j
decreasing_by
  · have := List.sizeOf_lt_of_mem ‹j ∈ js›
    simp; omega
  · have := List.sizeOf_lt_of_mem ‹m ∈ ms›
    have h2 : sizeOf m = 1 + sizeOf m.1 + sizeOf m.2 := by cases m; rfl
    simp; omega

theorem isNum_int {n : ℤ} (h : |n| ≤ 2 ^ 53) : IsNum (.ofInt n) (n : ℚ) := by
  unfold IsNum; rw [value_ofInt]; exact isF64_int h

/-- The payload that spells the reservation number `1e2` is valid, and comes out as 100: C75 applies to it. -/
example (F : FloatFmt) (o : Order) : ∃ text p,
    JsonText (.arr [.num (.ofInt 2), .str "7".toList, .str "CancelReservation".toList, .obj [("reservationId".toList, .num oneE2)]]) text ∧
    receive text = .ok (some (.call "7" "CancelReservation" p)) ∧
    callToRequest F o "CancelReservation" p = .ok (cancelReservation 100) := by
  obtain ⟨text, ht⟩ := value_text (.arr [.num (.ofInt 2), .str "7".toList, .str "CancelReservation".toList, .obj [("reservationId".toList, .num oneE2)]])
  obtain ⟨f, hf, h⟩ := C75_call F
  have hval : oneE2.value = ((100 : ℤ) : ℚ) := by norm_num [oneE2, NumLit.value, fracVal]
  obtain ⟨p, h1, h2, -, -⟩ := h o .csreqCancelReservation (by decide) text (.ofInt 2) "7".toList [("reservationId".toList, .num oneE2)] []
    ht.jsonText (by simpa using isNum_int (n := 2) (by norm_num)) ⟨⟨_, oneE2_num⟩, True.intro⟩ (by simp) (by
      refine .obj ?_ (by decide) (by decide)
      intro k sch j hk hm
      rcases List.mem_singleton.1 hm with ⟨⟩
      have : sch = .int := by
        rcases List.mem_singleton.1 hk with ⟨⟩
        rfl
      subst this
      exact .int hval)
  refine ⟨text, p, ht.jsonText, h1, (h2 _).2 ⟨rfl, ?_⟩⟩
  refine .struct rfl (by decide) ?_ ?_
  · intro i fl t v sch j a1 a2 a3 a4 a5
    match i with
    | 0 =>
      cases a1; cases a2; cases a3
      have : j = .num oneE2 := by
        have := lastVal_mem a5
        simpa using this
      subst this
      have hi : IntFits 64 oneE2 100 := ⟨oneE2_num, by norm_num, by norm_num, by norm_num⟩
      have := Gets.int (f := f) (sch := sch) hi
      rwa [hf.small 100 (by norm_num)] at this
    | i + 1 => cases a1
  · intro i fl t v a1 a2 a3 a4
    match i with
    | 0 =>
      cases a1
      rcases a4 with h | h
      · exact absurd h (by decide)
      · exact absurd h (by decide)
    | i + 1 => cases a1

/-- A number that no 64 bit field takes although it is one: 2^63 - 512. -/
example : ¬ Takable (.int 64) (.num (.ofInt (2 ^ 63 - 512))) ∧ Takable (.int 64) (.num (.ofInt (2 ^ 63 - 513))) := by
  refine ⟨fun h => ?_, ?_⟩
  · have := (fits64 (value_ofInt _)).1 h
    norm_num at this
  · exact (fits64 (value_ofInt _)).2 (by norm_num)

/-- A tag longer than the schema allows is no reason to refuse: the handler gets it. -/
example (F : FloatFmt) (o : Order) (tag : Text) (hlen : 20 < tag.length) : ∃ text p,
    JsonText (.arr [.num (.ofInt 2), .str "7".toList, .str "Authorize".toList, .obj [("idTag".toList, .str tag)]]) text ∧
    receive text = .ok (some (.call "7" "Authorize" p)) ∧
    callToRequest F o "Authorize" p = .ok ⟨.cpreqAuthorize, .struct [.str tag]⟩ ∧
    ¬ Conforms ReqType.cpreqAuthorize.jschema (.obj [("idTag".toList, .str tag)]) := by
  obtain ⟨text, ht⟩ := value_text (.arr [.num (.ofInt 2), .str "7".toList, .str "Authorize".toList, .obj [("idTag".toList, .str tag)]])
  obtain ⟨f, hf, h⟩ := C76_call F
  obtain ⟨p, h1, h2, -⟩ := h o .cpreqAuthorize (by decide) (by decide) text (.ofInt 2) "7".toList [("idTag".toList, .str tag)] []
    ht.jsonText (by simpa using isNum_int (n := 2) (by norm_num)) ⟨True.intro, True.intro⟩ (by simp)
  refine ⟨text, p, ht.jsonText, h1, (h2 _).2 ⟨rfl, ?_, ?_⟩, ?_⟩
  · refine .obj ?_ ?_ ?_
    · intro k sch j hk hm
      rcases List.mem_singleton.1 hk with ⟨⟩
      have : j = .str tag := by simpa using lastVal_mem hm
      subst this
      exact .str
    · intro k hk; rcases List.mem_singleton.1 hk with ⟨⟩; simp
    · intro _ k hk; rcases List.mem_singleton.1 hk with ⟨⟩; simp
  · refine .struct rfl ?_ ?_ ?_
    · intro k hk
      exact ⟨_, List.mem_singleton.2 rfl, by rcases List.mem_singleton.1 hk with ⟨⟩; rfl⟩
    · intro i fl t v sch j a1 a2 a3 a4 a5
      match i with
      | 0 =>
        cases a1; cases a2; cases a3
        have : j = .str tag := by simpa using lastVal_mem a5
        subst this
        exact .str
      | i + 1 => cases a1
    · intro i fl t v a1 a2 a3 a4
      match i with
      | 0 =>
        cases a1
        rcases a4 with h | h
        · exact absurd h (by decide)
        · simp [lastVal] at h
      | i + 1 => cases a1
  · intro h
    cases h with
    | obj h _ _ =>
      have := h "idTag".toList _ (.str tag) (List.mem_singleton.2 rfl) (by simp)
      cases this with
      | str h => have := h.2 20 rfl; omega

end Verif.Ocppj
