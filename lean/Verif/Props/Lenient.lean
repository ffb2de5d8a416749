import Verif.Lemmas.Lenient
import Verif.Props.JRead
/-!
# C63, C76 for the two requests that are decoded leniently: RemoteStartTransaction and RemoteStopTransaction
-/
set_option linter.unusedSimpArgs false
namespace Verif.Ocppj
open Json Codec Decode Encode Trip Conn

/-- No two property names of the object are names, up to case, of one field. -/
def OneEach (fs : List FieldInfo) (ms : List (Text × JVal)) : Prop :=
  ∀ f ∈ fs, ∀ k ∈ ms.map Prod.fst, ∀ k' ∈ ms.map Prod.fst, foldName k = foldName f.json → foldName k' = foldName f.json → k = k'

/-- What a request that is decoded leniently takes from an object: each field the value of the property with its name up to case, which must be
valid but for enumerations, lengths and nulls; a field without property is zero. -/
def Collects (f : ℤ → ℤ) (fs : List FieldInfo) (ts : List Ty) (props : List (Text × JSchema)) (ms : List (Text × JVal)) (v : Val) : Prop :=
  ∃ vs, v = .struct vs ∧ vs.length = ts.length ∧ ∀ (i : Nat) fl t sch x, fs[i]? = some fl → ts[i]? = some t → (fl.json, sch) ∈ props → vs[i]? = some x →
    (∀ k j, foldName k = foldName fl.json → lastVal ms k = some j → Lax sch j ∧ Gets f t sch j x) ∧
    ((∀ k ∈ ms.map Prod.fst, foldName k ≠ foldName fl.json) → x = zeroVal t)

theorem entry_iff (F : FloatFmt) {ms : List (Text × JVal)} {p : Payload} (hh : Holds (.obj ms) (.obj p)) (k : Text) (y : JVal) :
    (k, y) ∈ jsonOfEntries F p ↔ ∃ j a, lastVal ms k = some j ∧ Holds j a ∧ y = jsonOf F a ∧ p.lookup k = some a := by
  cases hh with
  | obj hs hl hsome hr =>
    rw [← lastVal_nodup (by rw [entries_keys]; exact keys_nodup hs), lastVal_entries F hs]
    have := hsome k
    cases hp : p.lookup k with
    | none => simp
    | some a =>
      rw [hp] at this
      obtain ⟨j, hj⟩ := Option.isSome_iff_exists.1 this.symm
      simp only [Option.map_some, Option.some.injEq]
      constructor
      · rintro rfl; exact ⟨j, a, hj, hl _ _ _ hp hj, rfl, rfl⟩
      · rintro ⟨j', a', _, _, rfl, e⟩; rw [e]

theorem entry_key (F : FloatFmt) {ms : List (Text × JVal)} {p : Payload} (hh : Holds (.obj ms) (.obj p)) (k : Text) :
    k ∈ (jsonOfEntries F p).map Prod.fst ↔ k ∈ ms.map Prod.fst := by
  constructor
  · intro h
    obtain ⟨⟨k, y⟩, hy, rfl⟩ := List.mem_map.1 h
    obtain ⟨j, a, h1, -⟩ := (entry_iff F hh k y).1 hy
    exact List.mem_map.2 ⟨_, lastVal_mem h1, rfl⟩
  · intro h
    cases hl : lastVal ms k with
    | none => exact absurd h (lastVal_none.1 hl)
    | some j =>
      have hh' := hh
      cases hh with
      | obj hs h2 hsome hr =>
        have := hsome k
        rw [hl] at this
        obtain ⟨a, ha⟩ := Option.isSome_iff_exists.1 this
        exact List.mem_map_of_mem (f := Prod.fst) ((entry_iff F hh' k (jsonOf F a)).2 ⟨j, a, hl, h2 _ _ _ ha hl, rfl, ha⟩)

theorem lenient_strict {m : MsgType} (hm : m.lenient = true) {info : StructInfo} {ts : List Ty} (ht : m.ty = .struct info ts) :
    ∀ t ∈ ts, strict t = true := by
  simp only [MsgType.lenient, Bool.or_eq_true, beq_iff_eq] at hm
  rcases hm with rfl | rfl
  · have h : csreq.RemoteStartTransaction = .struct info ts := ht
    rw [csreq.RemoteStartTransaction] at h
    cases h; decide
  · have h : csreq.RemoteStopTransaction = .struct info ts := ht
    rw [csreq.RemoteStopTransaction] at h
    cases h; decide

theorem lenient_keeps {m : MsgType} (hm : m.lenient = true) {info : StructInfo} {ts : List Ty} (ht : m.ty = .struct info ts) :
    ∀ t ∈ ts, isScalar t = true → keeps t = true := by
  simp only [MsgType.lenient, Bool.or_eq_true, beq_iff_eq] at hm
  rcases hm with rfl | rfl
  · have h : csreq.RemoteStartTransaction = .struct info ts := ht
    rw [csreq.RemoteStartTransaction] at h
    cases h; decide
  · have h : csreq.RemoteStopTransaction = .struct info ts := ht
    rw [csreq.RemoteStopTransaction] at h
    cases h; decide

theorem lenient_fields {m : MsgType} (hm : m.lenient = true) {info : StructInfo} {ts : List Ty} (ht : m.ty = .struct info ts)
    {props : List (Text × JSchema)} {required : List Text} {closed : Bool} (hs : m.jschema = .obj props required closed) :
    ∀ fl ∈ info.fields, fl.json ∈ props.map Prod.fst := by
  simp only [MsgType.lenient, Bool.or_eq_true, beq_iff_eq] at hm
  rcases hm with rfl | rfl
  · have h : csreq.RemoteStartTransaction = .struct info ts := ht
    rw [csreq.RemoteStartTransaction] at h
    cases h; cases hs; decide
  · have h : csreq.RemoteStopTransaction = .struct info ts := ht
    rw [csreq.RemoteStopTransaction] at h
    cases h; cases hs; decide

theorem lenient_read {m : MsgType} (hm : m.lenient = true) {info : StructInfo} {ts : List Ty} (ht : m.ty = .struct info ts)
    {props : List (Text × JSchema)} {required : List Text} {closed : Bool} (hs : m.jschema = .obj props required closed) (ms : List (Text × JVal)) :
    m.read (.obj ms) = (readLenient info.fields (readers ts info.fields (plains props)) ms (zeroVals ts)).map .struct := by
  obtain ⟨info', ts', props', required', ht', hs', hre⟩ := msg_struct m
  rw [ht] at ht'; cases ht'
  unfold MsgType.read
  rw [ht, plain_msg, hs]
  simp only [plain, read, readStruct, hre, hm, if_true, zeroVal, Val.fields]

theorem lenient_struct (m : MsgType) : ∃ info ts props required closed, m.ty = .struct info ts ∧ m.jschema = .obj props required closed := by
  cases m with
  | req r => cases r <;> exact ⟨_, _, _, _, _, rfl, rfl⟩
  | resp r => cases r <;> exact ⟨_, _, _, _, _, rfl, rfl⟩

theorem lenient_sch {m : MsgType} {info : StructInfo} {ts : List Ty} (ht : m.ty = .struct info ts)
    {props : List (Text × JSchema)} {required : List Text} {closed : Bool} (hs : m.jschema = .obj props required closed) :
    info.fields.length = ts.length ∧ ∀ (i : Nat) fl t sch, info.fields[i]? = some fl → ts[i]? = some t → (fl.json, sch) ∈ props →
      props.lookup fl.json = some sch ∧ jfits t sch = true ∧ notStruct t = true := by
  have hf := jfits_msg m
  rw [ht, hs] at hf
  simp only [jfits, Bool.and_eq_true, decide_eq_true_eq] at hf
  obtain ⟨h1, h2⟩ := jfitss_get hf.2
  refine ⟨h1, ?_⟩
  intro i fl t sch a1 a2 a3
  have : props.lookup fl.json = some sch := by
    have hn := hf.1.1.1.1
    clear hf h1 h2 hs
    induction props with
    | nil => cases a3
    | cons q ps ih =>
      obtain ⟨k, s⟩ := q
      rw [List.map_cons, List.nodup_cons] at hn
      rw [List.lookup_cons]
      rcases List.mem_cons.1 a3 with e | e
      · cases e; simp
      · have : fl.json ≠ k := fun e' => hn.1 (List.mem_map.2 ⟨_, e, e'⟩)
        rw [beq_false_of_ne this]
        exact ih e hn.2
  exact ⟨this, h2 i fl t sch a1 a2 this⟩

theorem payload_lenient (F : FloatFmt) (o : Order) (m : MsgType) (hm : m.lenient = true) {info : StructInfo} {ts : List Ty} (ht : m.ty = .struct info ts)
    {props : List (Text × JSchema)} {required : List Text} {closed : Bool} (hs : m.jschema = .obj props required closed)
    {ms : List (Text × JVal)} {p : Payload} (hh : Holds (.obj ms) (.obj p)) (hone : OneEach info.fields ms) (v : Val) :
    decode o m.ty (anyText F (.obj p)) = .ok v ↔ Collects (onWire F) info.fields ts props ms v := by
  have hn := lenient_names hm ht
  obtain ⟨hlen, hsch⟩ := lenient_sch ht hs
  have hjt := (anyText_value F (.obj p)).jsonText
  simp only [jsonOf] at hjt
  rw [decode_iff hjt, lenient_read hm ht hs]
  have hpw : (jsonOfEntries F p).Pairwise fun a b => ∀ i, fieldOf info.fields a.1 = some i → fieldOf info.fields b.1 ≠ some i := by
    have hnd : ((jsonOfEntries F p).map Prod.fst).Nodup := by
      cases hh with
      | obj hs _ _ _ => rw [entries_keys]; exact keys_nodup hs
    have hnd' := List.pairwise_map.1 hnd
    refine List.Pairwise.imp_of_mem ?_ hnd'
    intro a b ha hb hab i h1 h2
    have hil := fieldOf_lt h1
    have hi : info.fields[i]? = some info.fields[i] := List.getElem?_eq_getElem hil
    refine hab (hone _ (List.mem_of_getElem? hi) _ ((entry_key F hh _).1 (List.mem_map_of_mem ha)) _
      ((entry_key F hh _).1 (List.mem_map_of_mem hb)) ((fieldOf_iff hn hi _).1 h1) ((fieldOf_iff hn hi _).1 h2))
  rw [Option.map_eq_some_iff]
  have hrl : (readers ts info.fields (plains props)).length = info.fields.length := readers_length _ _ _ hlen
  have hzl : (zeroVals ts).length = info.fields.length := by rw [zeroVals_length, hlen]
  have hfield : ∀ (i : Nat) fl t sch x, info.fields[i]? = some fl → ts[i]? = some t → (fl.json, sch) ∈ props →
      (((∀ e ∈ jsonOfEntries F p, fieldOf info.fields e.1 = some i → read t (plain sch) e.2 (zeroVal t) = some x) ∧
        ((∀ e ∈ jsonOfEntries F p, fieldOf info.fields e.1 ≠ some i) → x = zeroVal t)) ↔
       ((∀ k j, foldName k = foldName fl.json → lastVal ms k = some j → Lax sch j ∧ Gets (onWire F) t sch j x) ∧
        ((∀ k ∈ ms.map Prod.fst, foldName k ≠ foldName fl.json) → x = zeroVal t))) := by
    intro i fl t sch x h1 h2 h3
    obtain ⟨-, hfit, hns⟩ := hsch i fl t sch h1 h2 h3
    refine and_congr ?_ ?_
    · constructor
      · intro h k j hk hj
        have hkm : k ∈ (jsonOfEntries F p).map Prod.fst := (entry_key F hh k).2 (List.mem_map_of_mem (f := Prod.fst) (lastVal_mem hj))
        obtain ⟨⟨k', y⟩, hy, rfl⟩ := List.mem_map.1 hkm
        obtain ⟨j', a, e1, e2, rfl, -⟩ := (entry_iff F hh _ _).1 hy
        simp only [] at hj
        rw [hj] at e1; cases e1
        have hr := h _ hy ((fieldOf_iff hn h1 _).2 hk)
        have hl := lax_of_read F t sch hfit (lenient_strict hm ht t (List.mem_of_getElem? h2)) j a e2 x hr
        exact ⟨hl, (gets_iff F t sch hfit j hl (Or.inl hns) a e2 x).1 hr⟩
      · rintro h ⟨k, y⟩ hy hk
        obtain ⟨j, a, e1, e2, rfl, -⟩ := (entry_iff F hh _ _).1 hy
        obtain ⟨hl, hg⟩ := h k j ((fieldOf_iff hn h1 _).1 hk) e1
        exact (gets_iff F t sch hfit j hl (Or.inl hns) a e2 x).2 hg
    · refine imp_congr ?_ Iff.rfl
      constructor
      · intro h k hk hkf
        obtain ⟨⟨k', y⟩, hy, rfl⟩ := List.mem_map.1 ((entry_key F hh k).2 hk)
        exact h _ hy ((fieldOf_iff hn h1 _).2 hkf)
      · intro h e he hk
        exact h e.1 ((entry_key F hh _).1 (List.mem_map_of_mem he)) ((fieldOf_iff hn h1 _).1 hk)
  constructor
  · rintro ⟨vs, h, rfl⟩
    obtain ⟨g1, g2⟩ := (readLenient_iff hrl hpw hzl vs).1 h
    refine ⟨vs, rfl, by rw [g1, zeroVals_length], ?_⟩
    intro i fl t sch x h1 h2 h3 h4
    have hrd := readers_get (props := plains props) h2 h1
    rw [plains_lookup, (hsch i fl t sch h1 h2 h3).1] at hrd
    exact (hfield i fl t sch x h1 h2 h3).1 (g2 i _ _ x hrd (zeroVals_get h2) h4)
  · rintro ⟨vs, rfl, g1, g2⟩
    refine ⟨vs, (readLenient_iff hrl hpw hzl vs).2 ⟨by rw [g1, zeroVals_length], ?_⟩, rfl⟩
    intro i r z x hr hz hx
    have hil : i < ts.length := by rw [← g1]; exact (List.getElem?_eq_some_iff.1 hx).1
    have h2 : ts[i]? = some ts[i] := List.getElem?_eq_getElem hil
    have h1 : info.fields[i]? = some info.fields[i] := List.getElem?_eq_getElem (by omega)
    obtain ⟨⟨k, sch⟩, h3, hk⟩ := List.mem_map.1 (lenient_fields hm ht hs _ (List.mem_of_getElem? h1))
    simp only [] at hk
    subst hk
    have hrd := readers_get (props := plains props) h2 h1
    rw [plains_lookup, (hsch i _ _ sch h1 h2 h3).1, hr] at hrd
    rw [zeroVals_get h2] at hz
    cases hrd; cases hz
    exact (hfield i _ _ sch x h1 h2 h3).2 (g2 i _ _ sch x h1 h2 h3 hx)

/-- **C76** For the two requests that are decoded leniently, and a payload without two properties that are names of one field up to case: the Call is
accepted exactly if the property of each field, whatever the case of its name, is valid but for enumerations, lengths and nulls, and takable; nothing has to be there, and
other properties do not matter.  The request then has the values of those properties, and zero in the other fields.  Otherwise the Call is refused. -/
theorem C76_lenient (F : FloatFmt) : ∃ f : ℤ → ℤ, KeepsFloat f ∧
    ∀ (o : Order) (r : ReqType), (MsgType.req r).lenient = true → ∀ info ts props required closed, r.ty = .struct info ts → r.jschema = .obj props required closed →
    ∀ (text : Text) (k : NumLit) (id : Text) (ms : List (Text × JVal)) (rest : List JVal),
      JsonText (.arr (.num k :: .str id :: .str r.action :: .obj ms :: rest)) text → IsNum k 2 →
      InRange (.obj ms) → (∀ j ∈ rest, InRange j) → OneEach info.fields ms →
      ∃ p, receive text = .ok (some (.call (String.ofList id) (String.ofList r.action) p)) ∧
        (∀ q, callToRequest F o (String.ofList r.action) p = .ok q ↔ q.type = r ∧ Collects f info.fields ts props ms q.val) ∧
        ((∃ q, callToRequest F o (String.ofList r.action) p = .ok q) ↔
          ∀ (i : Nat) fl t sch n j, info.fields[i]? = some fl → ts[i]? = some t → (fl.json, sch) ∈ props → foldName n = foldName fl.json →
            lastVal ms n = some j → Lax sch j ∧ ∀ t' j', Part t sch j t' j' → Takable t' j') ∧
        ((∀ q, callToRequest F o (String.ofList r.action) p ≠ .ok q) → callToRequest F o (String.ofList r.action) p = .error "FormationViolation") := by
  refine ⟨onWire F, keepsFloat F, ?_⟩
  intro o r hle info ts props required closed ht hs text k id ms rest hj hk hr hrr hone
  obtain ⟨p, hh, hrec⟩ := call_shape hj hk hr hrr
  have hact : r.action ≠ "DataTransfer".toList := by
    simp only [MsgType.lenient, Bool.or_eq_true, beq_iff_eq, MsgType.req.injEq] at hle
    rcases hle with rfl | rfl <;> decide
  obtain ⟨h1, h2⟩ := callToRequest_of (F := F) (o := o) hact p
  have hg := payload_lenient F o (.req r) hle ht hs hh hone
  obtain ⟨hlen, hsch⟩ := lenient_sch (m := .req r) ht hs
  have h1' : ∀ q, callToRequest F o (String.ofList r.action) p = .ok q ↔ q.type = r ∧ Collects (onWire F) info.fields ts props ms q.val :=
    fun q => (h1 q).trans (and_congr_right fun _ => hg _)
  have hheld : ∀ n j, lastVal ms n = some j → ∃ a, Holds j a := by
    intro n j hj
    have hkm := (entry_key F hh n).2 (List.mem_map_of_mem (f := Prod.fst) (lastVal_mem hj))
    obtain ⟨⟨k', y⟩, hy, rfl⟩ := List.mem_map.1 hkm
    obtain ⟨j', a, e1, e2, -, -⟩ := (entry_iff F hh _ _).1 hy
    simp only [] at hj
    rw [hj] at e1; cases e1
    exact ⟨a, e2⟩
  refine ⟨p, hrec, h1', ?_, fun hn => h2 fun v hv => hn ⟨r, v⟩ ((h1 ⟨r, v⟩).2 ⟨rfl, hv⟩)⟩
  constructor
  · rintro ⟨q, hq⟩ i fl t sch n j a1 a2 a3 a4 a5
    obtain ⟨-, vs, -, hl, hall⟩ := (h1' q).1 hq
    have hil : i < vs.length := by rw [hl]; exact (List.getElem?_eq_some_iff.1 a2).1
    obtain ⟨hlax, hget⟩ := (hall i fl t sch _ a1 a2 a3 (List.getElem?_eq_getElem hil)).1 n j a4 a5
    obtain ⟨-, hfit, hns⟩ := hsch i fl t sch a1 a2 a3
    obtain ⟨a, ha⟩ := hheld n j a5
    exact ⟨hlax, (takable_iff (onWire F) t sch hfit j hlax (Or.inl hns) a ha).1 ⟨_, hget⟩⟩
  · intro h
    obtain ⟨vs, hl, hvs⟩ := exists_list (ts := ts) (P := fun i t x => ∀ fl sch, info.fields[i]? = some fl → (fl.json, sch) ∈ props →
        (∀ k j, foldName k = foldName fl.json → lastVal ms k = some j → Lax sch j ∧ Gets (onWire F) t sch j x) ∧
        ((∀ k ∈ ms.map Prod.fst, foldName k ≠ foldName fl.json) → x = zeroVal t)) (by
      intro i t a2
      have hil : i < info.fields.length := by have := (List.getElem?_eq_some_iff.1 a2).1; omega
      have a1 : info.fields[i]? = some info.fields[i] := List.getElem?_eq_getElem hil
      by_cases hex : ∃ n j, foldName n = foldName info.fields[i].json ∧ lastVal ms n = some j
      · obtain ⟨n, j, a4, a5⟩ := hex
        obtain ⟨⟨k, sch⟩, a3, hk⟩ := List.mem_map.1 (lenient_fields (m := .req r) hle ht hs _ (List.mem_of_getElem? a1))
        simp only [] at hk
        subst hk
        obtain ⟨hlax, hpart⟩ := h i _ t sch n j a1 a2 a3 a4 a5
        obtain ⟨hlook, hfit, hns⟩ := hsch i _ t sch a1 a2 a3
        obtain ⟨a, ha⟩ := hheld n j a5
        obtain ⟨x, hx⟩ := (takable_iff (onWire F) t sch hfit j hlax (Or.inl hns) a ha).2 hpart
        refine ⟨x, ?_⟩
        intro fl sch' b1 b3
        rw [a1] at b1; cases b1
        have := (hsch i _ t sch' a1 a2 b3).1
        rw [hlook] at this; cases this
        have hnm := List.mem_map_of_mem (f := Prod.fst) (lastVal_mem a5)
        refine ⟨?_, fun hno => absurd a4 (hno n hnm)⟩
        intro k j' c1 c2
        have : k = n := hone _ (List.mem_of_getElem? a1) k (List.mem_map_of_mem (f := Prod.fst) (lastVal_mem c2)) n hnm c1 a4
        subst this
        rw [a5] at c2; cases c2
        exact ⟨hlax, hx⟩
      · refine ⟨zeroVal t, ?_⟩
        intro fl sch' b1 b3
        rw [a1] at b1; cases b1
        exact ⟨fun k j c1 c2 => absurd ⟨k, j, c1, c2⟩ hex, fun _ => rfl⟩)
    refine ⟨⟨r, .struct vs⟩, (h1' _).2 ⟨rfl, vs, rfl, hl, ?_⟩⟩
    intro i fl t sch x a1 a2 a3 a4
    exact hvs i t x a2 a4 fl sch a1 a3

theorem payload_lenient_field (F : FloatFmt) (o : Order) (m : MsgType) (hm : m.lenient = true) {info : StructInfo} {ts : List Ty} (ht : m.ty = .struct info ts)
    {ms : List (Text × JVal)} {p : Payload} (hh : Holds (.obj ms) (.obj p)) {v : Val} (h : decode o m.ty (anyText F (.obj p)) = .ok v)
    {i : Nat} {fl : FieldInfo} {t : Ty} (hf : info.fields[i]? = some fl) (hti : ts[i]? = some t) (hsc : keeps t = true) :
    ∃ vs x, v = .struct vs ∧ vs[i]? = some x ∧
      (∀ n j, foldName n = foldName fl.json → lastVal ms n = some j → j ≠ .null →
        (∀ n' ∈ ms.map Prod.fst, foldName n' = foldName fl.json → keyLt n n' = true → lastVal ms n' = some .null) → Means t j x) ∧
      ((∀ n ∈ ms.map Prod.fst, foldName n = foldName fl.json → lastVal ms n = some .null) → x = zeroVal t) := by
  obtain ⟨info', ts', props, required, closed, ht', hs⟩ := lenient_struct m
  rw [ht] at ht'; cases ht'
  have hn := lenient_names hm ht
  obtain ⟨hlen, hsch⟩ := lenient_sch ht hs
  have hjt := (anyText_value F (.obj p)).jsonText
  simp only [jsonOf] at hjt
  rw [decode_iff hjt, lenient_read hm ht hs, Option.map_eq_some_iff] at h
  obtain ⟨vs, hrd, rfl⟩ := h
  obtain ⟨⟨k, sch⟩, h3, hk⟩ := List.mem_map.1 (lenient_fields hm ht hs _ (List.mem_of_getElem? hf))
  simp only [] at hk
  subst hk
  obtain ⟨hlook, hfit, hns⟩ := hsch i fl t sch hf hti h3
  have hr := readers_get (props := plains props) hti hf
  rw [plains_lookup, hlook] at hr
  simp only [Option.map_some, Option.getD_some] at hr
  have hil : i < vs.length := by
    rw [readLenient_length hrd, zeroVals_length]
    exact (List.getElem?_eq_some_iff.1 hti).1
  refine ⟨vs, vs[i], rfl, List.getElem?_eq_getElem hil, ?_, ?_⟩
  · intro n j hnf hj hnn hlater
    have hkm := (entry_key F hh n).2 (List.mem_map_of_mem (f := Prod.fst) (lastVal_mem hj))
    obtain ⟨⟨k', y⟩, hy, rfl⟩ := List.mem_map.1 hkm
    obtain ⟨j', a, e1, e2, rfl, e3⟩ := (entry_iff F hh _ _).1 hy
    simp only [] at hj hnf hlater
    rw [hj] at e1; cases e1
    have hsorted : (jsonOfEntries F p).Pairwise fun a b => keyLt a.1 b.1 = true := by
      cases hh with
      | obj hs _ _ _ =>
        rw [← entries_keys F] at hs
        exact List.pairwise_map.1 hs
    obtain ⟨pre, post, he⟩ := List.append_of_mem hy
    have hpost : ∀ e ∈ post, fieldOf info.fields e.1 = some i → e.2 = .null := by
      intro e hepost hefi
      have hem : e ∈ jsonOfEntries F p := by rw [he]; exact List.mem_append_right _ (List.mem_cons_of_mem _ hepost)
      rw [he] at hsorted
      have hlt := (List.pairwise_cons.1 (List.pairwise_append.1 hsorted).2.1).1 e hepost
      have hnull := hlater e.1 ((entry_key F hh _).1 (List.mem_map_of_mem hem)) ((fieldOf_iff hn hf _).1 hefi) hlt
      obtain ⟨k2, y2⟩ := e
      obtain ⟨j2, a2, f1, f2, rfl, -⟩ := (entry_iff F hh _ _).1 hem
      simp only [] at hnull
      rw [hnull] at f1; cases f1
      cases f2
      rfl
    rw [he] at hrd
    obtain ⟨x, hx, hread⟩ := readLenient_last hsc hr hrd ((fieldOf_iff hn hf _).2 hnf) (holds_notNull hnn e2) hpost
    rw [List.getElem?_eq_getElem hil] at hx
    cases hx
    have hok : okDec t (plain sch) = true := by
      have := okDec_msg m
      rw [ht, plain_msg, hs] at this
      simp only [plain, okDec, Bool.and_eq_true] at this
      have h := okDecs_get this.2 hti hf (by
        rw [plains_keys, List.contains_iff_mem.2 (List.mem_map_of_mem (f := Prod.fst) h3), Bool.or_true])
      rw [plains_lookup, hlook] at h
      exact h
    have hun := ((unmarshal_read o t _ hok [] (jsonOf F a) _ (hasTy_zero t)).1.ok_iff _).2 (hread (zeroVal t))
    have hi : okInts t = true := by
      have := okInts_msg m
      rw [ht] at this
      simp only [okInts] at this
      exact okIntss_get this hti
    have hsc' : isScalar t = true := by cases t <;> simp [keeps] at hsc <;> rfl
    exact means_of F o t hsc' hi j a e2 _ [] hun
  · intro hall
    have := readLenient_stays hsc hr hrd (by
      rintro ⟨k, y⟩ hy hk
      obtain ⟨j, a, e1, e2, rfl, -⟩ := (entry_iff F hh _ _).1 hy
      have := hall k (List.mem_map_of_mem (f := Prod.fst) (lastVal_mem e1)) ((fieldOf_iff hn hf _).1 hk)
      rw [this] at e1; cases e1
      cases e2
      rfl)
    rw [zeroVals_get hti, List.getElem?_eq_getElem hil] at this
    exact Option.some.inj this

/-- **C63** What a Call for one of the two leniently decoded requests means, whatever names occur how often: each scalar field has the meaning of a property with its
name up to case that is not `null`, namely of the one whose name comes last in the order of the character codes (whatever the order in the text; of several with the same
name, of the last in the text); it is zero if there is none. -/
theorem C63_lenient (F : FloatFmt) (o : Order) (text : Text) (k : NumLit) (id a : Text) (ms : List (Text × JVal)) (rest : List JVal)
    (hj : JsonText (.arr (.num k :: .str id :: .str a :: .obj ms :: rest)) text) (i action : String) (p : Payload)
    (hr : receive text = .ok (some (.call i action p))) (q : Req) (hq : callToRequest F o action p = .ok q)
    (hle : q.type = .csreqRemoteStartTransaction ∨ q.type = .csreqRemoteStopTransaction) (info : StructInfo) (ts : List Ty) (hty : q.type.ty = .struct info ts)
    (m : Nat) (f : FieldInfo) (t : Ty) (hf : info.fields[m]? = some f) (ht : ts[m]? = some t) (hsc : isScalar t = true) :
    ∃ vs x, q.val = .struct vs ∧ vs[m]? = some x ∧
      (∀ n j, foldName n = foldName f.json → lastVal ms n = some j → j ≠ .null →
        (∀ n' ∈ ms.map Prod.fst, foldName n' = foldName f.json → keyLt n n' = true → lastVal ms n' = some .null) → Means t j x) ∧
      ((∀ n ∈ ms.map Prod.fst, foldName n = foldName f.json → lastVal ms n = some .null) → x = zeroVal t) := by
  have hs := receive_arr hj hr
  cases hs with
  | call _ hh =>
    unfold callToRequest at hq
    cases ha : reqFromAction (String.ofList a).toList with
    | none => rw [ha] at hq; cases hq
    | some r =>
      rw [ha] at hq
      simp only [] at hq
      split at hq
      · rename_i v hv
        cases hq
        have hm : (MsgType.req r).lenient = true := by rcases hle with h | h <;> simp only [] at h <;> subst h <;> decide
        exact payload_lenient_field F o (.req r) hm hty hh hv hf ht (lenient_keeps hm hty t (List.mem_of_getElem? ht) hsc)
      · cases hq

theorem means_lenient (F : FloatFmt) (o : Order) (m : MsgType) {info : StructInfo} {ts : List Ty} (ht : m.ty = .struct info ts)
    {props : List (Text × JSchema)} {required : List Text} {closed : Bool} (hs : m.jschema = .obj props required closed)
    {i : Nat} {fl : FieldInfo} {t : Ty} (hf : info.fields[i]? = some fl) (hti : ts[i]? = some t) (hsc : keeps t = true)
    {sch : JSchema} (h3 : (fl.json, sch) ∈ props) {j : JVal} {a : GoAny} (hh : Holds j a) {x : Val} (hx : read t (plain sch) (jsonOf F a) (zeroVal t) = some x) :
    Means t j x := by
  have hlook := ((lenient_sch ht hs).2 i fl t sch hf hti h3).1
  have hok : okDec t (plain sch) = true := by
    have := okDec_msg m
    rw [ht, plain_msg, hs] at this
    simp only [plain, okDec, Bool.and_eq_true] at this
    have h := okDecs_get this.2 hti hf (by
      rw [plains_keys, List.contains_iff_mem.2 (List.mem_map_of_mem (f := Prod.fst) h3), Bool.or_true])
    rw [plains_lookup, hlook] at h
    exact h
  have hun := ((unmarshal_read o t _ hok [] (jsonOf F a) _ (hasTy_zero t)).1.ok_iff _).2 hx
  have hi : okInts t = true := by
    have := okInts_msg m
    rw [ht] at this
    simp only [okInts] at this
    exact okIntss_get this hti
  have hsc' : isScalar t = true := by cases t <;> simp [keeps] at hsc <;> rfl
  exact means_of F o t hsc' hi j a hh _ [] hun

/-- **C63** A Call for one of the two leniently decoded requests with any property, named like a scalar field up to case, whose value has no meaning for that
field (a number that is no integer or does not fit, or a value of another kind) is refused, even if another variant of the name comes later. -/
theorem C63_lenientRefused (F : FloatFmt) (o : Order) (text : Text) (k : NumLit) (id : Text) (ms : List (Text × JVal)) (rest : List JVal)
    (r : ReqType) (hm : r = .csreqRemoteStartTransaction ∨ r = .csreqRemoteStopTransaction)
    (hj : JsonText (.arr (.num k :: .str id :: .str r.action :: .obj ms :: rest)) text) (i action : String) (p : Payload)
    (hr : receive text = .ok (some (.call i action p))) (info : StructInfo) (ts : List Ty) (hty : r.ty = .struct info ts)
    (m : Nat) (f : FieldInfo) (t : Ty) (hf : info.fields[m]? = some f) (hti : ts[m]? = some t) (hsc : isScalar t = true)
    (n : Text) (hn : foldName n = foldName f.json) (j : JVal) (hl : lastVal ms n = some j) (hno : ∀ x, ¬ Means t j x) :
    callToRequest F o action p = .error "FormationViolation" := by
  have hs : r.action ≠ "DataTransfer".toList := by rcases hm with rfl | rfl <;> decide
  have hle : (MsgType.req r).lenient = true := by rcases hm with rfl | rfl <;> decide
  cases receive_arr hj hr with
  | call _ hh =>
    refine ((callToRequest_of (F := F) (o := o) hs p).2 fun v hv => ?_)
    obtain ⟨info', ts', props, required, closed, ht', hsch⟩ := lenient_struct (.req r)
    have hty' : (MsgType.req r).ty = .struct info ts := hty
    rw [hty'] at ht'; cases ht'
    have hk := lenient_keeps hle hty t (List.mem_of_getElem? hti) hsc
    have hjt := (anyText_value F (.obj p)).jsonText
    simp only [jsonOf] at hjt
    have hv' : decode o (MsgType.req r).ty (anyText F (.obj p)) = .ok v := hv
    rw [decode_iff hjt, lenient_read hle hty hsch, Option.map_eq_some_iff] at hv'
    obtain ⟨vs, hrd, -⟩ := hv'
    obtain ⟨⟨kk, sch⟩, h3, hkk⟩ := List.mem_map.1 (lenient_fields hle hty hsch _ (List.mem_of_getElem? hf))
    simp only [] at hkk
    subst hkk
    have hrr := readers_get (props := plains props) hti hf
    rw [plains_lookup, ((lenient_sch hty' hsch).2 m f t sch hf hti h3).1] at hrr
    obtain ⟨⟨k', y⟩, hy, rfl⟩ := List.mem_map.1 ((entry_key F hh n).2 (List.mem_map_of_mem (f := Prod.fst) (lastVal_mem hl)))
    obtain ⟨j', a, e1, e2, rfl, -⟩ := (entry_iff F hh _ _).1 hy
    simp only [] at hl hn
    rw [hl] at e1; cases e1
    obtain ⟨old, x, hx⟩ := readLenient_each hrr hrd hy ((fieldOf_iff (lenient_names hle hty) hf _).2 hn)
    by_cases hj0 : j = .null
    · subst hj0; exact hno _ .null
    · simp only [Option.map_some, Option.getD_some] at hx
      rw [read_fresh hk _ (holds_notNull hj0 e2) old (zeroVal t)] at hx
      exact hno x (means_lenient F o (.req r) hty' hsch hf hti hk h3 e2 hx)

/-- The hypotheses of `C63_lenientRefused` are met: a transaction `"x"` cannot be stopped, even if `transactionId` is an integer as well. -/
example (F : FloatFmt) (o : Order) : ∃ text p,
    JsonText (.arr [.num (.ofInt 2), .str "7".toList, .str "RemoteStopTransaction".toList,
      .obj [("TransactionID".toList, .str "x".toList), ("transactionId".toList, .num (.ofInt 1))]]) text ∧
    receive text = .ok (some (.call "7" "RemoteStopTransaction" p)) ∧ callToRequest F o "RemoteStopTransaction" p = .error "FormationViolation" := by
  obtain ⟨text, ht⟩ := value_text (.arr [.num (.ofInt 2), .str "7".toList, .str "RemoteStopTransaction".toList,
    .obj [("TransactionID".toList, .str "x".toList), ("transactionId".toList, .num (.ofInt 1))]])
  obtain ⟨p, -, h1⟩ := call_shape ht.jsonText (by simpa using isNum_int (n := 2) (by norm_num))
    ⟨True.intro, ⟨_, isNum_int (n := 1) (by norm_num)⟩, True.intro⟩ (by simp)
  refine ⟨text, p, ht.jsonText, h1, ?_⟩
  refine C63_lenientRefused F o text _ _ _ _ .csreqRemoteStopTransaction (Or.inr rfl) ht.jsonText _ _ p h1 _ _ rfl 0 _ _ rfl rfl rfl
    "TransactionID".toList (by decide) (.str "x".toList) rfl ?_
  intro x hx
  cases hx

/-- A stop request with its property in capitals, spelled `1e2`, and a further property: accepted, and the transaction is 100. -/
example (F : FloatFmt) (o : Order) : ∃ text p,
    JsonText (.arr [.num (.ofInt 2), .str "7".toList, .str "RemoteStopTransaction".toList, .obj [("TRANSACTIONID".toList, .num oneE2), ("x".toList, .bool true)]]) text ∧
    receive text = .ok (some (.call "7" "RemoteStopTransaction" p)) ∧
    callToRequest F o "RemoteStopTransaction" p = .ok ⟨.csreqRemoteStopTransaction, .struct [.int 100]⟩ := by
  obtain ⟨text, ht⟩ := value_text (.arr [.num (.ofInt 2), .str "7".toList, .str "RemoteStopTransaction".toList,
    .obj [("TRANSACTIONID".toList, .num oneE2), ("x".toList, .bool true)]])
  obtain ⟨f, hf, h⟩ := C76_lenient F
  obtain ⟨p, h1, h2, -, -⟩ := h o .csreqRemoteStopTransaction (by decide) _ _ _ _ _ rfl rfl text (.ofInt 2) "7".toList
    [("TRANSACTIONID".toList, .num oneE2), ("x".toList, .bool true)] [] ht.jsonText (by simpa using isNum_int (n := 2) (by norm_num))
    ⟨⟨_, oneE2_num⟩, True.intro, True.intro⟩ (by simp) (by
      intro f hf k hk k' hk' e e'
      obtain rfl := List.mem_singleton.1 hf
      simp only [List.map_cons, List.map_nil, List.mem_cons, List.not_mem_nil, or_false] at hk hk'
      rcases hk with rfl | rfl
      · rcases hk' with rfl | rfl
        · rfl
        · exact absurd e' (by decide)
      · exact absurd e (by decide))
  refine ⟨text, p, ht.jsonText, h1, (h2 _).2 ⟨rfl, _, rfl, rfl, ?_⟩⟩
  intro i fl t sch x a1 a2 a3 a4
  match i with
  | 0 =>
    cases a1; cases a2; cases a4
    have hsch : sch = .int := by
      rcases List.mem_singleton.1 a3 with ⟨⟩
      rfl
    subst hsch
    constructor
    · intro k j hk hj
      have hm := lastVal_mem hj
      simp only [List.mem_cons, Prod.mk.injEq, List.not_mem_nil, or_false] at hm
      rcases hm with ⟨rfl, rfl⟩ | ⟨rfl, rfl⟩
      · refine ⟨.int, ?_⟩
        have hi : IntFits 32 oneE2 100 := ⟨oneE2_num, by norm_num, by norm_num, by norm_num⟩
        have := Gets.int (f := f) (sch := .int) hi
        rwa [hf.small 100 (by norm_num)] at this
      · exact absurd hk (by decide)
    · intro hno
      exact absurd (by decide) (hno "TRANSACTIONID".toList (by simp))
  | i + 1 => cases a1

/-- Two tags in one start request, `"idtag":"B","idTag":"A"`: it is accepted, and the handler gets `B`, though `A` comes last. -/
example (F : FloatFmt) (o : Order) : ∃ text p q,
    JsonText (.arr [.num (.ofInt 2), .str "7".toList, .str "RemoteStartTransaction".toList, .obj [("idtag".toList, .str "B".toList), ("idTag".toList, .str "A".toList)]]) text ∧
    receive text = .ok (some (.call "7" "RemoteStartTransaction" p)) ∧ callToRequest F o "RemoteStartTransaction" p = .ok q ∧
    ∃ vs, q.val = .struct vs ∧ vs[0]? = some (.str "B".toList) := by
  obtain ⟨text, ht⟩ := value_text (.arr [.num (.ofInt 2), .str "7".toList, .str "RemoteStartTransaction".toList,
    .obj [("idtag".toList, .str "B".toList), ("idTag".toList, .str "A".toList)]])
  have hx : toAny (.obj [("idtag".toList, .str "B".toList), ("idTag".toList, .str "A".toList)]) =
      some (.obj [("idTag".toList, .str "A".toList), ("idtag".toList, .str "B".toList)]) := rfl
  have hh := (toAny_iff _ _).1 hx
  have hk : IsNum (.ofInt 2) 2 := by simpa using isNum_int (n := 2) (by norm_num)
  have hr := read_shape ht.jsonText ⟨⟨2, hk⟩, True.intro, True.intro, ⟨True.intro, True.intro, True.intro⟩, True.intro⟩ (Shape.call (rest := []) hk hh)
  have hq : callToRequest F o "RemoteStartTransaction" [("idTag".toList, .str "A".toList), ("idtag".toList, .str "B".toList)] =
      .ok ⟨.csreqRemoteStartTransaction, .struct [.str "B".toList, .nil, .int 0]⟩ := by
    refine ((callToRequest_of (F := F) (o := o) (r := .csreqRemoteStartTransaction) (by decide) _).1 _).2 ⟨rfl, ?_⟩
    refine (decode_iff (m := .req .csreqRemoteStartTransaction) (anyText_value F (.obj _)).jsonText _).2 ?_
    simp only [jsonOf]
    rw [lenient_read (m := .req .csreqRemoteStartTransaction) (by decide) rfl rfl]
    rfl
  refine ⟨text, _, _, ht.jsonText, hr, hq, ?_⟩
  obtain ⟨vs, x, h1, h2, h3, -⟩ := C63_lenient F o text _ _ _ _ _ ht.jsonText _ _ _ hr _ hq (Or.inl rfl) _ _ rfl 0 _ _ rfl rfl rfl
  refine ⟨vs, h1, ?_⟩
  have := h3 "idtag".toList (.str "B".toList) (by decide) rfl (by simp) (by
    intro n' hn' _ hlt
    simp only [List.map_cons, List.map_nil, List.mem_cons, List.not_mem_nil, or_false] at hn'
    rcases hn' with rfl | rfl <;> exact absurd hlt (by decide))
  cases this
  exact h2

end Verif.Ocppj
