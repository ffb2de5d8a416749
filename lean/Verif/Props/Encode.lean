import Verif.Lemmas.Encode2
set_option linter.unusedSimpArgs false
/-!
# Properties of JSON encoding (C01, C08, C09)
-/
namespace Verif
open Json Codec Encode

/-- C01.  For every message type and every value of it: encoding yields the text of exactly the JSON
object that the message stands for (`wire`), no object in which has two members of the same name; or
fails with an error or panics, which happens exactly when the message stands for no JSON object. -/
theorem C01_wellformed (F : FloatFmt) (m : MsgType) (v : Val) (hv : HasTy m.ty v) :
    (∃ text ms, marshal F m.ty v = .ok text ∧ wire F m.ty v = .ok (.obj ms) ∧
      Value (.obj ms) text ∧ DistinctNames (.obj ms)) ∨
    (∃ e, marshal F m.ty v = .err e ∧ wire F m.ty v = .err e) ∨
    (∃ e, marshal F m.ty v = .panic e ∧ wire F m.ty v = .panic e) := by
  have h := marshal_wire F m.ty v (okTy_msg m) hv
  cases hm : marshal F m.ty v with
  | ok text =>
    cases hw : wire F m.ty v with
    | ok j =>
      rw [hm, hw] at h
      have hd := wire_distinct F m.ty v j (keysOk_msg m) hw
      have : ∃ ms, j = .obj ms := by
        have hs : ∃ info ts, m.ty = .struct info ts := by
          cases m with
          | req r => cases r <;> exact ⟨_, _, rfl⟩
          | resp r => cases r <;> exact ⟨_, _, rfl⟩
        obtain ⟨info, ts, hs⟩ := hs
        rw [hs] at hw hv
        cases v <;> simp [HasTy] at hv
        simp only [wire] at hw
        rw [GoRes.bind_eq_ok] at hw
        obtain ⟨ms, _, hw⟩ := hw
        exact ⟨ms, by simpa using hw.symm⟩
      obtain ⟨ms, rfl⟩ := this
      exact Or.inl ⟨text, ms, rfl, rfl, h, hd⟩
    | err e => rw [hm, hw] at h; exact h.elim
    | panic e => rw [hm, hw] at h; exact h.elim
  | err e =>
    cases hw : wire F m.ty v with
    | err e' => rw [hm, hw] at h; exact Or.inr (Or.inl ⟨e, rfl, by rw [h]⟩)
    | ok j => rw [hm, hw] at h; exact h.elim
    | panic e => rw [hm, hw] at h; exact h.elim
  | panic e =>
    cases hw : wire F m.ty v with
    | panic e' => rw [hm, hw] at h; exact Or.inr (Or.inr ⟨e, rfl, by rw [h]⟩)
    | ok j => rw [hm, hw] at h; exact h.elim
    | err e => rw [hm, hw] at h; exact h.elim

/-- C01.  The encoding of a message is valid JSON for every reader that follows RFC 8259, in
particular for the library's own: parsing it gives back the object it stands for. -/
theorem C01_readable (F : FloatFmt) (m : MsgType) (v : Val) (hv : HasTy m.ty v) (text : Text)
    (h : marshal F m.ty v = .ok text) :
    ∃ ms, JsonText (.obj ms) text ∧ parse text = some (.obj ms) ∧ wire F m.ty v = .ok (.obj ms) := by
  rcases C01_wellformed F m v hv with ⟨t, ms, h1, h2, h3, _⟩ | ⟨e, h1, _⟩ | ⟨e, h1, _⟩
  · rw [h1] at h; cases h
    exact ⟨ms, h3.jsonText, (parse_iff _ _).2 h3.jsonText, h2⟩
  · rw [h1] at h; cases h
  · rw [h1] at h; cases h

theorem slotMembers_mem {vs : List Val} {ws : List (GoRes JVal)} {ss : List Slot} {ms : List (Text × JVal)}
    (h : slotMembers vs ws ss = .ok ms) (hn : (ss.map Slot.key).Nodup) {s : Slot} (hs : s ∈ ss) (j : JVal) :
    (s.key, j) ∈ ms ↔
      slotMember s (vs.getD s.idx .nil) (ws.getD s.idx (.panic "no such field")) = .ok [(s.key, j)] := by
  induction ss generalizing ms with
  | nil => simp at hs
  | cons s' ss ih =>
    simp only [slotMembers] at h
    rw [GoRes.bind_eq_ok] at h
    obtain ⟨m, h1, h⟩ := h
    rw [GoRes.bind_eq_ok] at h
    obtain ⟨ms', h2, h⟩ := h
    simp only [GoRes.ok.injEq] at h
    subst h
    have hk := (slotMembers_keys h2).subset
    simp only [List.map_cons, List.nodup_cons] at hn
    rcases List.mem_cons.1 hs with rfl | hs
    · have h3 : (s.key, j) ∉ ms' := fun h => hn.1 (hk (List.mem_map.2 ⟨_, h, rfl⟩))
      rw [h1]
      rcases slotMember_ok h1 with rfl | ⟨j', _, rfl⟩
      · simp [h3]
      · simp only [List.mem_append, List.mem_singleton, h3, or_false, GoRes.ok.injEq, List.cons.injEq, and_true]
        exact eq_comm
    · rw [← ih h2 hn.2 hs]
      have h3 : (s.key, j) ∉ m := by
        intro h
        rcases slotMember_ok h1 with rfl | ⟨j', _, rfl⟩
        · simp at h
        · simp only [List.mem_singleton, Prod.mk.injEq] at h
          exact hn.1 (h.1 ▸ List.mem_map_of_mem hs)
      simp [h3]

/-- C01, for one field: when a message (or a sub-object) is encoded, the object has the member
`name: j` for a field with JSON name `name` exactly when the field is not one that is left out and `j`
is what the field's value stands for. -/
theorem C01_member (F : FloatFmt) (info : StructInfo) (ts : List Ty) (vs : List Val)
    (hk : keysOk (.struct info ts) = true) (ms : List (Text × JVal))
    (h : wire F (.struct info ts) (.struct vs) = .ok (.obj ms)) (s : Slot) (hs : s ∈ slots info ts)
    (t : Ty) (v : Val) (ht : ts[s.idx]? = some t) (hv : vs[s.idx]? = some v) (j : JVal) :
    (s.key, j) ∈ ms ↔ wire F t v = .ok j ∧
      ¬ (s.mode = .omitNil ∧ v.isNil = true) ∧ ¬ (s.mode = .omitEmpty ∧ v.isEmpty = true) := by
  simp only [wire] at h
  rw [GoRes.bind_eq_ok] at h
  obtain ⟨ms', h1, h⟩ := h
  cases h
  simp only [keysOk, Bool.and_eq_true, decide_eq_true_eq] at hk
  rw [slotMembers_mem h1 hk.1 hs j, getD_some hv, getD_some (wireAll_get ht hv)]
  -- the field itself did not fail
  have hok : (slotMember s v (wire F t v)).isOk = true := by
    clear hk
    generalize slots info ts = ss at hs h1
    induction ss generalizing ms with
    | nil => simp at hs
    | cons s' ss ih =>
      simp only [slotMembers] at h1
      rw [GoRes.bind_eq_ok] at h1
      obtain ⟨m, h2, h3⟩ := h1
      rw [GoRes.bind_eq_ok] at h3
      obtain ⟨ms', h3, _⟩ := h3
      rcases List.mem_cons.1 hs with rfl | hs
      · rw [getD_some hv, getD_some (wireAll_get ht hv)] at h2
        simp [h2]
      · exact ih _ hs h3
  obtain ⟨k, i, mode⟩ := s
  clear h1 hk hs ht hv
  cases mode <;> simp only [slotMember] at hok ⊢ <;> cases hw : wire F t v <;> cases hn : v.isNil <;> cases he : v.isEmpty <;> simp_all

/-- The authorization list entry whose encoding panics: its idTagInfo is there and has no expiry date. -/
def ExpiryMissing (e : Val) : Prop :=
  ∃ idTag parent status, e = .ptr (.struct [idTag, .ptr (.struct [.nil, parent, status])])

theorem slots_IdTagInfo : slots csreq.IdTagInfo.info [.ptr .time, .str, .str] =
    [⟨"expiryDate".toList, 0, .deref⟩, ⟨"parentIdTag".toList, 1, .always⟩, ⟨"status".toList, 2, .always⟩] := by decide

theorem slots_Entry : slots csreq.LocalAuthorizationListItems.info [.str, .ptr csreq.IdTagInfo] =
    [⟨"idTag".toList, 0, .always⟩, ⟨"idTagInfo".toList, 1, .always⟩] := by decide

theorem wire_IdTagInfo (F : FloatFmt) (x : Val) (p st : Text) (hx : HasTy (.ptr .time) x) :
    (x = .nil ∧ ∃ m, wire F csreq.IdTagInfo (.struct [x, .str p, .str st]) = .panic m) ∨
    (x ≠ .nil ∧ ∃ j, wire F csreq.IdTagInfo (.struct [x, .str p, .str st]) = .ok j) := by
  simp only [csreq.IdTagInfo, wire, slots_IdTagInfo]
  rcases ptrTime_cases hx with rfl | ⟨t, rfl⟩
  · left
    simp [slotMembers, slotMember, wireAll, wire, Val.isNil]
  · right
    simp [slotMembers, slotMember, wireAll, wire, Val.isNil]

theorem wire_entry (F : FloatFmt) (e : Val) (he : HasTy (.ptr csreq.LocalAuthorizationListItems) e) :
    (∃ j, wire F (.ptr csreq.LocalAuthorizationListItems) e = .ok j ∧ ¬ ExpiryMissing e) ∨
    ((∃ m, wire F (.ptr csreq.LocalAuthorizationListItems) e = .panic m) ∧ ExpiryMissing e) := by
  match e with
  | .nil => exact Or.inl ⟨.null, by simp [wire], by rintro ⟨_, _, _, h⟩; cases h⟩
  | .ptr (.struct [a, b]) =>
    simp only [HasTy, csreq.LocalAuthorizationListItems, HasTys, and_true] at he
    obtain ⟨ha, hb⟩ := he
    cases a <;> simp [HasTy] at ha
    rename_i a
    have hw : ∀ x, wire F (.ptr csreq.IdTagInfo) b = x →
        wire F (.ptr csreq.LocalAuthorizationListItems) (.ptr (.struct [.str a, b])) =
          x.bind fun j => .ok (.obj [("idTag".toList, .str a), ("idTagInfo".toList, j)]) := by
      intro x hx
      simp only [csreq.LocalAuthorizationListItems, wire, slots_Entry]
      simp only [slotMembers, slotMember, wireAll, hx, List.getD, List.getElem?_cons_zero, List.getElem?_cons_succ, Option.getD_some, wire]
      cases x <;> simp
    match b, hb with
    | .nil, _ =>
      left
      refine ⟨_, hw (.ok .null) (by simp [wire]), by rintro ⟨_, _, _, h⟩; simp at h⟩
    | .ptr (.struct [x, p, st]), hb =>
      simp only [HasTy, csreq.IdTagInfo, HasTys, and_true] at hb
      obtain ⟨hx, hp, hst⟩ := hb
      cases p <;> simp [HasTy] at hp
      rename_i p
      cases st <;> simp [HasTy] at hst
      rename_i st
      rcases wire_IdTagInfo F x p st hx with ⟨rfl, m, h⟩ | ⟨hn, j, h⟩
      · right
        exact ⟨⟨m, by rw [hw (.panic m) (by simpa [wire] using h)]; rfl⟩, _, _, _, rfl⟩
      · left
        refine ⟨_, hw (.ok j) (by simpa [wire] using h), ?_⟩
        rintro ⟨_, _, _, h⟩
        simp at h
        exact hn h.2.1
    | .ptr (.struct []), hb => simp [HasTy, csreq.IdTagInfo, HasTys] at hb
    | .ptr (.struct [_]), hb => simp [HasTy, csreq.IdTagInfo, HasTys] at hb
    | .ptr (.struct [_, _]), hb => simp [HasTy, csreq.IdTagInfo, HasTys] at hb
    | .ptr (.struct (_ :: _ :: _ :: _ :: _)), hb => simp [HasTy, csreq.IdTagInfo, HasTys] at hb
  | .ptr (.struct []) => simp [HasTy, csreq.LocalAuthorizationListItems, HasTys] at he
  | .ptr (.struct [_]) => simp [HasTy, csreq.LocalAuthorizationListItems, HasTys] at he
  | .ptr (.struct (_ :: _ :: _ :: _)) => simp [HasTy, csreq.LocalAuthorizationListItems, HasTys] at he

theorem allOk_panic_iff {xs : List (GoRes JVal)} (h : ∀ x ∈ xs, x.isErr = false) :
    (allOk xs).isErr = false ∧ ((allOk xs).isPanic = true ↔ ∃ x ∈ xs, x.isPanic = true) := by
  induction xs with
  | nil => simp [allOk]
  | cons x xs ih =>
    have ih := ih fun x hx => h x (by simp [hx])
    have := h x (by simp)
    cases x with
    | ok a =>
      simp only [allOk, GoRes.bind]
      cases hc : allOk xs <;> simp_all
    | err m => simp at this
    | panic m => simp [allOk]

theorem slots_List : slots csreq.SendLocalList.info [.int 64, .slice (.ptr csreq.LocalAuthorizationListItems), .str] =
    [⟨"listVersion".toList, 0, .always⟩, ⟨"localAuthorizationList".toList, 1, .always⟩,
      ⟨"updateType".toList, 2, .always⟩] := by decide

theorem wire_List (F : FloatFmt) (n : Int) (b : Val) (u : Text) :
    wire F csreq.SendLocalList (.struct [.int n, b, .str u]) =
      (wire F (.slice (.ptr csreq.LocalAuthorizationListItems)) b).bind fun j =>
        .ok (.obj [("listVersion".toList, .num (.ofInt n)), ("localAuthorizationList".toList, j), ("updateType".toList, .str u)]) := by
  rw [csreq.SendLocalList, wire, slots_List]
  simp only [slotMembers, slotMember, wireAll, List.getD, List.getElem?_cons_zero, List.getElem?_cons_succ, Option.getD_some]
  generalize wire F (.slice (.ptr csreq.LocalAuthorizationListItems)) b = x
  cases x <;> simp [wire]

theorem List_shape {v : Val} (hv : HasTy csreq.SendLocalList v) :
    ∃ n b u, v = .struct [.int n, b, .str u] ∧ HasTy (.slice (.ptr csreq.LocalAuthorizationListItems)) b := by
  rw [csreq.SendLocalList] at hv
  cases v <;> simp only [HasTy] at hv
  rename_i vs
  rcases vs with _ | ⟨a, _ | ⟨b, _ | ⟨c, _ | _⟩⟩⟩ <;> simp only [HasTys, and_true, and_false] at hv
  obtain ⟨ha, hb, hc⟩ := hv
  cases a <;> simp only [HasTy] at ha
  cases c <;> simp only [HasTy] at hc
  exact ⟨_, _, _, rfl, hb⟩

theorem List_panic (F : FloatFmt) (v : Val) (hv : HasTy csreq.SendLocalList v) :
    (wire F csreq.SendLocalList v).isPanic = true ↔
      ∃ listVersion entries updateType, v = .struct [listVersion, .slice entries, updateType] ∧
        ∃ e ∈ entries, ExpiryMissing e := by
  obtain ⟨n, b, u, rfl, hb⟩ := List_shape hv
  rw [wire_List]
  have key : (wire F (.slice (.ptr csreq.LocalAuthorizationListItems)) b).isPanic = true ↔
      ∃ es, b = .slice es ∧ ∃ e ∈ es, ExpiryMissing e := by
    cases b <;> simp only [HasTy] at hb
    · simp [wire]
    · rename_i es
      have h1 := allOk_panic_iff (xs := es.map (wire F (.ptr csreq.LocalAuthorizationListItems))) (by
        intro x hx
        obtain ⟨e, he, rfl⟩ := List.mem_map.1 hx
        rcases wire_entry F e (hb e he) with ⟨j, h, _⟩ | ⟨⟨m, h⟩, _⟩ <;> rw [h] <;> rfl)
      have h2 : (∃ x ∈ es.map (wire F (.ptr csreq.LocalAuthorizationListItems)), x.isPanic = true) ↔ ∃ e ∈ es, ExpiryMissing e := by
        simp only [List.mem_map, exists_exists_and_eq_and]
        constructor
        · rintro ⟨e, he, h⟩
          rcases wire_entry F e (hb e he) with ⟨j, h', _⟩ | ⟨_, h'⟩
          · rw [h'] at h; simp at h
          · exact ⟨e, he, h'⟩
        · rintro ⟨e, he, h⟩
          rcases wire_entry F e (hb e he) with ⟨j, _, h'⟩ | ⟨⟨m, h'⟩, _⟩
          · exact absurd h h'
          · exact ⟨e, he, by rw [h']; rfl⟩
      rw [h2] at h1
      simp only [Val.slice.injEq, exists_eq_left']
      rw [← h1.2, wire]
      generalize allOk _ = x
      cases x <;> simp
  have h2 : ∀ (x : GoRes JVal) (f : JVal → JVal), (x.bind fun j => .ok (f j)).isPanic = x.isPanic := by
    intro x f; cases x <;> rfl
  rw [h2, key]
  constructor
  · rintro ⟨es, rfl, h⟩
    exact ⟨_, es, _, rfl, h⟩
  · rintro ⟨_, es, _, h, h'⟩
    simp only [Val.struct.injEq, List.cons.injEq, and_true] at h
    exact ⟨es, h.2.1, h'⟩

theorem List_panic' {F : FloatFmt} {m : MsgType} (hm : m = .req .csreqSendLocalList) {v : Val} (hv : HasTy m.ty v) :
    (wire F m.ty v).isPanic = true ↔
      ∃ listVersion entries updateType, v = .struct [listVersion, .slice entries, updateType] ∧
        ∃ e ∈ entries, ExpiryMissing e := by
  have h : m.ty = csreq.SendLocalList := by rw [hm]; rfl
  rw [h] at hv ⊢
  exact List_panic F v hv

/-- C08.  Encoding a message panics if and only if it is a SendLocalList request with an entry whose
idTagInfo is present without expiry date. -/
theorem C08_panic_iff (F : FloatFmt) (m : MsgType) (v : Val) (hv : HasTy m.ty v) :
    (marshal F m.ty v).isPanic = true ↔
      m = .req .csreqSendLocalList ∧
      ∃ listVersion entries updateType, v = .struct [listVersion, .slice entries, updateType] ∧
        ∃ e ∈ entries, ExpiryMissing e := by
  have hw : (marshal F m.ty v).isPanic = (wire F m.ty v).isPanic := by
    rcases C01_wellformed F m v hv with ⟨t, ms, h1, h2, _⟩ | ⟨e, h1, h2⟩ | ⟨e, h1, h2⟩ <;> rw [h1, h2] <;> rfl
  rw [hw]
  by_cases hm : m = .req .csreqSendLocalList
  · rw [List_panic' hm hv]
    exact (and_iff_right hm).symm
  · have hd : noDeref m.ty = true := by
      cases m with
      | req r => exact noDeref_req r (fun h => hm (by rw [h]))
      | resp r => exact noDeref_resp r
    simp only [hm, false_and, iff_false]
    cases hc : wire F m.ty v with
    | panic e => exact absurd hc (wire_noPanic F m.ty v hd hv e)
    | _ => simp

/-- C08, the response side: no response whatever makes its sender panic. -/
theorem C08_response_noPanic (F : FloatFmt) (r : RespType) (v : Val) (hv : HasTy r.ty v) :
    (marshal F r.ty v).isPanic = false := by
  have := (C08_panic_iff F (.resp r) v hv).not
  have h : ¬ (marshal F r.ty v).isPanic = true := this.2 (by simp)
  simpa only [Bool.not_eq_true] using h

/-- C09.  A message type with a required sub-object (`requiredObjects`, at the top level of the message
or in a sub-object that is encoded): a nil sub-object makes the encoding of the struct fail, unless an
earlier member already did.  In particular nothing is ever encoded. -/
theorem C09_refused (F : FloatFmt) (info : StructInfo) (ts : List Ty) (vs : List Val)
    (ht : okTy (.struct info ts) = true) (hv : HasTy (.struct info ts) (.struct vs))
    (s : Slot) (hs : s ∈ slots info ts) (hm : s.mode = .require) (hn : vs.getD s.idx .nil = .nil) :
    (marshal F (.struct info ts) (.struct vs)).isOk = false := by
  have h := marshal_wire F _ _ ht hv
  have hw : (wire F (.struct info ts) (.struct vs)).isOk = false := by
    simp only [wire]
    have : ∀ ms, slotMembers vs (wireAll F ts vs) (slots info ts) ≠ .ok ms := by
      clear h ht
      generalize slots info ts = ss at hs
      induction ss with
      | nil => simp at hs
      | cons s' ss ih =>
        intro ms h
        simp only [slotMembers] at h
        rw [GoRes.bind_eq_ok] at h
        obtain ⟨m, h1, h⟩ := h
        rw [GoRes.bind_eq_ok] at h
        obtain ⟨ms', h2, h⟩ := h
        rcases List.mem_cons.1 hs with rfl | hs
        · rw [hn] at h1
          simp [slotMember, hm, Val.isNil] at h1
        · exact ih hs _ h2
    revert this
    generalize slotMembers vs _ _ = x
    cases x <;> simp
  revert h hw
  generalize wire F _ _ = x
  generalize marshal F _ _ = y
  cases x <;> cases y <;> simp [Rel]

/-- C09, message by message, with the error text, which names the property: an Authorize or
StartTransaction response without idTagInfo, a SetChargingProfile request without csChargingProfiles or
whose profile has no chargingSchedule, a RemoteStartTransaction request with a profile without
chargingSchedule. -/
theorem C09_messages (F : FloatFmt) :
    marshal F cpresp.Authorize (.struct [.nil]) = .err "idTagInfo is a required field" ∧
    (∀ tid, HasTy (.int 32) tid →
      marshal F cpresp.StartTransaction (.struct [.nil, tid]) = .err "idTagInfo is a required field") ∧
    (∀ c, HasTy (.int 64) c →
      marshal F csreq.SetChargingProfile (.struct [c, .nil]) = .err "csChargingProfiles is a required field") ∧
    (∀ c id kind purpose rec level tid vf vt,
      HasTy csreq.SetChargingProfile (.struct [c, .ptr (.struct [id, kind, purpose, .nil, rec, level, tid, vf, vt])]) →
      marshal F csreq.SetChargingProfile (.struct [c, .ptr (.struct [id, kind, purpose, .nil, rec, level, tid, vf, vt])]) =
        .err "chargingSchedule is a required field") ∧
    (∀ tag id kind purpose rec level tid vf vt c,
      HasTy csreq.RemoteStartTransaction (.struct [tag, .ptr (.struct [id, kind, purpose, .nil, rec, level, tid, vf, vt]), c]) →
      marshal F csreq.RemoteStartTransaction (.struct [tag, .ptr (.struct [id, kind, purpose, .nil, rec, level, tid, vf, vt]), c]) =
        .err "chargingSchedule is a required field") := by
  have conv : ∀ {t : Ty} {v : Val} {e : String}, okTy t = true → HasTy t v → wire F t v = .err e → marshal F t v = .err e := by
    intro t v e h1 h2 h3
    have := marshal_wire F t v h1 h2
    rw [h3] at this
    cases h : marshal F t v <;> rw [h] at this <;> simp_all [Rel]
  have s1 : slots csreq.CsChargingProfiles.info [.int 64, .str, .str, .ptr csreq.ChargingSchedule, .str, .int 64, .int 64, .time, .time] =
      ⟨"chargingProfileId".toList, 0, .always⟩ :: ⟨"chargingProfileKind".toList, 1, .always⟩ ::
      ⟨"chargingProfilePurpose".toList, 2, .always⟩ :: ⟨"chargingSchedule".toList, 3, .require⟩ ::
      (slots csreq.CsChargingProfiles.info [.int 64, .str, .str, .ptr csreq.ChargingSchedule, .str, .int 64, .int 64, .time, .time]).drop 4 := by decide
  have s2 : slots csreq.ChargingProfile.info [.int 64, .str, .str, .ptr csreq.ChargingSchedule, .str, .int 64, .int 64, .ptr .time, .ptr .time] =
      ⟨"chargingProfileId".toList, 0, .always⟩ :: ⟨"chargingProfileKind".toList, 1, .always⟩ ::
      ⟨"chargingProfilePurpose".toList, 2, .always⟩ :: ⟨"chargingSchedule".toList, 3, .require⟩ ::
      (slots csreq.ChargingProfile.info [.int 64, .str, .str, .ptr csreq.ChargingSchedule, .str, .int 64, .int 64, .ptr .time, .ptr .time]).drop 4 := by decide
  have s3 : slots csreq.SetChargingProfile.info [.int 64, .ptr csreq.CsChargingProfiles] =
      [⟨"connectorId".toList, 0, .always⟩, ⟨"csChargingProfiles".toList, 1, .require⟩] := by decide
  have s4 : slots csreq.RemoteStartTransaction.info [.str, .ptr csreq.ChargingProfile, .int 32] =
      [⟨"idTag".toList, 0, .always⟩, ⟨"chargingProfile".toList, 1, .omitEmpty⟩, ⟨"connectorId".toList, 2, .omitEmpty⟩] := by decide
  have s5 : slots cpresp.Authorize.info [.ptr cpresp.IdTagInfo] = [⟨"idTagInfo".toList, 0, .require⟩] := by decide
  have s6 : slots cpresp.StartTransaction.info [.ptr cpresp.IdTagInfo, .int 32] =
      [⟨"idTagInfo".toList, 0, .require⟩, ⟨"transactionId".toList, 1, .always⟩] := by decide
  refine ⟨?_, ?_, ?_, ?_, ?_⟩
  · refine conv (okTy_resp .cprespAuthorize) (by simp [cpresp.Authorize, HasTy, HasTys]) ?_
    simp only [cpresp.Authorize, wire, s5]
    rfl
  · intro tid ht
    refine conv (okTy_resp .cprespStartTransaction) (by simp [cpresp.StartTransaction, HasTy, HasTys, ht]) ?_
    simp only [cpresp.StartTransaction, wire, s6]
    rfl
  · intro c hc
    refine conv (okTy_req .csreqSetChargingProfile) (by simp [csreq.SetChargingProfile, HasTy, HasTys, hc]) ?_
    cases c <;> simp [HasTy] at hc
    simp only [csreq.SetChargingProfile, wire, s3]
    rfl
  · intro c id kind purpose rec level tid vf vt h
    refine conv (okTy_req .csreqSetChargingProfile) h ?_
    simp only [HasTy, csreq.SetChargingProfile, HasTys, csreq.CsChargingProfiles] at h
    obtain ⟨h1, ⟨h2, h3, h4, h5, h6, h7, h8, h9, h10, _⟩, _⟩ := h
    cases c <;> simp [HasTy] at h1
    cases id <;> simp [HasTy] at h2
    cases kind <;> simp [HasTy] at h3
    cases purpose <;> simp [HasTy] at h4
    simp only [csreq.SetChargingProfile, wire, s3]
    simp only [slotMembers, slotMember, wireAll, wire, List.getD, List.getElem?_cons_zero, List.getElem?_cons_succ, Option.getD_some, GoRes.bind,
      csreq.CsChargingProfiles, Val.isNil]
    rw [s1]
    rfl
  · intro tag id kind purpose rec level tid vf vt c h
    refine conv (okTy_req .csreqRemoteStartTransaction) h ?_
    simp only [HasTy, csreq.RemoteStartTransaction, HasTys, csreq.ChargingProfile] at h
    obtain ⟨h1, ⟨h2, h3, h4, h5, h6, h7, h8, h9, h10, _⟩, _⟩ := h
    cases tag <;> simp [HasTy] at h1
    cases id <;> simp [HasTy] at h2
    cases kind <;> simp [HasTy] at h3
    cases purpose <;> simp [HasTy] at h4
    simp only [csreq.RemoteStartTransaction, wire, s4]
    simp only [slotMembers, slotMember, wireAll, wire, List.getD, List.getElem?_cons_zero, List.getElem?_cons_succ, Option.getD_some, GoRes.bind,
      csreq.ChargingProfile, Val.isEmpty]
    rw [s2]
    rfl

/-! ### The hypotheses can be met -/

/-- A status notification with an absent time stamp and an escaped character. -/
def sampleStatus : Val :=
  .struct [.int 1, .str "NoError".toList, .str "a\"b".toList, .str "Available".toList, .nil, .str [], .str []]

example : HasTy (MsgType.req .cpreqStatusNotification).ty sampleStatus := by
  simp [MsgType.ty, ReqType.ty, cpreq.StatusNotification, sampleStatus, HasTy, HasTys]

/-- A local list whose only entry has no expiry date: encoding it panics. -/
def sampleList : Val :=
  .struct [.int 3, .slice [.ptr (.struct [.str "TAG".toList, .ptr (.struct [.nil, .str [], .str "Accepted".toList])])],
    .str "Full".toList]

theorem sampleList_ty : HasTy (MsgType.req .csreqSendLocalList).ty sampleList := by
  simp [MsgType.ty, ReqType.ty, csreq.SendLocalList, csreq.LocalAuthorizationListItems, csreq.IdTagInfo, sampleList, HasTy, HasTys]

example (F : FloatFmt) : (marshal F (MsgType.req .csreqSendLocalList).ty sampleList).isPanic = true :=
  (C08_panic_iff F _ _ sampleList_ty).2 ⟨rfl, _, _, _, rfl, _, List.mem_cons_self .., _, _, _, rfl⟩

example : (⟨"csChargingProfiles".toList, 1, .require⟩ : Slot) ∈
    slots csreq.SetChargingProfile.info [.int 64, .ptr csreq.CsChargingProfiles] := by decide

end Verif
