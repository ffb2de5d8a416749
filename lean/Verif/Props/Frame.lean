import Verif.Lemmas.Ocppj5
set_option linter.unusedSimpArgs false
set_option linter.unnecessarySeqFocus false
/-!
# Properties of OCPP-J frames (C10 - C17, C19)

`receive t` is what the library makes of a received text: trimming (ws/conn.go:181) and `UnmarshalMessage`.
-/
namespace Verif.Ocppj
open Json Codec Decode Encode Trip

/-- Reading a received text (ws/conn.go:181-183). -/
abbrev receive (t : Text) : GoRes (Option (Msg Payload)) := unmarshalMessage (normalise t)

/-! ### C11 -/

theorem isNum_eq {l : NumLit} {q q' : ℚ} (h : IsNum l q) (h' : IsNum l q') : q = q' := by
  unfold IsNum at h h'; rw [h] at h'; exact Option.some.inj h'

/-- Every value is exactly one of: a frame, a crashing value, malformed. -/
theorem trichotomy {j : JVal} (hr : InRange j) :
    ((∃ vs m, j = .arr vs ∧ Shape vs m) ∨ Crashing j ∨ Malformed j) ∧
    ((∃ vs m, j = .arr vs ∧ Shape vs m) → ¬ Malformed j) ∧ (Crashing j → ¬ Malformed j) := by
  refine ⟨?_, ?_, ?_⟩
  · cases j with
    | null => exact Or.inr (Or.inl .null)
    | arr vs =>
      simp only [InRange] at hr
      rcases vs with _ | ⟨v0, vs⟩
      · exact Or.inr (Or.inl .noType)
      cases v0 with
      | num l =>
        simp only [InRanges, InRange] at hr
        obtain ⟨⟨q, hq⟩, hr⟩ := hr
        rcases vs with _ | ⟨v1, vs⟩
        · exact Or.inr (Or.inl .noId)
        cases v1 with
        | str id =>
          simp only [InRanges, InRange, true_and] at hr
          have hold : ∀ ms, InRangeMembers ms → ∃ p, Holds (.obj ms) (.obj p) := by
            intro ms h
            obtain ⟨p, hp⟩ := Option.isSome_iff_exists.1 ((toEntries_inRange ms []).2 h)
            exact ⟨p, (toAny_iff _ _).1 (by simp [toAny, hp])⟩
          by_cases h2 : q = 2
          · subst h2
            rcases vs with _ | ⟨v2, vs⟩
            · exact Or.inr (Or.inl (.call1 hq))
            cases v2 with
            | str a =>
              simp only [InRanges, InRange, true_and] at hr
              rcases vs with _ | ⟨v3, vs⟩
              · exact Or.inr (Or.inl (.call2 hq))
              cases v3 with
              | obj ms =>
                simp only [InRanges, InRange] at hr
                obtain ⟨p, hp⟩ := hold ms hr.1
                exact Or.inl ⟨_, _, rfl, .call hq hp⟩
              | _ => exact Or.inr (Or.inr (.payload hq (by simp)))
            | _ => exact Or.inr (Or.inr (.action hq (by simp)))
          by_cases h3 : q = 3
          · subst h3
            rcases vs with _ | ⟨v2, vs⟩
            · exact Or.inr (Or.inl (.result1 hq))
            cases v2 with
            | obj ms =>
              simp only [InRanges, InRange] at hr
              obtain ⟨p, hp⟩ := hold ms hr.1
              exact Or.inl ⟨_, _, rfl, .result hq hp⟩
            | _ => exact Or.inr (Or.inr (.result hq (by simp)))
          by_cases h4 : q = 4
          · subst h4
            rcases vs with _ | ⟨v2, vs⟩
            · exact Or.inr (Or.inl (.error1 hq))
            cases v2 with
            | str c =>
              simp only [InRanges, InRange, true_and] at hr
              rcases vs with _ | ⟨v3, vs⟩
              · exact Or.inr (Or.inl (.error2 hq))
              cases v3 with
              | str d =>
                simp only [InRanges, InRange, true_and] at hr
                rcases vs with _ | ⟨v4, vs⟩
                · exact Or.inr (Or.inl (.error3 hq))
                cases v4 with
                | obj ms =>
                  simp only [InRanges, InRange] at hr
                  obtain ⟨p, hp⟩ := hold ms hr.1
                  exact Or.inl ⟨_, _, rfl, .error hq hp⟩
                | _ => exact Or.inr (Or.inr (.details hq (by simp)))
              | _ => exact Or.inr (Or.inr (.desc hq (by simp)))
            | _ => exact Or.inr (Or.inr (.code hq (by simp)))
          exact Or.inr (Or.inl (.unknown hq h2 h3 h4))
        | _ => exact Or.inr (Or.inr (.id (by simp)))
      | _ => exact Or.inr (Or.inr (.type (by simp)))
    | _ => exact Or.inr (Or.inr (.notArray (by simp) (by simp)))
  · rintro ⟨vs, m, rfl, hs⟩ hm
    cases hs with
    | call hl hp =>
      cases hm with
      | notArray _ h => exact h _ rfl
      | type h => exact h _ rfl
      | id h => exact h _ rfl
      | action _ h => exact h _ rfl
      | payload _ h => exact h _ rfl
      | result h _ => have := isNum_eq hl h; norm_num at this
      | code h _ => have := isNum_eq hl h; norm_num at this
      | desc h _ => have := isNum_eq hl h; norm_num at this
    | result hl hp =>
      cases hm with
      | notArray _ h => exact h _ rfl
      | type h => exact h _ rfl
      | id h => exact h _ rfl
      | action h _ => have := isNum_eq hl h; norm_num at this
      | result _ h => exact h _ rfl
      | code h _ => have := isNum_eq hl h; norm_num at this
    | error hl hp =>
      cases hm with
      | notArray _ h => exact h _ rfl
      | type h => exact h _ rfl
      | id h => exact h _ rfl
      | action h _ => have := isNum_eq hl h; norm_num at this
      | payload h _ => have := isNum_eq hl h; norm_num at this
      | result h _ => have := isNum_eq hl h; norm_num at this
      | code _ h => exact h _ rfl
      | desc _ h => exact h _ rfl
      | details _ h => exact h _ rfl
  · intro hc hm
    cases hc with
    | null => cases hm with | notArray h _ => exact h rfl
    | noType => cases hm with | notArray _ h => exact h _ rfl
    | noId =>
      cases hm with
      | notArray _ h => exact h _ rfl
      | type h => exact h _ rfl
    | unknown hl n2 n3 n4 =>
      cases hm with
      | notArray _ h => exact h _ rfl
      | type h => exact h _ rfl
      | id h => exact h _ rfl
      | action h _ => exact n2 (isNum_eq hl h)
      | payload h _ => exact n2 (isNum_eq hl h)
      | result h _ => exact n3 (isNum_eq hl h)
      | code h _ => exact n4 (isNum_eq hl h)
      | desc h _ => exact n4 (isNum_eq hl h)
      | details h _ => exact n4 (isNum_eq hl h)
    | call1 hl =>
      cases hm with
      | notArray _ h => exact h _ rfl
      | type h => exact h _ rfl
      | id h => exact h _ rfl
    | call2 hl =>
      cases hm with
      | notArray _ h => exact h _ rfl
      | type h => exact h _ rfl
      | id h => exact h _ rfl
      | action _ h => exact h _ rfl
      | result h _ => have := isNum_eq hl h; norm_num at this
      | code h _ => have := isNum_eq hl h; norm_num at this
    | result1 hl =>
      cases hm with
      | notArray _ h => exact h _ rfl
      | type h => exact h _ rfl
      | id h => exact h _ rfl
    | error1 hl =>
      cases hm with
      | notArray _ h => exact h _ rfl
      | type h => exact h _ rfl
      | id h => exact h _ rfl
    | error2 hl =>
      cases hm with
      | notArray _ h => exact h _ rfl
      | type h => exact h _ rfl
      | id h => exact h _ rfl
      | action h _ => have := isNum_eq hl h; norm_num at this
      | result h _ => have := isNum_eq hl h; norm_num at this
      | code _ h => exact h _ rfl
    | error3 hl =>
      cases hm with
      | notArray _ h => exact h _ rfl
      | type h => exact h _ rfl
      | id h => exact h _ rfl
      | action h _ => have := isNum_eq hl h; norm_num at this
      | payload h _ => have := isNum_eq hl h; norm_num at this
      | result h _ => have := isNum_eq hl h; norm_num at this
      | code _ h => exact h _ rfl
      | desc _ h => exact h _ rfl

/-- **C11** A received JSON text with value `j`, none of whose numbers is beyond float64, is taken for the message `m`
exactly if `j` is an array of the shape of `m`; it is rejected with an error exactly if it is no frame (`Malformed`);
otherwise it is one of the `Crashing` values. -/
theorem C11_classified (t : Text) (j : JVal) (hj : JsonText j t) (hr : InRange j) :
    (∀ m, receive t = .ok (some m) ↔ ∃ vs, j = .arr vs ∧ Shape vs m) ∧
    ((∃ e, receive t = .err e) ↔ Malformed j) ∧
    (Crashes (receive t) ↔ Crashing j) := by
  have hv := (normalise_value hj).jsonText
  obtain ⟨h1, h2⟩ := unmarshalMessage_spec (normalise t)
  have a : ∀ m, receive t = .ok (some m) ↔ ∃ vs, j = .arr vs ∧ Shape vs m := by
    intro m
    rw [h1]
    constructor
    · rintro ⟨vs, hvs, _, hs⟩
      exact ⟨vs, jsonText_unique hv hvs, hs⟩
    · rintro ⟨vs, rfl, hs⟩
      exact ⟨vs, hv, hr, hs⟩
  have b : Crashes (receive t) ↔ Crashing j := by
    rw [h2]
    constructor
    · rintro ⟨j', hj', _, hc⟩
      rw [jsonText_unique hv hj']; exact hc
    · intro hc; exact ⟨j, hv, hr, hc⟩
  refine ⟨a, ?_, b⟩
  obtain ⟨t1, t2, t3⟩ := trichotomy hr
  constructor
  · rintro ⟨e, he⟩
    rcases t1 with ⟨vs, m, h, hs⟩ | h | h
    · have := (a m).2 ⟨vs, h, hs⟩; rw [he] at this; cases this
    · have := b.2 h; rw [he] at this; simp [Crashes] at this
    · exact h
  · intro hm
    cases he : receive t with
    | err e => exact ⟨e, rfl⟩
    | panic e => exact absurd hm (t3 (b.1 (by rw [he]; simp [Crashes])))
    | ok x =>
      cases x with
      | none => exact absurd hm (t3 (b.1 (by rw [he]; simp [Crashes])))
      | some m => obtain ⟨vs, h, hs⟩ := (a m).1 he; exact absurd hm (t2 ⟨vs, m, h, hs⟩)

/-- **C11** Whatever the text, a message is returned only for an array of its shape, and a text that (after trimming) is no
JSON, or has a number beyond float64 anywhere, is rejected. -/
theorem C11_everyText (t : Text) :
    (∀ m, receive t = .ok (some m) ↔ ∃ vs, JsonText (.arr vs) (normalise t) ∧ InRanges vs ∧ Shape vs m) ∧
    ((∀ j, ¬ (JsonText j (normalise t) ∧ InRange j)) → ∃ e, receive t = .err e) := by
  obtain ⟨h1, h2⟩ := unmarshalMessage_spec (normalise t)
  refine ⟨h1, fun h => ?_⟩
  cases he : receive t with
  | err e => exact ⟨e, rfl⟩
  | panic e =>
    obtain ⟨j, a, b, _⟩ := h2.1 (by rw [show unmarshalMessage (normalise t) = _ from he]; simp [Crashes])
    exact absurd ⟨a, b⟩ (h j)
  | ok x =>
    cases x with
    | none =>
      obtain ⟨j, a, b, _⟩ := h2.1 (by rw [show unmarshalMessage (normalise t) = _ from he]; simp [Crashes])
      exact absurd ⟨a, b⟩ (h j)
    | some m =>
      obtain ⟨vs, a, b, _⟩ := (h1 m).1 he
      exact absurd ⟨a, b⟩ (h _)

/-! ### C12 -/

/-- **C12** (the claim fails) Exactly the texts with a `Crashing` value panic, or make the reader return a nil message that
`ReadMessage` dereferences. -/
theorem C12_crash_iff (t : Text) :
    Crashes (receive t) ↔ ∃ j, JsonText j (normalise t) ∧ InRange j ∧ Crashing j :=
  (unmarshalMessage_spec (normalise t)).2

/-! ### C13 -/

/-- **C13** Trimming and replacing newlines keeps the value of every JSON text (and so what is received). -/
theorem C13_normalise (t : Text) (j : JVal) (h : JsonText j t) :
    JsonText j (normalise t) ∧ receive t = unmarshalMessage t := by
  have hv := (normalise_value h).jsonText
  refine ⟨hv, ?_⟩
  unfold receive unmarshalMessage
  rw [(parse_iff _ _).2 hv, (parse_iff _ _).2 h]

/-- **C13** The converse fails: a raw newline in a string, which JSON forbids, becomes a space. -/
theorem C13_lenient : ∃ t, (∀ j, ¬ JsonText j t) ∧ ∃ m, receive t = .ok (some m) := by
  refine ⟨"[3,\"a\nb\",{}]".toList, ?_, .result "a b" [], ?_⟩
  · intro j hj
    have : parse "[3,\"a\nb\",{}]".toList = none := by decide +kernel
    rw [(parse_iff _ _).2 hj] at this; cases this
  · have hn : normalise "[3,\"a\nb\",{}]".toList = "[3,\"a b\",{}]".toList := by decide +kernel
    have hp : Value (.arr [.num (.ofInt 3), .str "a b".toList, .obj []]) "[3,\"a b\",{}]".toList := by
      have := Value.arr (elems_cons (value_rawOfLit (.ofInt 3)) (elems_cons (value_quote "a b".toList)
        (elems_one (.objNil Json.isWs_nil))))
      have e : '[' :: ((rawOfLit (.ofInt 3)).text ++ ',' :: (quote "a b".toList ++ ',' :: ('{' :: ([] ++ ['}']))) ++ [']']) =
          "[3,\"a b\",{}]".toList := by decide +kernel
      rwa [e] at this
    have h3 : IsNum (.ofInt 3) 3 := by
      have := isF64_3; unfold IsF64 at this; unfold IsNum; rw [value_ofInt]; exact_mod_cast this
    refine ((C11_everyText _).1 _).2 ⟨[.num (.ofInt 3), .str "a b".toList, .obj []], ?_, ?_, .result (id := "a b".toList) h3 ?_⟩
    · rw [hn]; exact hp.jsonText
    · exact ⟨⟨3, h3⟩, True.intro, True.intro, True.intro⟩
    · exact (toAny_iff _ _).1 rfl

/-! ### C10 -/

/-- **C10** Every Call written is read back as the same call. -/
theorem C10_call (F : FloatFmt) (id action : String) (p : Payload) (hp : ∃ j, Holds j (.obj p)) :
    ∃ t, callText F id action p = .ok t ∧ receive t = .ok (some (.call id action p)) := by
  obtain ⟨j, hp⟩ := hp
  have hh := holds_jsonOf (F := F) hp
  obtain ⟨t, h1, h2⟩ := frameText_value (js := [.num (F.fmt 2), .str id.toList, .str action.toList, jsonOf F (.obj p)])
    (ts := [_, _, _, _]) (.cons (value_rawOfLit _) (.cons (value_quote _) (.cons (value_quote _) (.cons (anyText_value F _) .nil))))
  refine ⟨t, h1, read_shape h2.jsonText ?_ ?_⟩
  · exact ⟨⟨2, isNum_fmt F isF64_2⟩, True.intro, True.intro, holds_inRange hh, True.intro⟩
  · have := Shape.call (id := id.toList) (a := action.toList) (rest := []) (isNum_fmt F isF64_2) (by simpa only [jsonOf] using hh)
    simpa only [String.ofList_toList, jsonOf] using this

/-- **C10** Every CallError written is read back as the same error; its details are the empty object. -/
theorem C10_error (F : FloatFmt) (id code desc : String) :
    ∃ t, errorText F id code desc = .ok t ∧ receive t = .ok (some (.error id code desc [])) := by
  have hh : Holds (.obj []) (.obj []) := (toAny_iff _ _).1 rfl
  obtain ⟨t, h1, h2⟩ := frameText_value (js := [.num (F.fmt 4), .str id.toList, .str code.toList, .str desc.toList, .obj []])
    (ts := [_, _, _, _, _]) (.cons (value_rawOfLit _) (.cons (value_quote _) (.cons (value_quote _) (.cons (value_quote _)
      (.cons (anyText_value F (.obj [])) .nil)))))
  refine ⟨t, h1, read_shape h2.jsonText ?_ ?_⟩
  · exact ⟨⟨4, isNum_fmt F isF64_4⟩, True.intro, True.intro, True.intro, True.intro, True.intro⟩
  · have := Shape.error (id := id.toList) (c := code.toList) (d := desc.toList) (rest := []) (isNum_fmt F isF64_4) hh
    simpa only [String.ofList_toList] using this

/-- **C10** The refusal of a call is such an error. -/
theorem C10_refusal (F : FloatFmt) (id code : String) :
    receive (encRefusal F id code) = .ok (some (.error id code "on handling message" [])) := by
  obtain ⟨t, h1, h2⟩ := C10_error F id code "on handling message"
  unfold encRefusal
  rw [h1]; exact h2

/-- **C10** A handler's error is sent as a CallError InternalError with its text. -/
theorem C10_handlerError (F : FloatFmt) (id : String) (resp : Option Resp) (e : String) :
    ∃ t, encReply F id resp (some e) = .ok t ∧ receive t = .ok (some (.error id "InternalError" e [])) :=
  C10_error F id "InternalError" e

/-- **C10** A handler's response whose own encoding `text` has the JSON value `j` is sent as a CallResult and read back with
a payload that holds `j`. -/
theorem C10_result (F : FloatFmt) (id : String) (r : Resp) (hv : HasTy r.type.ty r.val) (text : Text)
    (hm : marshal F r.type.ty r.val = .ok text) :
    ∃ t j p, JsonText j text ∧ Holds j (.obj p) ∧
      encReply F id (some r) none = .ok t ∧ receive t = .ok (some (.result id p)) := by
  rcases C01_wellformed F (.resp r.type) r.val hv with ⟨t', ms, h1, h2, h3, _⟩ | ⟨e, h1, _⟩ | ⟨e, h1, _⟩
  · rw [show marshal F r.type.ty r.val = _ from h1] at hm; cases hm
    obtain ⟨p, _, hp⟩ := payload_exists F (.resp r.type) r.val hv ms h2
    obtain ⟨t, h4, h5⟩ := frameText_value (js := [.num (F.fmt 3), .str id.toList, .obj ms])
      (ts := [_, _, _]) (.cons (value_rawOfLit _) (.cons (value_quote _) (.cons h3 .nil)))
    refine ⟨t, _, p, h3.jsonText, hp, ?_, read_shape h5.jsonText ?_ ?_⟩
    · simp only [encReply]
      rw [show marshal F r.type.ty r.val = _ from h1]
      exact h4
    · exact ⟨⟨3, isNum_fmt F isF64_3⟩, True.intro, holds_inRange hp, True.intro⟩
    · have := Shape.result (id := id.toList) (rest := []) (isNum_fmt F isF64_3) hp
      simpa only [String.ofList_toList] using this
  · rw [show marshal F r.type.ty r.val = _ from h1] at hm; cases hm
  · rw [show marshal F r.type.ty r.val = _ from h1] at hm; cases hm

/-- **C10** A request whose own encoding `text` has the JSON value `j` is sent as a Call with its action and read back with a
payload that holds `j`. -/
theorem C10_request (F : FloatFmt) (id : String) (r : Req) (hv : HasTy r.type.ty r.val) (text : Text)
    (hm : marshal F r.type.ty r.val = .ok text) :
    ∃ t j p, JsonText j text ∧ Holds j (.obj p) ∧ requestPayload F r = .ok p ∧
      encCall F id r = .ok t ∧ receive t = .ok (some (.call id (String.ofList r.type.action) p)) := by
  rcases C01_wellformed F (.req r.type) r.val hv with ⟨t', ms, h1, h2, h3, _⟩ | ⟨e, h1, _⟩ | ⟨e, h1, _⟩
  · rw [show marshal F r.type.ty r.val = _ from h1] at hm; cases hm
    obtain ⟨p, hp', hp⟩ := payload_exists F (.req r.type) r.val hv ms h2
    obtain ⟨t, h4, h5⟩ := C10_call F id (String.ofList r.type.action) p ⟨_, hp⟩
    have h6 : requestPayload F r = .ok p := by
      unfold requestPayload
      rw [show marshal F r.type.ty r.val = _ from h1]
      simp only [GoRes.bind, (parse_iff _ _).2 h3.jsonText, hp']
    refine ⟨t, _, p, h3.jsonText, hp, h6, ?_, h5⟩
    unfold encCall
    rw [h6]; exact h4
  · rw [show marshal F r.type.ty r.val = _ from h1] at hm; cases hm
  · rw [show marshal F r.type.ty r.val = _ from h1] at hm; cases hm

/-- **C10** A request that cannot be encoded is not sent: `Send` fails with the encoder's error, or panics as the encoder
does. -/
theorem C10_unsendable (F : FloatFmt) (id : String) (r : Req) :
    (∀ e, marshal F r.type.ty r.val = .err e → encCall F id r = .err e) ∧
    (∀ e, marshal F r.type.ty r.val = .panic e → encCall F id r = .panic e) := by
  constructor <;> intro e h <;> simp [encCall, requestPayload, h, GoRes.bind]

/-! ### C14, C15 -/

/-- The payload of a message is decoded to the same value as its own encoding. -/
theorem payload_decode (F : FloatFmt) (o : Order) (m : MsgType) (v : Val) (hv : HasTy m.ty v)
    (hi : v.IntsAll Small) (hp : v.TimesAll GoTime.Plain) (text : Text) (hm : marshal F m.ty v = .ok text) {j : JVal} {p : Payload}
    (hj : JsonText j text) (hh : Holds j (.obj p)) :
    ∃ v', decode o m.ty text = .ok v' ∧ decode o m.ty (anyText F (.obj p)) = .ok v' ∧ (m ≠ .req .csreqSendLocalList → v' = v.cutTimes) := by
  obtain ⟨ms, hj', _, hw⟩ := C01_readable F m v hv text hm
  rw [jsonText_unique hj hj'] at hh
  obtain ⟨p', hp1, hp2⟩ := payload_perm F m v hv hi ms hw
  have hp3 : p' = p := by
    have := holds_unique ((toAny_iff (.obj ms) (.obj p')).1 (by simp [toAny, hp1])) _ hh
    simpa using this
  subst hp3
  refine ⟨trip m.ty m.schema v, ?_, ?_, ?_⟩
  · rw [decode_iff hj']
    exact read_perm F m v hv hp ms ms hw (List.Perm.refl _)
  · rw [decode_iff (anyText_value F _).jsonText]
    simp only [jsonOf]
    exact read_perm F m v hv hp ms _ hw hp2
  · intro hne
    have hc : covered m.ty m.schema = true := by
      cases m with
      | req r => exact covered_req r (fun e => hne (by rw [e]))
      | resp r => exact covered_resp r
    exact trip_cut _ _ hc v hv

/-- **C14** A request of a supported type whose integers are within plus/minus 2^53 arrives: the frame sent for it is read
by the other side as a Call for which `callToRequest` makes a request of the same type with the value to which the request's
own encoding `text` is decoded; for all types but SendLocalList (C07) that is the value sent, with times cut to seconds. -/
theorem C14_request (F : FloatFmt) (o : Order) (id : String) (r : Req) (hs : r.type.action ≠ "DataTransfer".toList)
    (hv : HasTy r.type.ty r.val) (hi : r.val.IntsAll fun n => |n| ≤ 2 ^ 53) (hp : r.val.TimesAll GoTime.Plain) (text : Text)
    (hm : marshal F r.type.ty r.val = .ok text) :
    ∃ t p v, encCall F id r = .ok t ∧ receive t = .ok (some (.call id (String.ofList r.type.action) p)) ∧
      callToRequest F o (String.ofList r.type.action) p = .ok ⟨r.type, v⟩ ∧
      decode o r.type.ty text = .ok v ∧ (r.type ≠ .csreqSendLocalList → v = r.val.cutTimes) := by
  obtain ⟨t, j, p, h1, h2, _, h3, h4⟩ := C10_request F id r hv text hm
  obtain ⟨v, h5, h6, h7⟩ := payload_decode F o (.req r.type) r.val hv hi hp text hm h1 h2
  refine ⟨t, p, v, h3, h4, ?_, h5, fun hne => h7 (by simpa using hne)⟩
  have ha : reqFromAction (String.ofList r.type.action).toList = some r.type := by
    rw [String.toList_ofList]
    revert hs
    cases r.type <;> decide
  unfold callToRequest
  rw [ha]
  simp only []
  rw [show decode o r.type.ty (anyText F (.obj p)) = _ from h6]

/-- **C14** The same for the response to a call of a supported type. -/
theorem C14_response (F : FloatFmt) (o : Order) (id : String) (q : ReqType) (hs : q.action ≠ "DataTransfer".toList) (r : Resp)
    (ht : r.type = q.response) (hv : HasTy r.type.ty r.val) (hi : r.val.IntsAll fun n => |n| ≤ 2 ^ 53)
    (hp : r.val.TimesAll GoTime.Plain) (text : Text) (hm : marshal F r.type.ty r.val = .ok text) :
    ∃ t p, encReply F id (some r) none = .ok t ∧ receive t = .ok (some (.result id p)) ∧
      resultToResponse F o (String.ofList q.action) p = .ok ⟨r.type, r.val.cutTimes⟩ := by
  obtain ⟨t, j, p, h1, h2, h3, h4⟩ := C10_result F id r hv text hm
  obtain ⟨v, h5, h6, h7⟩ := payload_decode F o (.resp r.type) r.val hv hi hp text hm h1 h2
  refine ⟨t, p, h3, h4, ?_⟩
  have ha : reqFromAction (String.ofList q.action).toList = some q := by
    rw [String.toList_ofList]
    revert hs
    cases q <;> decide
  unfold resultToResponse
  rw [ha]
  simp only []
  rw [← ht, show decode o r.type.ty (anyText F (.obj p)) = _ from h6, h7 (by simp)]

/-- 2^53 + 1 is not a float64. -/
theorem fl64_odd : fl64 ((2 ^ 53 + 1 : ℤ) : ℚ) = some ((2 ^ 53 : ℤ) : ℚ) := by
  have hlog : Int.log 2 |((2 ^ 53 + 1 : ℤ) : ℚ)| = 53 := by
    have e : |((2 ^ 53 + 1 : ℤ) : ℚ)| = ((2 ^ 53 + 1 : ℕ) : ℚ) := by rw [abs_of_pos (by norm_num)]; norm_num
    rw [e, Int.log_natCast]
    norm_cast
  have hu : ulpExp ((2 ^ 53 + 1 : ℤ) : ℚ) = 1 := by unfold ulpExp; rw [hlog]; norm_num
  have hr : roundEven (((2 ^ 53 + 1 : ℤ) : ℚ) / (2 : ℚ) ^ (1 : ℤ)) = 2 ^ 52 := by
    have e : ((2 ^ 53 + 1 : ℤ) : ℚ) / (2 : ℚ) ^ (1 : ℤ) = ((2 ^ 52 : ℤ) : ℚ) + 1 / 2 := by norm_num
    rw [e]
    have hf : ⌊((2 ^ 52 : ℤ) : ℚ) + 1 / 2⌋ = 2 ^ 52 := by
      rw [Int.floor_eq_iff]; norm_num
    unfold roundEven
    simp only [hf]
    norm_num
  have : roundF64 ((2 ^ 53 + 1 : ℤ) : ℚ) = ((2 ^ 53 : ℤ) : ℚ) := by
    unfold roundF64
    rw [hu, hr]; norm_num
  unfold fl64
  rw [this, if_pos]
  rw [abs_of_pos (by norm_num)]
  have : ((2 ^ 53 : ℤ) : ℚ) = (2 : ℚ) ^ (53 : ℤ) := by norm_num
  rw [this]
  exact zpow_lt_zpow_right₀ (by norm_num) (by norm_num)

/-- A CancelReservation request. -/
def cancelReservation (n : Int) : Req := ⟨.csreqCancelReservation, .struct [.int n]⟩

theorem cancel_wire (F : FloatFmt) (n : Int) :
    wire F (MsgType.req .csreqCancelReservation).ty (.struct [.int n]) = .ok (.obj [("reservationId".toList, .num (.ofInt n))]) := rfl

/-- **C15** Sent: cancel reservation 2^53 + 1.  Received by the charge point's handler: cancel reservation 2^53. -/
theorem C15_corrupted (F : FloatFmt) (o : Order) (id : String) :
    HasTy (cancelReservation (2 ^ 53 + 1)).type.ty (cancelReservation (2 ^ 53 + 1)).val ∧
    ∃ t p, encCall F id (cancelReservation (2 ^ 53 + 1)) = .ok t ∧ receive t = .ok (some (.call id "CancelReservation" p)) ∧
      callToRequest F o "CancelReservation" p = .ok (cancelReservation (2 ^ 53)) := by
  have hty : ∀ n : Int, -(2 ^ 63) ≤ n ∧ n < 2 ^ 63 → HasTy (MsgType.req .csreqCancelReservation).ty (.struct [.int n]) :=
    fun n h => ⟨h, True.intro⟩
  have h53 := hty (2 ^ 53) (by norm_num)
  have hv := hty (2 ^ 53 + 1) (by norm_num)
  refine ⟨hv, ?_⟩
  rcases C01_wellformed F (.req .csreqCancelReservation) _ hv with ⟨text, ms, h1, h2, h3, _⟩ | ⟨e, _, h2⟩ | ⟨e, _, h2⟩
  · obtain ⟨t, j, p, g1, g2, _, g3, g4⟩ := C10_request F id (cancelReservation (2 ^ 53 + 1)) hv text h1
    rw [cancel_wire] at h2
    simp only [GoRes.ok.injEq, JVal.obj.injEq] at h2
    subst h2
    have hj := jsonText_unique g1 h3.jsonText
    subst hj
    have hp : p = [("reservationId".toList, .num ((2 ^ 53 : ℤ) : ℚ))] := by
      have : toAny (.obj [("reservationId".toList, .num (.ofInt (2 ^ 53 + 1)))]) =
          some (.obj [("reservationId".toList, .num ((2 ^ 53 : ℤ) : ℚ))]) := by
        simp only [toAny, toEntries, value_ofInt, fl64_odd, Option.map, mapPut]
      have := holds_unique ((toAny_iff _ _).1 this) _ g2
      simp only [GoAny.obj.injEq] at this
      exact this.symm
    have hact : String.ofList (cancelReservation (2 ^ 53 + 1)).type.action = "CancelReservation" := by decide
    rw [hact] at g4
    refine ⟨t, p, g3, g4, ?_⟩
    have hd : decode o (MsgType.req .csreqCancelReservation).ty (anyText F (.obj p)) = .ok (.struct [.int (2 ^ 53)]) := by
      rw [decode_iff (anyText_value F _).jsonText]
      subst hp
      simp only [jsonOf, jsonOfEntries]
      rw [F.int (2 ^ 53) (by norm_num)]
      have := read_perm F (.req .csreqCancelReservation) _ h53 ⟨True.intro, True.intro⟩ _ _ (cancel_wire F (2 ^ 53)) (List.Perm.refl _)
      rw [this, trip_cut (MsgType.req .csreqCancelReservation).ty (MsgType.req .csreqCancelReservation).schema
        (covered_req .csreqCancelReservation (by decide)) _ h53]
      rfl
    unfold callToRequest
    have ha : reqFromAction "CancelReservation".toList = some .csreqCancelReservation := by decide
    rw [ha]
    simp only []
    rw [show decode o ReqType.csreqCancelReservation.ty (anyText F (.obj p)) = _ from hd]
    rfl
  · rw [cancel_wire] at h2; cases h2
  · rw [cancel_wire] at h2; cases h2

/-! ### C16 -/

/-- **C16** The frame sent for a handler that returns neither response nor error is no frame to the library's own reader. -/
theorem C16_stranded (F : FloatFmt) (id : String) :
    ∃ t e, encReply F id none none = .ok t ∧ receive t = .err e := by
  obtain ⟨t, h1, h2⟩ := frameText_value (js := [.num (F.fmt 3), .str id.toList, .null])
    (ts := [_, _, _]) (.cons (value_rawOfLit _) (.cons (value_quote _) (.cons .null .nil)))
  obtain ⟨_, h3, _⟩ := C11_classified t _ h2.jsonText ⟨⟨3, isNum_fmt F isF64_3⟩, True.intro, True.intro, True.intro⟩
  obtain ⟨e, he⟩ := h3.2 (.result (isNum_fmt F isF64_3) (by simp))
  exact ⟨t, e, h1, he⟩

/-! ### C17, C19 -/

theorem lookup_mem' {α : Type} {m : List (Text × α)} {k : Text} {v : α} (h : m.lookup k = some v) : (k, v) ∈ m := by
  induction m with
  | nil => simp at h
  | cons x m ih =>
    obtain ⟨k', v'⟩ := x
    rw [lookup_cons] at h
    split at h
    · rename_i e; subst e; cases h; simp
    · exact List.mem_cons_of_mem _ (ih h)

/-- Go package and name of a struct type. -/
def goName : Ty → String × String
  | .struct info _ => (info.pkg, info.name)
  | _ => ("", "")

/-- **C17** The request made for an action name has this action name; every request type but DataTransfer is made for its
own; a request type's action name is the name of its struct, and its response type is the struct of the same name in the
matching package. -/
theorem C17_actions :
    (∀ action r, reqFromAction action = some r → r.action = action) ∧
    (∀ r : ReqType, r.action ≠ "DataTransfer".toList → reqFromAction r.action = some r) ∧
    reqFromAction "DataTransfer".toList = none ∧
    (∀ r : ReqType, goName r.ty = (if r.isChargePoint then "cpreq" else "csreq", String.ofList r.action) ∧
      goName r.response.ty = (if r.isChargePoint then "cpresp" else "csresp", String.ofList r.action) ∧
      r.response.isChargePoint = r.isChargePoint) := by
  refine ⟨?_, ?_, by decide, ?_⟩
  · intro action r h
    have hall : ∀ x ∈ reqFromActionTable, x.2.action = x.1 := by decide
    exact hall _ (lookup_mem' h)
  · intro r; cases r <;> decide
  · intro r; cases r <;> decide

/-- **C17** The table of responses agrees with the request types' own response types, for every string. -/
theorem C17_responses (action : Text) : resFromAction action = (reqFromAction action).map ReqType.response := by
  cases h : reqFromAction action with
  | some r =>
    have := C17_actions.1 action r h
    subst this
    revert h
    cases r <;> decide
  | none =>
    cases h' : resFromAction action with
    | none => rfl
    | some r =>
      have hall : ∀ x ∈ resFromActionTable, ∃ r : ReqType, reqFromAction x.1 = some r := by
        have : ∀ x ∈ resFromActionTable, (reqFromAction x.1).isSome = true := by decide
        exact fun x hx => Option.isSome_iff_exists.1 (this x hx)
      obtain ⟨r', hr'⟩ := hall _ (lookup_mem' h')
      simp only at hr'
      rw [h] at hr'; cases hr'

/-- **C19** A DataTransfer call is refused with NotSupported whatever its payload, and reading a CallResult to a DataTransfer
sent by this side panics, whatever its payload. -/
theorem C19_dataTransfer (F : FloatFmt) (o : Order) (p : Payload) :
    callToRequest F o "DataTransfer" p = .error "NotSupported" ∧
    (resultToResponse F o "DataTransfer" p).isPanic = true := by
  have h : reqFromAction "DataTransfer".toList = none := by decide
  simp only [callToRequest, resultToResponse, h]
  exact ⟨trivial, rfl⟩

end Verif.Ocppj

namespace Verif.Ocppj
open Json Codec Decode Encode Trip

/-! ### The hypotheses can be met -/

/-- The status notification of 2020-01-01T00:00:00.5Z can be encoded, and meets the conditions of C14. -/
theorem sample_sendable (F : FloatFmt) : ∃ text, marshal F ReqType.cpreqStatusNotification.ty sampleStatus2 = .ok text ∧
    HasTy ReqType.cpreqStatusNotification.ty sampleStatus2 ∧ (sampleStatus2.IntsAll fun n => |n| ≤ 2 ^ 53) ∧
    sampleStatus2.TimesAll GoTime.Plain ∧ ReqType.cpreqStatusNotification.action ≠ "DataTransfer".toList := by
  have hv : HasTy (MsgType.req .cpreqStatusNotification).ty sampleStatus2 := by
    simp [MsgType.ty, ReqType.ty, cpreq.StatusNotification, sampleStatus2, HasTy, HasTys]
  have h2 : sampleStatus2.TimesAll GoTime.Plain := by
    simp only [sampleStatus2, Val.TimesAll, Val.TimesAlls]
    decide
  have h3 : sampleStatus2.IntsAll fun n => |n| ≤ 2 ^ 53 := by
    simp [sampleStatus2, Val.IntsAll, Val.IntsAlls]
  have hw : ∃ j, wire F (MsgType.req .cpreqStatusNotification).ty sampleStatus2 = .ok j := ⟨_, rfl⟩
  obtain ⟨j, hj⟩ := hw
  rcases C01_wellformed F (.req .cpreqStatusNotification) _ hv with ⟨text, ms, h1, _⟩ | ⟨e, _, h⟩ | ⟨e, _, h⟩
  · exact ⟨text, h1, hv, h3, h2, by decide⟩
  · rw [hj] at h; cases h
  · rw [hj] at h; cases h

/-- A payload. -/
example : ∃ j, Holds j (.obj [("a".toList, .arr [.nil, .bool true, .str "x".toList]), ("b".toList, .obj [])]) :=
  ⟨.obj [("b".toList, .obj []), ("a".toList, .arr [.null, .bool true, .str "x".toList])], (toAny_iff _ _).1 rfl⟩

/-- The texts of a crashing, a malformed and a well-formed frame. -/
example : (∃ t, JsonText (.arr [.num (.ofInt 2), .str "1".toList, .str "Heartbeat".toList]) t) ∧
    Crashing (.arr [.num (.ofInt 2), .str "1".toList, .str "Heartbeat".toList]) ∧
    Malformed (.arr [.num (.ofInt 2), .num (.ofInt 1)]) ∧
    Shape [.num (.ofInt 2), .str "1".toList, .str "Heartbeat".toList, .obj []] (.call "1" "Heartbeat" []) := by
  have h2 : IsNum (.ofInt 2) 2 := by
    have := isF64_2; unfold IsF64 at this; unfold IsNum; rw [value_ofInt]; exact_mod_cast this
  have hh : Holds (.obj []) (.obj []) := (toAny_iff _ _).1 rfl
  refine ⟨?_, .call2 h2, .id (by simp), ?_⟩
  · obtain ⟨t, _, h⟩ := frameText_value (js := [.num (.ofInt 2), .str "1".toList, .str "Heartbeat".toList])
      (ts := [_, _, _]) (.cons (value_rawOfLit _) (.cons (value_quote _) (.cons (value_quote _) .nil)))
    exact ⟨t, h.jsonText⟩
  · exact Shape.call (id := "1".toList) (a := "Heartbeat".toList) (rest := []) h2 hh

end Verif.Ocppj
