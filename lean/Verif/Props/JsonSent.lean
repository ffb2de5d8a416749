import Verif.Lemmas.JsonSent
import Verif.Spec.Wsdl
/-!
# C100: which messages are valid against the JSON schemas
-/
set_option linter.unusedSimpArgs false
namespace Verif.Conf
open Json Codec Encode Trip

/-- **C100** A message that is sent is valid against the file of ws/json for it exactly for the values listed in the table. -/
theorem C100_iff (F : FloatFmt) (m : MsgType) (v : Val) (hv : HasTy m.ty v) (text : Text) (h : marshal F m.ty v = .ok text) :
    ∃ j, JsonText j text ∧ (Conforms m.jschema j ↔ JsonOk m v) := by
  obtain ⟨j, h1, h2⟩ := C64_conforms F m v hv text h
  exact ⟨j, h1, h2.trans (sound_iff m v hv)⟩

/-- **C100** The same said of any reading of the text (there is only one). -/
theorem C100_reading (F : FloatFmt) (m : MsgType) (v : Val) (hv : HasTy m.ty v) (text : Text) (h : marshal F m.ty v = .ok text) (j : JVal)
    (hj : JsonText j text) : Conforms m.jschema j ↔ JsonOk m v := by
  obtain ⟨j', h1, h2⟩ := C100_iff F m v hv text h
  rwa [jsonText_unique hj h1]

/-- **C100** The error code of a StatusNotification is a Go string, but only the constants of package `cpstatus` make the request valid: a
request that is valid otherwise is valid with each of them, and with nothing else. -/
theorem C100_errorCode (F : FloatFmt) (connector : Int) (code info status : Text) (time : Val) (vendorCode vendorId : Text)
    (hv : HasTy cpreq.StatusNotification (.struct [.int connector, .str code, .str info, .str status, time, .str vendorCode, .str vendorId]))
    (hinfo : info.length ≤ 50) (hvc : vendorCode.length ≤ 50) (hvi : vendorId.length ≤ 255)
    (hstatus : String.ofList status ∈ ["Available", "Preparing", "Charging", "SuspendedEVSE", "SuspendedEV", "Finishing", "Reserved", "Unavailable",
      "Faulted"]) (text : Text)
    (h : marshal F cpreq.StatusNotification (.struct [.int connector, .str code, .str info, .str status, time, .str vendorCode, .str vendorId]) = .ok text)
    (j : JVal) (hj : JsonText j text) : Conforms JSchemas.StatusNotification j ↔ String.ofList code ∈ cpstatus := by
  have := C100_reading F (.req .cpreqStatusNotification) _ hv text h j hj
  refine this.trans ?_
  have ho : ∀ (l : List String) (s : Text), OneOf l s ↔ String.ofList s ∈ l := by
    intro l s
    constructor
    · rintro ⟨n, hn, rfl⟩
      simpa using hn
    · intro hm
      exact ⟨_, hm, by simp⟩
  simp only [JsonOk, JsonReqOk, ho, UpTo, hinfo, hvc, hvi, hstatus, and_true, true_and]

/-- **C100** Four of the constants of `cpstatus` are unknown to the WSDL file of OCPP 1.5, and one of its codes is no constant. -/
theorem C100_cpstatus : ∃ names, Wsdl.Cs.chargePointErrorCode = .enum names ∧
    (cpstatus.filter fun n => n.toList ∉ names) = ["EVCommunicationError", "InternalError", "LocalListConflict", "OverVoltage"] ∧
    (names.filter fun n => String.ofList n ∉ cpstatus) = ["Mode3Error".toList] :=
  ⟨_, rfl, by decide, by decide⟩

/-- **C100** A response to StopTransaction without the optional tag information, and one to GetCompositeSchedule without the optional schedule
(a refusal, say), are sent and are not valid. -/
theorem C100_missing (F : FloatFmt) (m : MsgType) (v : Val)
    (hm : (m = .resp .cprespStopTransaction ∧ v = .struct [.nil]) ∨
      ∃ connector start status, m = .resp .csrespGetCompositeSchedule ∧ v = .struct [.nil, connector, start, status])
    (hv : HasTy m.ty v) : (∃ text, marshal F m.ty v = .ok text) ∧
      ∀ text j, marshal F m.ty v = .ok text → JsonText j text → ¬ Conforms m.jschema j := by
  constructor
  · have key : ∃ j, wire F m.ty v = .ok j := by
      rcases hm with ⟨rfl, rfl⟩ | ⟨c, st, sta, rfl, rfl⟩
      · exact ⟨_, rfl⟩
      · have h0 : HasTys [.ptr csresp.ChargingSchedule, .int 64, .ptr .time, .str] [.nil, c, st, sta] := hv
        simp only [HasTys] at h0
        obtain ⟨-, hc, hs, hst, -⟩ := h0
        obtain ⟨n, rfl⟩ := hasTy_int hc
        obtain ⟨s, rfl⟩ := hasTy_str hst
        cases st <;> simp only [HasTy] at hs
        · exact ⟨_, rfl⟩
        · rename_i t
          obtain ⟨t, rfl⟩ := hasTy_time (v := t) (by simpa [HasTy] using hs)
          exact ⟨_, rfl⟩
    obtain ⟨j, hj⟩ := key
    rcases C01_wellformed F m _ hv with ⟨t, ms, h1, -⟩ | ⟨e, -, h2⟩ | ⟨e, -, h2⟩
    · exact ⟨t, h1⟩
    · rw [hj] at h2; cases h2
    · rw [hj] at h2; cases h2
  · intro text j h hj hc
    have := (C100_reading F m v hv text h j hj).1 hc
    rcases hm with ⟨rfl, rfl⟩ | ⟨c, st, sta, rfl, rfl⟩
    · obtain ⟨vs, h1, -⟩ := this
      cases h1
    · have h0 : HasTys [.ptr csresp.ChargingSchedule, .int 64, .ptr .time, .str] [.nil, c, st, sta] := hv
      simp only [HasTys] at h0
      obtain ⟨-, hc, hs, hst, -⟩ := h0
      obtain ⟨n, rfl⟩ := hasTy_int hc
      obtain ⟨s, rfl⟩ := hasTy_str hst
      obtain ⟨⟨vs, h1, -⟩, -⟩ := this
      cases h1

/-- **C100** Optional fields of a sampled value that are not set: the MeterValues request is not valid, whatever else is in it. -/
theorem C100_sampled (F : FloatFmt) (connector transaction : Val) (before after : List Val) (items1 items2 : List Val) (time : Val)
    (context format location measurand phase unit value : Text)
    (hunset : context = [] ∨ format = [] ∨ location = [] ∨ measurand = [] ∨ phase = [] ∨ unit = [])
    (v : Val)
    (hval : v = .struct [connector, .slice (before ++ .ptr (.struct [.slice (items1 ++ .ptr (.struct [.str context, .str format, .str location, .str measurand, .str phase, .str unit, .str value]) :: items2),
      time]) :: after), transaction])
    (hv : HasTy cpreq.MeterValues v) (text : Text) (h : marshal F cpreq.MeterValues v = .ok text) (j : JVal) (hj : JsonText j text) :
    ¬ Conforms JSchemas.MeterValues j := by
  intro hc
  have := (C100_reading F (.req .cpreqMeterValues) v hv text h j hj).1 hc
  subst hval
  have hne : ∀ l : List String, "" ∉ l → ¬ OneOf l [] := by
    rintro l hl ⟨n, hn, he⟩
    have : n = "" := by simpa using he
    exact hl (this ▸ hn)
  have h0 : HasTys [.int 64, .slice (.ptr cpreq.MeterValueItems), .int 32] [connector, _, transaction] := hv
  simp only [HasTys] at h0
  obtain ⟨hc1, -, hc2, -⟩ := h0
  obtain ⟨n, rfl⟩ := hasTy_int hc1
  obtain ⟨n', rfl⟩ := hasTy_int hc2
  obtain ⟨vs, h1, h2⟩ := (this : Entries (Object MeterValueOk) _)
  cases h1
  obtain ⟨ws, h3, h4⟩ := h2 _ (List.mem_append_right _ List.mem_cons_self)
  cases h3
  cases time <;> try exact h4.elim
  obtain ⟨us, h5, h6⟩ := (h4 : Entries (Object SampledOk) _)
  cases h5
  obtain ⟨xs, h7, h8⟩ := h6 _ (List.mem_append_right _ (List.mem_cons_self))
  cases h7
  obtain ⟨a1, a2, a3, a4, a5, a6⟩ := h8
  rcases hunset with rfl | rfl | rfl | rfl | rfl | rfl
  · exact hne _ (by decide) a1
  · exact hne _ (by decide) a2
  · exact hne _ (by decide) a3
  · exact hne _ (by decide) a4
  · exact hne _ (by decide) a5
  · exact hne _ (by decide) a6

/-- The types of messages that are valid when every field is left at its zero value. -/
def zeroValid : List MsgType := [.req .cpreqAuthorize, .req .cpreqBootNotification, .req .cpreqDataTransfer, .req .cpreqHeartbeat,
  .req .cpreqStartTransaction, .req .csreqCancelReservation, .req .csreqChangeConfiguration, .req .csreqClearCache, .req .csreqDataTransfer,
  .req .csreqGetConfiguration, .req .csreqGetDiagnostics, .req .csreqGetLocalListVersion, .req .csreqRemoteStartTransaction,
  .req .csreqRemoteStopTransaction, .req .csreqReserveNow, .req .csreqUnlockConnector, .req .csreqUpdateFirmware,
  .resp .cprespDiagnosticsStatusNotification, .resp .cprespFirmwareStatusNotification, .resp .cprespHeartbeat, .resp .cprespMeterValues,
  .resp .cprespStatusNotification, .resp .csrespGetDiagnostics, .resp .csrespGetLocalListVersion, .resp .csrespUpdateFirmware]

theorem notOneOf_nil {l : List String} (hl : "" ∉ l) : ¬ OneOf l [] := by
  rintro ⟨n, hn, he⟩
  have : n = "" := by simpa using he
  exact hl (this ▸ hn)

/-- **C100** The value of a message type before any field is set is valid exactly for the types listed (if it can be sent at all): every
other type has an enumeration, a list or an object that has to be set. -/
theorem C100_zero (F : FloatFmt) (m : MsgType) (text : Text) (h : marshal F m.ty (zeroVal m.ty) = .ok text) (j : JVal)
    (hj : JsonText j text) : Conforms m.jschema j ↔ m ∈ zeroValid := by
  have hv : HasTy m.ty (zeroVal m.ty) := Decode.hasTy_zero m.ty
  refine (C100_reading F m _ hv text h j hj).trans ?_
  have hobj : ∀ P, ¬ Object P .nil := by rintro P ⟨vs, h, -⟩; cases h
  have hent : ∀ P, ¬ Entries P .nil := by rintro P ⟨vs, h, -⟩; cases h
  cases m with
  | req r => cases r <;> first
    | (refine (iff_of_true ?_ ?_).symm; (focus (simp [zeroValid]; done)); repeat' first | exact trivial | exact Nat.zero_le _ | exact .inl rfl | refine ⟨?_, ?_⟩)
    | (refine (iff_of_false ?_ (fun h => ?_)).symm; (focus (simp [zeroValid]; done))
       first
       | exact hent _ h
       | exact hobj _ h
       | exact hent _ h.1
       | exact notOneOf_nil (by decide) h
       | exact notOneOf_nil (by decide) h.1
       | exact notOneOf_nil (by decide) h.2.1)
  | resp r => cases r <;> first
    | (refine (iff_of_true ?_ ?_).symm; (focus (simp [zeroValid]; done)); repeat' first | exact trivial | exact Nat.zero_le _ | exact .inl rfl | refine ⟨?_, ?_⟩)
    | (refine (iff_of_false ?_ (fun h => ?_)).symm; (focus (simp [zeroValid]; done))
       first
       | exact hent _ h
       | exact hobj _ h
       | exact hobj _ h.1
       | exact hent _ h.1
       | exact notOneOf_nil (by decide) h
       | exact notOneOf_nil (by decide) h.1)

/-- A valid message of each type. -/
def validSample : MsgType → List Val
  | .req .cpreqAuthorize => [.str "tag".toList]
  | .req .cpreqBootNotification => [.str "box".toList, .str "model".toList, .str "serial".toList, .str "vendor".toList, .str "1.0".toList, .str "iccid".toList, .str "imsi".toList, .str "meter".toList, .str "type".toList]
  | .req .cpreqDataTransfer => [.str "d".toList, .str "m".toList, .str "v".toList]
  | .req .cpreqDiagnosticsStatusNotification => [.str "Uploaded".toList]
  | .req .cpreqFirmwareStatusNotification => [.str "Installed".toList]
  | .req .cpreqHeartbeat => []
  | .req .cpreqMeterValues => [.int 1, .slice [.ptr (.struct [.slice [.ptr (.struct [.str "Sample.Periodic".toList, .str "Raw".toList, .str "Outlet".toList, .str "Voltage".toList, .str "L1-N".toList, .str "V".toList, .str "230.5".toList])], .time ⟨0, 0, 0⟩])], .int 7]
  | .req .cpreqStartTransaction => [.int 1, .str "tag".toList, .int 0, .int 0, .time ⟨0, 0, 0⟩]
  | .req .cpreqStatusNotification => [.int 1, .str "OverVoltage".toList, .str "info".toList, .str "Faulted".toList, .ptr (.time ⟨0, 0, 0⟩), .str "code".toList, .str "vendor".toList]
  | .req .cpreqStopTransaction => [.str "tag".toList, .int 5, .str "Local".toList, .time ⟨0, 0, 0⟩, .slice [.ptr (.struct [.slice [.ptr (.struct [.str "Sample.Periodic".toList, .str "Raw".toList, .str "Outlet".toList, .str "Voltage".toList, .str "L1-N".toList, .str "V".toList, .str "230.5".toList])], .time ⟨0, 0, 0⟩])], .int 7]
  | .req .csreqCancelReservation => [.int 1]
  | .req .csreqChangeAvailability => [.int 1, .str "Operative".toList]
  | .req .csreqChangeConfiguration => [.str "k".toList, .str "v".toList]
  | .req .csreqClearCache => []
  | .req .csreqClearChargingProfile => [.str "TxProfile".toList, .int 1, .int 2, .int 3]
  | .req .csreqDataTransfer => [.str "d".toList, .str "m".toList, .str "v".toList]
  | .req .csreqGetCompositeSchedule => [.str "W".toList, .int 1, .int 60]
  | .req .csreqGetConfiguration => [.slice [.str "k".toList]]
  | .req .csreqGetDiagnostics => [.str "ftp://x".toList, .int 1, .int 2, .nil, .ptr (.time ⟨0, 0, 0⟩)]
  | .req .csreqGetLocalListVersion => []
  | .req .csreqRemoteStartTransaction => [.str "tag".toList, .ptr (.struct [.int 1, .str "Recurring".toList, .str "TxProfile".toList, .ptr (.struct [.str "A".toList, .slice [.ptr (.struct [.float (.fin 16), .int 3, .int 0])], .int 3600, .float (.fin 6), .nil]), .str "Daily".toList, .int 0, .int 7, .nil, .nil]), .int 1]
  | .req .csreqRemoteStopTransaction => [.int 7]
  | .req .csreqReserveNow => [.int 1, .time ⟨0, 0, 0⟩, .str "tag".toList, .str "parent".toList, .int 9]
  | .req .csreqReset => [.str "Soft".toList]
  | .req .csreqSendLocalList => [.int 1, .slice [.ptr (.struct [.str "tag".toList, .ptr (.struct [.ptr (.time ⟨0, 0, 0⟩), .str "parent".toList, .str "Accepted".toList])])], .str "Full".toList]
  | .req .csreqTriggerMessage => [.int 1, .str "Heartbeat".toList]
  | .req .csreqUnlockConnector => [.int 1]
  | .req .csreqUpdateFirmware => [.str "ftp://x".toList, .float (.fin 1), .time ⟨0, 0, 0⟩, .float (.fin 2)]
  | .req .csreqSetChargingProfile => [.int 1, .ptr (.struct [.int 1, .str "Recurring".toList, .str "TxProfile".toList, .ptr (.struct [.str "A".toList, .slice [.ptr (.struct [.float (.fin 16), .int 3, .int 0])], .int 3600, .float (.fin 6), .nil]), .str "Daily".toList, .int 0, .int 7, .time ⟨0, 0, 0⟩, .time ⟨0, 0, 0⟩])]
  | .resp .cprespAuthorize => [.ptr (.struct [.nil, .str "parent".toList, .str "Accepted".toList])]
  | .resp .cprespBootNotification => [.str "Accepted".toList, .time ⟨0, 0, 0⟩, .float (.fin 300)]
  | .resp .cprespDataTransfer => [.str "d".toList, .str "Accepted".toList]
  | .resp .cprespDiagnosticsStatusNotification => []
  | .resp .cprespFirmwareStatusNotification => []
  | .resp .cprespHeartbeat => [.time ⟨0, 0, 0⟩]
  | .resp .cprespMeterValues => []
  | .resp .cprespStartTransaction => [.ptr (.struct [.nil, .str "parent".toList, .str "Accepted".toList]), .int 7]
  | .resp .cprespStatusNotification => []
  | .resp .cprespStopTransaction => [.ptr (.struct [.nil, .str "parent".toList, .str "Accepted".toList])]
  | .resp .csrespCancelReservation => [.str "Rejected".toList]
  | .resp .csrespChangeAvailability => [.str "Scheduled".toList]
  | .resp .csrespChangeConfiguration => [.str "RebootRequired".toList]
  | .resp .csrespClearCache => [.str "Accepted".toList]
  | .resp .csrespClearChargingProfile => [.str "Unknown".toList]
  | .resp .csrespDataTransfer => [.str "d".toList, .str "UnknownVendorId".toList]
  | .resp .csrespGetCompositeSchedule => [.ptr (.struct [.str "A".toList, .slice [.ptr (.struct [.float (.fin 16), .int 3, .int 0])], .int 3600, .float (.fin 6), .nil]), .int 1, .nil, .str "Accepted".toList]
  | .resp .csrespGetConfiguration => [.slice [.ptr (.struct [.str "k".toList, .bool true, .str "v".toList])], .slice [.str "u".toList]]
  | .resp .csrespGetDiagnostics => [.str "file".toList]
  | .resp .csrespGetLocalListVersion => [.int 1]
  | .resp .csrespRemoteStartTransaction => [.str "Accepted".toList]
  | .resp .csrespRemoteStopTransaction => [.str "Accepted".toList]
  | .resp .csrespReserveNow => [.str "Occupied".toList]
  | .resp .csrespReset => [.str "Accepted".toList]
  | .resp .csrespSendLocalList => [.str "VersionMismatch".toList]
  | .resp .csrespTriggerMessage => [.str "NotImplemented".toList]
  | .resp .csrespUnlockConnector => [.str "Unlocked".toList]
  | .resp .csrespUpdateFirmware => []
  | .resp .csrespSetChargingProfile => [.str "Accepted".toList]

theorem entries_cons {P : Val → Prop} {v : Val} (h : P v) : Entries P (.slice [v]) := ⟨_, rfl, by simpa using h⟩
theorem object_mk {P : List Val → Prop} {vs : List Val} (h : P vs) : Object P (.ptr (.struct vs)) := ⟨_, rfl, h⟩
theorem oneOf_lit {l : List String} {n : String} (h : n ∈ l) : OneOf l n.toList := ⟨n, h, rfl⟩
theorem upTo_lit {k : Nat} {n : String} (h : n.length ≤ k) : UpTo k n.toList := h

theorem isF64_nat (n : ℕ) (h : (n : ℤ) ≤ 2 ^ 53) : IsF64 (n : ℚ) := by
  have := isF64_int (n := n) (by rw [abs_of_nonneg (by positivity)]; exact h)
  simpa using this
theorem isF64_1 : IsF64 1 := by have := isF64_nat 1 (by norm_num); simpa using this
theorem isF64_2' : IsF64 2 := by have := isF64_nat 2 (by norm_num); simpa using this
theorem isF64_6 : IsF64 6 := by have := isF64_nat 6 (by norm_num); simpa using this
theorem isF64_16 : IsF64 16 := by have := isF64_nat 16 (by norm_num); simpa using this
theorem isF64_300 : IsF64 300 := by have := isF64_nat 300 (by norm_num); simpa using this

set_option maxRecDepth 20000 in
theorem validSample_ok (m : MsgType) : HasTy m.ty (.struct (validSample m)) ∧ JsonOk m (.struct (validSample m)) := by
  cases m with
  | req r =>
    cases r
    all_goals refine ⟨?_, ?_⟩
    all_goals first
      | (focus (simp [validSample, MsgType.ty, ReqType.ty, HasTy, HasTys, cpreq.Authorize, cpreq.BootNotification, cpreq.DataTransfer, cpreq.DiagnosticsStatusNotification, cpreq.FirmwareStatusNotification, cpreq.Heartbeat, cpreq.SampledValue, cpreq.MeterValueItems, cpreq.MeterValues, cpreq.StartTransaction, cpreq.StatusNotification, cpreq.TransactionDataItems, cpreq.StopTransaction, csreq.CancelReservation, csreq.ChangeAvailability, csreq.ChangeConfiguration, csreq.ChargingSchedulePeriodItems, csreq.ChargingSchedule, csreq.ChargingProfile, csreq.ClearCache, csreq.ClearChargingProfile, csreq.DataTransfer, csreq.GetCompositeSchedule, csreq.GetConfiguration, csreq.GetDiagnostics, csreq.GetLocalListVersion, csreq.IdTagInfo, csreq.LocalAuthorizationListItems, csreq.RemoteStartTransaction, csreq.RemoteStopTransaction, csreq.ReserveNow, csreq.Reset, csreq.SendLocalList, csreq.TriggerMessage, csreq.UnlockConnector, csreq.UpdateFirmware, csreq.CsChargingProfiles, csreq.SetChargingProfile, isF64_1, isF64_6, isF64_16, isF64_300, isF64_2']; done))
      | (repeat' first
          | exact trivial
          | exact .inl rfl
          | refine .inr ?_
          | exact entries_cons (object_mk trivial)
          | refine entries_cons (object_mk ?_)
          | refine object_mk ?_
          | exact oneOf_lit (by decide)
          | exact upTo_lit (by decide)
          | exact entries_cons ⟨_, rfl, upTo_lit (by decide)⟩
          | refine ⟨?_, ?_⟩)
  | resp r =>
    cases r
    all_goals refine ⟨?_, ?_⟩
    all_goals first
      | (focus (simp [validSample, MsgType.ty, RespType.ty, HasTy, HasTys, cpresp.IdTagInfo, cpresp.Authorize, cpresp.BootNotification, cpresp.DataTransfer, cpresp.DiagnosticsStatusNotification, cpresp.FirmwareStatusNotification, cpresp.Heartbeat, cpresp.MeterValues, cpresp.StartTransaction, cpresp.StatusNotification, cpresp.StopTransaction, csresp.CancelReservation, csresp.ChangeAvailability, csresp.ChangeConfiguration, csresp.ChargingSchedulePeriodItems, csresp.ChargingSchedule, csresp.ClearCache, csresp.ClearChargingProfile, csresp.ConfigurationKeyItems, csresp.DataTransfer, csresp.GetCompositeSchedule, csresp.GetConfiguration, csresp.GetDiagnostics, csresp.GetLocalListVersion, csresp.RemoteStartTransaction, csresp.RemoteStopTransaction, csresp.ReserveNow, csresp.Reset, csresp.SendLocalList, csresp.TriggerMessage, csresp.UnlockConnector, csresp.UpdateFirmware, csresp.SetChargingProfile, isF64_1, isF64_6, isF64_16, isF64_300, isF64_2']; done))
      | (repeat' first
          | exact trivial
          | exact .inl rfl
          | refine .inr ?_
          | exact entries_cons (object_mk trivial)
          | refine entries_cons (object_mk ?_)
          | refine object_mk ?_
          | exact oneOf_lit (by decide)
          | exact upTo_lit (by decide)
          | exact entries_cons ⟨_, rfl, upTo_lit (by decide)⟩
          | refine ⟨?_, ?_⟩)

/-- **C100** Unlike with SOAP (C73), of every message type there are messages that can be sent and are valid. -/
theorem C100_possible (F : FloatFmt) (m : MsgType) : ∃ v text j, HasTy m.ty v ∧ JsonOk m v ∧ marshal F m.ty v = .ok text ∧ JsonText j text ∧
    Conforms m.jschema j := by
  obtain ⟨hv, hok⟩ := validSample_ok m
  have hw : ∃ j, wire F m.ty (.struct (validSample m)) = .ok j := by
    cases m with
    | req r => cases r <;> exact ⟨_, rfl⟩
    | resp r => cases r <;> exact ⟨_, rfl⟩
  obtain ⟨j, hj⟩ := hw
  have : ∃ text, marshal F m.ty (.struct (validSample m)) = .ok text := by
    rcases C01_wellformed F m _ hv with ⟨t, ms, h1, -⟩ | ⟨e, -, h2⟩ | ⟨e, -, h2⟩
    · exact ⟨t, h1⟩
    · rw [hj] at h2; cases h2
    · rw [hj] at h2; cases h2
  obtain ⟨text, ht⟩ := this
  obtain ⟨j', h1, h2⟩ := C100_iff F m _ hv text ht
  exact ⟨_, text, j', hv, hok, ht, h1, h2.2 hok⟩

end Verif.Conf
