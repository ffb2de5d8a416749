import Verif.Spec.Conform
/-!
# Which messages are valid against the JSON schemas

For each type the values that are sent as JSON valid against the file of ws/json for it.
-/
namespace Verif.Conf

/-- cpstatus/error_code.go:5-38: the constants of package `cpstatus`, in their order. -/
def cpstatus : List String := ["ConnectorLockFailure", "EVCommunicationError", "GroundFailure", "HighTemperature", "InternalError",
  "LocalListConflict", "NoError", "OtherError", "OverCurrentFailure", "OverVoltage", "PowerMeterFailure", "PowerSwitchFailure",
  "ReaderFailure", "ResetFailure", "UnderVoltage", "WeakSignal"]

/-- One of the names. -/
def OneOf (l : List String) (s : Text) : Prop := ∃ n ∈ l, n.toList = s

/-- At most so many characters. -/
def UpTo (n : Nat) (s : Text) : Prop := s.length ≤ n

/-- A list that is not nil, with such entries. -/
def Entries (P : Val → Prop) (v : Val) : Prop := ∃ vs, v = .slice vs ∧ ∀ x ∈ vs, P x

/-- A pointer that is not nil, to a struct with such fields. -/
def Object (P : List Val → Prop) (v : Val) : Prop := ∃ vs, v = .ptr (.struct vs) ∧ P vs

/-- A string with such a text. -/
def Str (P : Text → Prop) (v : Val) : Prop := ∃ s, v = .str s ∧ P s

/-- `cpreq.SampledValue`: no optional field may be left unset. -/
def SampledOk : List Val → Prop
  | [.str context, .str format, .str location, .str measurand, .str phase, .str unit, .str _] =>
    OneOf ["Interruption.Begin", "Interruption.End", "Sample.Clock", "Sample.Periodic", "Transaction.Begin", "Transaction.End", "Trigger",
      "Other"] context ∧
    OneOf ["Raw", "SignedData"] format ∧
    OneOf ["Cable", "EV", "Inlet", "Outlet", "Body"] location ∧
    OneOf ["Energy.Active.Export.Register", "Energy.Active.Import.Register", "Energy.Reactive.Export.Register",
      "Energy.Reactive.Import.Register", "Energy.Active.Export.Interval", "Energy.Active.Import.Interval",
      "Energy.Reactive.Export.Interval", "Energy.Reactive.Import.Interval", "Power.Active.Export", "Power.Active.Import", "Power.Offered",
      "Power.Reactive.Export", "Power.Reactive.Import", "Power.Factor", "Current.Import", "Current.Export", "Current.Offered", "Voltage",
      "Frequency", "Temperature", "SoC", "RPM"] measurand ∧
    OneOf ["L1", "L2", "L3", "N", "L1-N", "L2-N", "L3-N", "L1-L2", "L2-L3", "L3-L1"] phase ∧
    OneOf ["Wh", "kWh", "varh", "kvarh", "W", "kW", "VA", "kVA", "var", "kvar", "A", "V", "K", "Celcius", "Fahrenheit", "Percent"] unit
  | _ => False

/-- `cpreq.MeterValue` and `cpreq.TransactionDataItems`. -/
def MeterValueOk : List Val → Prop
  | [sampledValue, .time _] => Entries (Object SampledOk) sampledValue
  | _ => False

/-- `cpresp.IdTagInfo`. -/
def IdTagInfoOk : List Val → Prop
  | [_, .str parentIdTag, .str status] => UpTo 20 parentIdTag ∧ OneOf ["Accepted", "Blocked", "Expired", "Invalid", "ConcurrentTx"] status
  | _ => False

/-- `csreq.AuthorizationData`, with `csreq.IdTagInfo` in it. -/
def AuthorizationOk : List Val → Prop
  | [.str idTag, idTagInfo] => UpTo 20 idTag ∧ Object (fun
    | [_, .str _, .str status] => OneOf ["Accepted", "Blocked", "Expired", "Invalid", "ConcurrentTx"] status
    | _ => False) idTagInfo
  | _ => False

/-- `csreq.ChargingSchedule`, `csresp.ChargingSchedule`. -/
def ScheduleOk : List Val → Prop
  | [.str chargingRateUnit, chargingSchedulePeriod, .int _, .float _, _] =>
    OneOf ["A", "W"] chargingRateUnit ∧ Entries (Object fun _ => True) chargingSchedulePeriod
  | _ => False

/-- `csreq.ChargingProfile`, `csreq.CsChargingProfiles`: the kind of recurrence may not be left unset. -/
def ProfileOk : List Val → Prop
  | [.int _, .str kind, .str purpose, schedule, .str recurrencyKind, .int _, .int _, _, _] =>
    OneOf ["Absolute", "Recurring", "Relative"] kind ∧ OneOf ["ChargePointMaxProfile", "TxDefaultProfile", "TxProfile"] purpose ∧
    Object ScheduleOk schedule ∧ OneOf ["Daily", "Weekly"] recurrencyKind
  | _ => False

/-- The request is valid against the file for it. -/
def JsonReqOk : ReqType → List Val → Prop
  -- sent by the charge point
  | .cpreqAuthorize, [.str idTag] => UpTo 20 idTag
  | .cpreqBootNotification, [.str box, .str model, .str serial, .str vendor, .str firmware, .str iccid, .str imsi, .str meterSerial, .str meterType] =>
    UpTo 25 box ∧ UpTo 20 model ∧ UpTo 25 serial ∧ UpTo 20 vendor ∧ UpTo 50 firmware ∧ UpTo 20 iccid ∧ UpTo 20 imsi ∧ UpTo 25 meterSerial ∧
    UpTo 25 meterType
  | .cpreqDataTransfer, [.str _, .str messageId, .str vendorId] => UpTo 50 messageId ∧ UpTo 255 vendorId
  | .cpreqDiagnosticsStatusNotification, [.str status] => OneOf ["Idle", "Uploaded", "UploadFailed", "Uploading"] status
  | .cpreqFirmwareStatusNotification, [.str status] =>
    OneOf ["Downloaded", "DownloadFailed", "Downloading", "Idle", "InstallationFailed", "Installing", "Installed"] status
  | .cpreqHeartbeat, _ => True
  | .cpreqMeterValues, [.int _, meterValue, .int _] => Entries (Object MeterValueOk) meterValue
  | .cpreqStartTransaction, [.int _, .str idTag, .int _, .int _, .time _] => UpTo 20 idTag
  | .cpreqStatusNotification, [.int _, .str errorCode, .str info, .str status, _, .str vendorErrorCode, .str vendorId] =>
    OneOf cpstatus errorCode ∧ UpTo 50 info ∧
    OneOf ["Available", "Preparing", "Charging", "SuspendedEVSE", "SuspendedEV", "Finishing", "Reserved", "Unavailable", "Faulted"] status ∧
    UpTo 50 vendorErrorCode ∧ UpTo 255 vendorId
  | .cpreqStopTransaction, [.str idTag, .int _, .str reason, .time _, transactionData, .int _] =>
    UpTo 20 idTag ∧
    OneOf ["EmergencyStop", "EVDisconnected", "HardReset", "Local", "Other", "PowerLoss", "Reboot", "Remote", "SoftReset", "UnlockCommand",
      "DeAuthorized"] reason ∧
    Entries (Object MeterValueOk) transactionData
  -- sent by the central system
  | .csreqCancelReservation, _ => True
  | .csreqChangeAvailability, [.int _, .str type] => OneOf ["Inoperative", "Operative"] type
  | .csreqChangeConfiguration, [.str key, .str value] => UpTo 50 key ∧ UpTo 500 value
  | .csreqClearCache, _ => True
  | .csreqClearChargingProfile, [.str purpose, .int _, .int _, .int _] => OneOf ["ChargePointMaxProfile", "TxDefaultProfile", "TxProfile"] purpose
  | .csreqDataTransfer, [.str _, .str messageId, .str vendorId] => UpTo 50 messageId ∧ UpTo 255 vendorId
  | .csreqGetCompositeSchedule, [.str chargingRateUnit, .int _, .int _] => OneOf ["A", "W"] chargingRateUnit
  | .csreqGetConfiguration, [key] => key = .nil ∨ Entries (Str (UpTo 50)) key
  | .csreqGetDiagnostics, _ => True
  | .csreqGetLocalListVersion, _ => True
  | .csreqRemoteStartTransaction, [.str idTag, chargingProfile, .int _] => UpTo 20 idTag ∧ (chargingProfile = .nil ∨ Object ProfileOk chargingProfile)
  | .csreqRemoteStopTransaction, _ => True
  | .csreqReserveNow, [.int _, .time _, .str idTag, .str parentIdTag, .int _] => UpTo 20 idTag ∧ UpTo 20 parentIdTag
  | .csreqReset, [.str type] => OneOf ["Hard", "Soft"] type
  | .csreqSendLocalList, [.int _, localAuthorizationList, .str updateType] =>
    Entries (Object AuthorizationOk) localAuthorizationList ∧ OneOf ["Differential", "Full"] updateType
  | .csreqTriggerMessage, [.int _, .str requestedMessage] =>
    OneOf ["BootNotification", "DiagnosticsStatusNotification", "FirmwareStatusNotification", "Heartbeat", "MeterValues",
      "StatusNotification"] requestedMessage
  | .csreqUnlockConnector, _ => True
  | .csreqUpdateFirmware, _ => True
  | .csreqSetChargingProfile, [.int _, csChargingProfiles] => Object ProfileOk csChargingProfiles
  | _, _ => False

/-- The response is valid against the file for it. -/
def JsonRespOk : RespType → List Val → Prop
  -- sent by the central system
  | .cprespAuthorize, [idTagInfo] => Object IdTagInfoOk idTagInfo
  | .cprespBootNotification, [.str status, .time _, .float _] => OneOf ["Accepted", "Pending", "Rejected"] status
  | .cprespDataTransfer, [.str _, .str status] => OneOf ["Accepted", "Rejected", "UnknownMessageId", "UnknownVendorId"] status
  | .cprespDiagnosticsStatusNotification, _ => True
  | .cprespFirmwareStatusNotification, _ => True
  | .cprespHeartbeat, _ => True
  | .cprespMeterValues, _ => True
  | .cprespStartTransaction, [idTagInfo, .int _] => Object IdTagInfoOk idTagInfo
  | .cprespStatusNotification, _ => True
  -- the optional object may not be left out
  | .cprespStopTransaction, [idTagInfo] => Object IdTagInfoOk idTagInfo
  -- sent by the charge point
  | .csrespCancelReservation, [.str status] => OneOf ["Accepted", "Rejected"] status
  | .csrespChangeAvailability, [.str status] => OneOf ["Accepted", "Rejected", "Scheduled"] status
  | .csrespChangeConfiguration, [.str status] => OneOf ["Accepted", "Rejected", "RebootRequired", "NotSupported"] status
  | .csrespClearCache, [.str status] => OneOf ["Accepted", "Rejected"] status
  | .csrespClearChargingProfile, [.str status] => OneOf ["Accepted", "Unknown"] status
  | .csrespDataTransfer, [.str _, .str status] => OneOf ["Accepted", "Rejected", "UnknownMessageId", "UnknownVendorId"] status
  -- a refusal, too, has to have a schedule
  | .csrespGetCompositeSchedule, [chargingSchedule, .int _, _, .str status] =>
    Object ScheduleOk chargingSchedule ∧ OneOf ["Accepted", "Rejected"] status
  | .csrespGetConfiguration, [configurationKey, unknownKey] =>
    Entries (Object fun
      | [.str key, .bool _, .str value] => UpTo 50 key ∧ UpTo 500 value
      | _ => False) configurationKey ∧
    Entries (Str (UpTo 50)) unknownKey
  | .csrespGetDiagnostics, [.str fileName] => UpTo 255 fileName
  | .csrespGetLocalListVersion, _ => True
  | .csrespRemoteStartTransaction, [.str status] => OneOf ["Accepted", "Rejected"] status
  | .csrespRemoteStopTransaction, [.str status] => OneOf ["Accepted", "Rejected"] status
  | .csrespReserveNow, [.str status] => OneOf ["Accepted", "Faulted", "Occupied", "Rejected", "Unavailable"] status
  | .csrespReset, [.str status] => OneOf ["Accepted", "Rejected"] status
  | .csrespSendLocalList, [.str status] => OneOf ["Accepted", "Failed", "NotSupported", "VersionMismatch"] status
  | .csrespTriggerMessage, [.str status] => OneOf ["Accepted", "Rejected", "NotImplemented"] status
  | .csrespUnlockConnector, [.str status] => OneOf ["Unlocked", "UnlockFailed", "NotSupported"] status
  | .csrespUpdateFirmware, _ => True
  | .csrespSetChargingProfile, [.str status] => OneOf ["Accepted", "Rejected", "NotSupported"] status
  | _, _ => False

/-- The message is valid against the file for it. -/
def JsonOk : MsgType → Val → Prop
  | .req r, .struct vs => JsonReqOk r vs
  | .resp r, .struct vs => JsonRespOk r vs
  | _, _ => False

end Verif.Conf
