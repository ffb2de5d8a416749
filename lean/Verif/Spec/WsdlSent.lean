import Verif.Spec.Wsdl
import Verif.Spec.SoapRender
/-!
# Which messages are valid against the WSDL files

For each type the values whose element is valid against the schema.
-/
namespace Verif.Soap
open Xml

/-- The range of `xs:int`. -/
def Int32 (n : Int) : Prop := -(2 ^ 31) ≤ n ∧ n < 2 ^ 31

/-- A time XML Schema can write: not in the year 0, which it does not have, and at most 14 hours away from UTC. -/
def DateOk (t : GoTime) : Prop := 1 ≤ t.year ∧ t.off.natAbs ≤ 14 * 3600

/-- If a pointer to a time is not nil, the time can be written. -/
def DateOk? : Val → Prop
  | .ptr (.time t) => DateOk t
  | _ => True

/-- One of the names. -/
def OneOf (l : List String) (s : Text) : Prop := s ∈ l.map String.toList

/-- The request is valid against the WSDL file, as the fields of its type (in the order of their declaration) are written. -/
def ReqOk : ReqType → List Val → Prop
  -- sent by the charge point
  | .cpreqAuthorize, [.str idTag] => idTag ≠ [] ∧ idTag.length ≤ 20
  | .cpreqBootNotification, _ => False
  | .cpreqDataTransfer, [.str data, .str messageId, .str vendorId] => data = [] ∧ messageId = [] ∧ vendorId ≠ []
  | .cpreqDiagnosticsStatusNotification, [.str status] => OneOf ["Uploaded", "UploadFailed"] status
  | .cpreqFirmwareStatusNotification, [.str status] => OneOf ["Downloaded", "DownloadFailed", "InstallationFailed", "Installed"] status
  | .cpreqHeartbeat, _ => True
  | .cpreqMeterValues, [.int connectorId, values, .int _] =>
    connectorId ≠ 0 ∧ Int32 connectorId ∧ (values = .nil ∨ ∃ vs, values = .slice vs ∧ ∀ v ∈ vs, v = .nil)
  | .cpreqStartTransaction, _ => False
  | .cpreqStatusNotification, _ => False
  | .cpreqStopTransaction, _ => False
  -- sent by the central system
  | .csreqCancelReservation, [.int reservationId] => Int32 reservationId
  | .csreqChangeAvailability, [.int connectorId, .str type] => Int32 connectorId ∧ OneOf ["Inoperative", "Operative"] type
  | .csreqChangeConfiguration, _ => True
  | .csreqClearCache, _ => True
  | .csreqDataTransfer, [.str data, .str messageId, .str _] => data = [] ∧ messageId = []
  | .csreqGetConfiguration, _ => True
  | .csreqGetDiagnostics, [.str _, .int retries, .int retryInterval, startTime, stopTime] =>
    Int32 retries ∧ Int32 retryInterval ∧ DateOk? startTime ∧ DateOk? stopTime ∧
      ((retries = 0 ∧ retryInterval = 0) ∨ (startTime = .nil ∧ stopTime = .nil))
  | .csreqGetLocalListVersion, _ => True
  | .csreqRemoteStartTransaction, [.str idTag, chargingProfile, .int _] => idTag.length ≤ 20 ∧ chargingProfile = .nil
  | .csreqRemoteStopTransaction, _ => True
  | .csreqReserveNow, [.int connectorId, .time expiryDate, .str idTag, .str parentIdTag, .int reservationId] =>
    Int32 connectorId ∧ DateOk expiryDate ∧ idTag.length ≤ 20 ∧ parentIdTag.length ≤ 20 ∧ Int32 reservationId
  | .csreqReset, [.str type] => OneOf ["Hard", "Soft"] type
  | .csreqSendLocalList, _ => False
  | .csreqUnlockConnector, [.int connectorId] => Int32 connectorId
  | .csreqUpdateFirmware, _ => False
  -- OCPP 1.6 only
  | .csreqClearChargingProfile, _ => False
  | .csreqGetCompositeSchedule, _ => False
  | .csreqSetChargingProfile, _ => False
  | .csreqTriggerMessage, _ => False
  | _, _ => False

/-- The response is valid. -/
def RespOk (G : FloatText) : RespType → List Val → Prop
  -- sent by the central system
  | .cprespAuthorize, [idTagInfo] =>
    ∃ status, idTagInfo = .ptr (.struct [.nil, .str [], .str status]) ∧ OneOf ["Accepted", "Blocked", "Expired", "Invalid", "ConcurrentTx"] status
  | .cprespBootNotification, [.str status, .time currentTime, .float heartbeatInterval] =>
    OneOf ["Accepted", "Rejected"] status ∧ DateOk currentTime ∧
      ∃ q n, heartbeatInterval = .fin q ∧ q ≠ 0 ∧ IntText (G.fmt q) n ∧ Int32 n
  | .cprespDataTransfer, _ => False
  | .cprespDiagnosticsStatusNotification, _ => True
  | .cprespFirmwareStatusNotification, _ => True
  | .cprespHeartbeat, [.time currentTime] => DateOk currentTime
  | .cprespMeterValues, _ => True
  | .cprespStartTransaction, _ => False
  | .cprespStatusNotification, _ => True
  | .cprespStopTransaction, [idTagInfo] => idTagInfo = .nil
  -- sent by the charge point
  | .csrespCancelReservation, [.str status] => OneOf ["Accepted", "Rejected"] status
  | .csrespChangeAvailability, [.str status] => OneOf ["Accepted", "Rejected", "Scheduled"] status
  | .csrespChangeConfiguration, [.str status] => OneOf ["Accepted", "Rejected", "NotSupported"] status
  | .csrespClearCache, [.str status] => OneOf ["Accepted", "Rejected"] status
  | .csrespDataTransfer, [.str data, .str status] => data = [] ∧ OneOf ["Accepted", "Rejected", "UnknownMessageId", "UnknownVendorId"] status
  | .csrespGetConfiguration, _ => True
  | .csrespGetDiagnostics, _ => True
  | .csrespGetLocalListVersion, [.int listVersion] => Int32 listVersion
  | .csrespRemoteStartTransaction, [.str status] => OneOf ["Accepted", "Rejected"] status
  | .csrespRemoteStopTransaction, [.str status] => OneOf ["Accepted", "Rejected"] status
  | .csrespReserveNow, [.str status] => OneOf ["Accepted", "Faulted", "Occupied", "Rejected", "Unavailable"] status
  | .csrespReset, [.str status] => OneOf ["Accepted", "Rejected"] status
  | .csrespSendLocalList, [.str status] => OneOf ["Accepted", "Failed", "HashError", "NotSupported", "VersionMismatch"] status
  | .csrespUnlockConnector, [.str status] => OneOf ["Accepted", "Rejected"] status
  | .csrespUpdateFirmware, _ => True
  -- OCPP 1.6 only
  | .csrespClearChargingProfile, _ => False
  | .csrespGetCompositeSchedule, _ => False
  | .csrespSetChargingProfile, _ => False
  | .csrespTriggerMessage, _ => False
  | _, _ => False

/-- The message is valid against the WSDL file. -/
def MsgOk (G : FloatText) : MsgType → Val → Prop
  | .req r, .struct vs => ReqOk r vs
  | .resp r, .struct vs => RespOk G r vs
  | _, _ => False

end Verif.Soap
