import Verif.Spec.Schema
import Verif.Model.Messages
/-!
# The OCPP 1.6 JSON schemas shipped in ws/json

Generated by tools/gen.py; only types, property names, `required` and `additionalProperties` are kept
(`enum`, `maxLength`, `format` and `multipleOf` are dropped).  Do not edit by hand.
-/
namespace Verif

/-- ws/json/Authorize.json -/
def Schemas.Authorize : Schema :=
  .obj [("idTag".toList, .str)] ["idTag".toList] true

/-- ws/json/AuthorizeResponse.json -/
def Schemas.AuthorizeResponse : Schema :=
  .obj [("idTagInfo".toList, .obj [("status".toList, .str),
        ("expiryDate".toList, .str),
        ("parentIdTag".toList, .str)] ["status".toList] false)] ["idTagInfo".toList] true

/-- ws/json/BootNotification.json -/
def Schemas.BootNotification : Schema :=
  .obj [("chargePointVendor".toList, .str),
      ("chargePointModel".toList, .str),
      ("chargePointSerialNumber".toList, .str),
      ("chargeBoxSerialNumber".toList, .str),
      ("firmwareVersion".toList, .str),
      ("iccid".toList, .str),
      ("imsi".toList, .str),
      ("meterType".toList, .str),
      ("meterSerialNumber".toList, .str)] ["chargePointVendor".toList, "chargePointModel".toList] true

/-- ws/json/BootNotificationResponse.json -/
def Schemas.BootNotificationResponse : Schema :=
  .obj [("status".toList, .str),
      ("currentTime".toList, .str),
      ("interval".toList, .num)] ["status".toList, "currentTime".toList, "interval".toList] true

/-- ws/json/CancelReservation.json -/
def Schemas.CancelReservation : Schema :=
  .obj [("reservationId".toList, .int)] ["reservationId".toList] true

/-- ws/json/CancelReservationResponse.json -/
def Schemas.CancelReservationResponse : Schema :=
  .obj [("status".toList, .str)] ["status".toList] true

/-- ws/json/ChangeAvailability.json -/
def Schemas.ChangeAvailability : Schema :=
  .obj [("connectorId".toList, .int),
      ("type".toList, .str)] ["connectorId".toList, "type".toList] true

/-- ws/json/ChangeAvailabilityResponse.json -/
def Schemas.ChangeAvailabilityResponse : Schema :=
  .obj [("status".toList, .str)] ["status".toList] true

/-- ws/json/ChangeConfiguration.json -/
def Schemas.ChangeConfiguration : Schema :=
  .obj [("key".toList, .str),
      ("value".toList, .str)] ["key".toList, "value".toList] true

/-- ws/json/ChangeConfigurationResponse.json -/
def Schemas.ChangeConfigurationResponse : Schema :=
  .obj [("status".toList, .str)] ["status".toList] true

/-- ws/json/ClearCache.json -/
def Schemas.ClearCache : Schema :=
  .obj [] [] true

/-- ws/json/ClearCacheResponse.json -/
def Schemas.ClearCacheResponse : Schema :=
  .obj [("status".toList, .str)] ["status".toList] true

/-- ws/json/ClearChargingProfile.json -/
def Schemas.ClearChargingProfile : Schema :=
  .obj [("id".toList, .int),
      ("connectorId".toList, .int),
      ("chargingProfilePurpose".toList, .str),
      ("stackLevel".toList, .int)] [] true

/-- ws/json/ClearChargingProfileResponse.json -/
def Schemas.ClearChargingProfileResponse : Schema :=
  .obj [("status".toList, .str)] ["status".toList] true

/-- ws/json/DataTransfer.json -/
def Schemas.DataTransfer : Schema :=
  .obj [("vendorId".toList, .str),
      ("messageId".toList, .str),
      ("data".toList, .str)] ["vendorId".toList] true

/-- ws/json/DataTransferResponse.json -/
def Schemas.DataTransferResponse : Schema :=
  .obj [("status".toList, .str),
      ("data".toList, .str)] ["status".toList] true

/-- ws/json/DiagnosticsStatusNotification.json -/
def Schemas.DiagnosticsStatusNotification : Schema :=
  .obj [("status".toList, .str)] ["status".toList] true

/-- ws/json/DiagnosticsStatusNotificationResponse.json -/
def Schemas.DiagnosticsStatusNotificationResponse : Schema :=
  .obj [] [] true

/-- ws/json/FirmwareStatusNotification.json -/
def Schemas.FirmwareStatusNotification : Schema :=
  .obj [("status".toList, .str)] ["status".toList] true

/-- ws/json/FirmwareStatusNotificationResponse.json -/
def Schemas.FirmwareStatusNotificationResponse : Schema :=
  .obj [] [] true

/-- ws/json/GetCompositeSchedule.json -/
def Schemas.GetCompositeSchedule : Schema :=
  .obj [("connectorId".toList, .int),
      ("duration".toList, .int),
      ("chargingRateUnit".toList, .str)] ["connectorId".toList, "duration".toList] true

/-- ws/json/GetCompositeScheduleResponse.json -/
def Schemas.GetCompositeScheduleResponse : Schema :=
  .obj [("status".toList, .str),
      ("connectorId".toList, .int),
      ("scheduleStart".toList, .str),
      ("chargingSchedule".toList, .obj [("duration".toList, .int),
        ("startSchedule".toList, .str),
        ("chargingRateUnit".toList, .str),
        ("chargingSchedulePeriod".toList, .arr (.obj [("startPeriod".toList, .int),
          ("limit".toList, .num),
          ("numberPhases".toList, .int)] ["startPeriod".toList, "limit".toList] false)),
        ("minChargingRate".toList, .num)] ["chargingRateUnit".toList, "chargingSchedulePeriod".toList] false)] ["status".toList] true

/-- ws/json/GetConfiguration.json -/
def Schemas.GetConfiguration : Schema :=
  .obj [("key".toList, .arr (.str))] [] true

/-- ws/json/GetConfigurationResponse.json -/
def Schemas.GetConfigurationResponse : Schema :=
  .obj [("configurationKey".toList, .arr (.obj [("key".toList, .str),
        ("readonly".toList, .bool),
        ("value".toList, .str)] ["key".toList, "readonly".toList] false)),
      ("unknownKey".toList, .arr (.str))] [] true

/-- ws/json/GetDiagnostics.json -/
def Schemas.GetDiagnostics : Schema :=
  .obj [("location".toList, .str),
      ("retries".toList, .int),
      ("retryInterval".toList, .int),
      ("startTime".toList, .str),
      ("stopTime".toList, .str)] ["location".toList] true

/-- ws/json/GetDiagnosticsResponse.json -/
def Schemas.GetDiagnosticsResponse : Schema :=
  .obj [("fileName".toList, .str)] [] true

/-- ws/json/GetLocalListVersion.json -/
def Schemas.GetLocalListVersion : Schema :=
  .obj [] [] true

/-- ws/json/GetLocalListVersionResponse.json -/
def Schemas.GetLocalListVersionResponse : Schema :=
  .obj [("listVersion".toList, .int)] ["listVersion".toList] true

/-- ws/json/Heartbeat.json -/
def Schemas.Heartbeat : Schema :=
  .obj [] [] true

/-- ws/json/HeartbeatResponse.json -/
def Schemas.HeartbeatResponse : Schema :=
  .obj [("currentTime".toList, .str)] ["currentTime".toList] true

/-- ws/json/MeterValues.json -/
def Schemas.MeterValues : Schema :=
  .obj [("connectorId".toList, .int),
      ("transactionId".toList, .int),
      ("meterValue".toList, .arr (.obj [("timestamp".toList, .str),
        ("sampledValue".toList, .arr (.obj [("value".toList, .str),
          ("context".toList, .str),
          ("format".toList, .str),
          ("measurand".toList, .str),
          ("phase".toList, .str),
          ("location".toList, .str),
          ("unit".toList, .str)] ["value".toList] false))] ["timestamp".toList, "sampledValue".toList] false))] ["connectorId".toList, "meterValue".toList] true

/-- ws/json/MeterValuesResponse.json -/
def Schemas.MeterValuesResponse : Schema :=
  .obj [] [] true

/-- ws/json/RemoteStartTransaction.json -/
def Schemas.RemoteStartTransaction : Schema :=
  .obj [("connectorId".toList, .int),
      ("idTag".toList, .str),
      ("chargingProfile".toList, .obj [("chargingProfileId".toList, .int),
        ("transactionId".toList, .int),
        ("stackLevel".toList, .int),
        ("chargingProfilePurpose".toList, .str),
        ("chargingProfileKind".toList, .str),
        ("recurrencyKind".toList, .str),
        ("validFrom".toList, .str),
        ("validTo".toList, .str),
        ("chargingSchedule".toList, .obj [("duration".toList, .int),
          ("startSchedule".toList, .str),
          ("chargingRateUnit".toList, .str),
          ("chargingSchedulePeriod".toList, .arr (.obj [("startPeriod".toList, .int),
            ("limit".toList, .num),
            ("numberPhases".toList, .int)] ["startPeriod".toList, "limit".toList] false)),
          ("minChargingRate".toList, .num)] ["chargingRateUnit".toList, "chargingSchedulePeriod".toList] false)] ["chargingProfileId".toList, "stackLevel".toList, "chargingProfilePurpose".toList, "chargingProfileKind".toList, "chargingSchedule".toList] false)] ["idTag".toList] true

/-- ws/json/RemoteStartTransactionResponse.json -/
def Schemas.RemoteStartTransactionResponse : Schema :=
  .obj [("status".toList, .str)] ["status".toList] true

/-- ws/json/RemoteStopTransaction.json -/
def Schemas.RemoteStopTransaction : Schema :=
  .obj [("transactionId".toList, .int)] ["transactionId".toList] true

/-- ws/json/RemoteStopTransactionResponse.json -/
def Schemas.RemoteStopTransactionResponse : Schema :=
  .obj [("status".toList, .str)] ["status".toList] true

/-- ws/json/ReserveNow.json -/
def Schemas.ReserveNow : Schema :=
  .obj [("connectorId".toList, .int),
      ("expiryDate".toList, .str),
      ("idTag".toList, .str),
      ("parentIdTag".toList, .str),
      ("reservationId".toList, .int)] ["connectorId".toList, "expiryDate".toList, "idTag".toList, "reservationId".toList] true

/-- ws/json/ReserveNowResponse.json -/
def Schemas.ReserveNowResponse : Schema :=
  .obj [("status".toList, .str)] ["status".toList] true

/-- ws/json/Reset.json -/
def Schemas.Reset : Schema :=
  .obj [("type".toList, .str)] ["type".toList] true

/-- ws/json/ResetResponse.json -/
def Schemas.ResetResponse : Schema :=
  .obj [("status".toList, .str)] ["status".toList] true

/-- ws/json/SendLocalList.json -/
def Schemas.SendLocalList : Schema :=
  .obj [("listVersion".toList, .int),
      ("localAuthorizationList".toList, .arr (.obj [("idTag".toList, .str),
        ("idTagInfo".toList, .obj [("status".toList, .str)] ["status".toList] false)] ["idTag".toList] false)),
      ("updateType".toList, .str)] ["listVersion".toList, "updateType".toList] true

/-- ws/json/SendLocalListResponse.json -/
def Schemas.SendLocalListResponse : Schema :=
  .obj [("status".toList, .str)] ["status".toList] true

/-- ws/json/SetChargingProfile.json -/
def Schemas.SetChargingProfile : Schema :=
  .obj [("connectorId".toList, .int),
      ("csChargingProfiles".toList, .obj [("chargingProfileId".toList, .int),
        ("transactionId".toList, .int),
        ("stackLevel".toList, .int),
        ("chargingProfilePurpose".toList, .str),
        ("chargingProfileKind".toList, .str),
        ("recurrencyKind".toList, .str),
        ("validFrom".toList, .str),
        ("validTo".toList, .str),
        ("chargingSchedule".toList, .obj [("duration".toList, .int),
          ("startSchedule".toList, .str),
          ("chargingRateUnit".toList, .str),
          ("chargingSchedulePeriod".toList, .arr (.obj [("startPeriod".toList, .int),
            ("limit".toList, .num),
            ("numberPhases".toList, .int)] ["startPeriod".toList, "limit".toList] false)),
          ("minChargingRate".toList, .num)] ["chargingRateUnit".toList, "chargingSchedulePeriod".toList] false)] ["chargingProfileId".toList, "stackLevel".toList, "chargingProfilePurpose".toList, "chargingProfileKind".toList, "chargingSchedule".toList] false)] ["connectorId".toList, "csChargingProfiles".toList] true

/-- ws/json/SetChargingProfileResponse.json -/
def Schemas.SetChargingProfileResponse : Schema :=
  .obj [("status".toList, .str)] ["status".toList] true

/-- ws/json/StartTransaction.json -/
def Schemas.StartTransaction : Schema :=
  .obj [("connectorId".toList, .int),
      ("idTag".toList, .str),
      ("meterStart".toList, .int),
      ("reservationId".toList, .int),
      ("timestamp".toList, .str)] ["connectorId".toList, "idTag".toList, "meterStart".toList, "timestamp".toList] true

/-- ws/json/StartTransactionResponse.json -/
def Schemas.StartTransactionResponse : Schema :=
  .obj [("idTagInfo".toList, .obj [("expiryDate".toList, .str),
        ("parentIdTag".toList, .str),
        ("status".toList, .str)] ["status".toList] false),
      ("transactionId".toList, .int)] ["idTagInfo".toList, "transactionId".toList] true

/-- ws/json/StatusNotification.json -/
def Schemas.StatusNotification : Schema :=
  .obj [("connectorId".toList, .int),
      ("errorCode".toList, .str),
      ("info".toList, .str),
      ("status".toList, .str),
      ("timestamp".toList, .str),
      ("vendorId".toList, .str),
      ("vendorErrorCode".toList, .str)] ["connectorId".toList, "errorCode".toList, "status".toList] true

/-- ws/json/StatusNotificationResponse.json -/
def Schemas.StatusNotificationResponse : Schema :=
  .obj [] [] true

/-- ws/json/StopTransaction.json -/
def Schemas.StopTransaction : Schema :=
  .obj [("idTag".toList, .str),
      ("meterStop".toList, .int),
      ("timestamp".toList, .str),
      ("transactionId".toList, .int),
      ("reason".toList, .str),
      ("transactionData".toList, .arr (.obj [("timestamp".toList, .str),
        ("sampledValue".toList, .arr (.obj [("value".toList, .str),
          ("context".toList, .str),
          ("format".toList, .str),
          ("measurand".toList, .str),
          ("phase".toList, .str),
          ("location".toList, .str),
          ("unit".toList, .str)] ["value".toList] false))] ["timestamp".toList, "sampledValue".toList] false))] ["transactionId".toList, "timestamp".toList, "meterStop".toList] true

/-- ws/json/StopTransactionResponse.json -/
def Schemas.StopTransactionResponse : Schema :=
  .obj [("idTagInfo".toList, .obj [("expiryDate".toList, .str),
        ("parentIdTag".toList, .str),
        ("status".toList, .str)] ["status".toList] false)] [] true

/-- ws/json/TriggerMessage.json -/
def Schemas.TriggerMessage : Schema :=
  .obj [("requestedMessage".toList, .str),
      ("connectorId".toList, .int)] ["requestedMessage".toList] true

/-- ws/json/TriggerMessageResponse.json -/
def Schemas.TriggerMessageResponse : Schema :=
  .obj [("status".toList, .str)] ["status".toList] true

/-- ws/json/UnlockConnector.json -/
def Schemas.UnlockConnector : Schema :=
  .obj [("connectorId".toList, .int)] ["connectorId".toList] true

/-- ws/json/UnlockConnectorResponse.json -/
def Schemas.UnlockConnectorResponse : Schema :=
  .obj [("status".toList, .str)] ["status".toList] true

/-- ws/json/UpdateFirmware.json -/
def Schemas.UpdateFirmware : Schema :=
  .obj [("location".toList, .str),
      ("retries".toList, .num),
      ("retrieveDate".toList, .str),
      ("retryInterval".toList, .num)] ["location".toList, "retrieveDate".toList] true

/-- ws/json/UpdateFirmwareResponse.json -/
def Schemas.UpdateFirmwareResponse : Schema :=
  .obj [] [] true

/-- The schema of a message type: the file of ws/json named after it. -/
def ReqType.schema : ReqType → Schema
  | .cpreqAuthorize => Schemas.Authorize
  | .cpreqBootNotification => Schemas.BootNotification
  | .cpreqDataTransfer => Schemas.DataTransfer
  | .cpreqDiagnosticsStatusNotification => Schemas.DiagnosticsStatusNotification
  | .cpreqFirmwareStatusNotification => Schemas.FirmwareStatusNotification
  | .cpreqHeartbeat => Schemas.Heartbeat
  | .cpreqMeterValues => Schemas.MeterValues
  | .cpreqStartTransaction => Schemas.StartTransaction
  | .cpreqStatusNotification => Schemas.StatusNotification
  | .cpreqStopTransaction => Schemas.StopTransaction
  | .csreqCancelReservation => Schemas.CancelReservation
  | .csreqChangeAvailability => Schemas.ChangeAvailability
  | .csreqChangeConfiguration => Schemas.ChangeConfiguration
  | .csreqClearCache => Schemas.ClearCache
  | .csreqClearChargingProfile => Schemas.ClearChargingProfile
  | .csreqDataTransfer => Schemas.DataTransfer
  | .csreqGetCompositeSchedule => Schemas.GetCompositeSchedule
  | .csreqGetConfiguration => Schemas.GetConfiguration
  | .csreqGetDiagnostics => Schemas.GetDiagnostics
  | .csreqGetLocalListVersion => Schemas.GetLocalListVersion
  | .csreqRemoteStartTransaction => Schemas.RemoteStartTransaction
  | .csreqRemoteStopTransaction => Schemas.RemoteStopTransaction
  | .csreqReserveNow => Schemas.ReserveNow
  | .csreqReset => Schemas.Reset
  | .csreqSendLocalList => Schemas.SendLocalList
  | .csreqTriggerMessage => Schemas.TriggerMessage
  | .csreqUnlockConnector => Schemas.UnlockConnector
  | .csreqUpdateFirmware => Schemas.UpdateFirmware
  | .csreqSetChargingProfile => Schemas.SetChargingProfile

/-- The schema of a message type: the file of ws/json named after it. -/
def RespType.schema : RespType → Schema
  | .cprespAuthorize => Schemas.AuthorizeResponse
  | .cprespBootNotification => Schemas.BootNotificationResponse
  | .cprespDataTransfer => Schemas.DataTransferResponse
  | .cprespDiagnosticsStatusNotification => Schemas.DiagnosticsStatusNotificationResponse
  | .cprespFirmwareStatusNotification => Schemas.FirmwareStatusNotificationResponse
  | .cprespHeartbeat => Schemas.HeartbeatResponse
  | .cprespMeterValues => Schemas.MeterValuesResponse
  | .cprespStartTransaction => Schemas.StartTransactionResponse
  | .cprespStatusNotification => Schemas.StatusNotificationResponse
  | .cprespStopTransaction => Schemas.StopTransactionResponse
  | .csrespCancelReservation => Schemas.CancelReservationResponse
  | .csrespChangeAvailability => Schemas.ChangeAvailabilityResponse
  | .csrespChangeConfiguration => Schemas.ChangeConfigurationResponse
  | .csrespClearCache => Schemas.ClearCacheResponse
  | .csrespClearChargingProfile => Schemas.ClearChargingProfileResponse
  | .csrespDataTransfer => Schemas.DataTransferResponse
  | .csrespGetCompositeSchedule => Schemas.GetCompositeScheduleResponse
  | .csrespGetConfiguration => Schemas.GetConfigurationResponse
  | .csrespGetDiagnostics => Schemas.GetDiagnosticsResponse
  | .csrespGetLocalListVersion => Schemas.GetLocalListVersionResponse
  | .csrespRemoteStartTransaction => Schemas.RemoteStartTransactionResponse
  | .csrespRemoteStopTransaction => Schemas.RemoteStopTransactionResponse
  | .csrespReserveNow => Schemas.ReserveNowResponse
  | .csrespReset => Schemas.ResetResponse
  | .csrespSendLocalList => Schemas.SendLocalListResponse
  | .csrespTriggerMessage => Schemas.TriggerMessageResponse
  | .csrespUnlockConnector => Schemas.UnlockConnectorResponse
  | .csrespUpdateFirmware => Schemas.UpdateFirmwareResponse
  | .csrespSetChargingProfile => Schemas.SetChargingProfileResponse

end Verif
