import Verif.Spec.JSchema
import Verif.Model.Messages
/-!
# The OCPP 1.6 JSON schemas shipped in ws/json, with enumerations and lengths

Generated by tools/gen.py; `format` and `multipleOf` are dropped.  Do not edit by hand.
-/
namespace Verif

/-- ws/json/Authorize.json -/
def JSchemas.Authorize : JSchema :=
  .obj [("idTag".toList, .str none (some 20))] ["idTag".toList] true

/-- ws/json/AuthorizeResponse.json -/
def JSchemas.AuthorizeResponse : JSchema :=
  .obj [("idTagInfo".toList, .obj [("status".toList, .str (some ["Accepted".toList, "Blocked".toList, "Expired".toList, "Invalid".toList, "ConcurrentTx".toList]) none),
        ("expiryDate".toList, .str none none),
        ("parentIdTag".toList, .str none (some 20))] ["status".toList] false)] ["idTagInfo".toList] true

/-- ws/json/BootNotification.json -/
def JSchemas.BootNotification : JSchema :=
  .obj [("chargePointVendor".toList, .str none (some 20)),
      ("chargePointModel".toList, .str none (some 20)),
      ("chargePointSerialNumber".toList, .str none (some 25)),
      ("chargeBoxSerialNumber".toList, .str none (some 25)),
      ("firmwareVersion".toList, .str none (some 50)),
      ("iccid".toList, .str none (some 20)),
      ("imsi".toList, .str none (some 20)),
      ("meterType".toList, .str none (some 25)),
      ("meterSerialNumber".toList, .str none (some 25))] ["chargePointVendor".toList, "chargePointModel".toList] true

/-- ws/json/BootNotificationResponse.json -/
def JSchemas.BootNotificationResponse : JSchema :=
  .obj [("status".toList, .str (some ["Accepted".toList, "Pending".toList, "Rejected".toList]) none),
      ("currentTime".toList, .str none none),
      ("interval".toList, .num)] ["status".toList, "currentTime".toList, "interval".toList] true

/-- ws/json/CancelReservation.json -/
def JSchemas.CancelReservation : JSchema :=
  .obj [("reservationId".toList, .int)] ["reservationId".toList] true

/-- ws/json/CancelReservationResponse.json -/
def JSchemas.CancelReservationResponse : JSchema :=
  .obj [("status".toList, .str (some ["Accepted".toList, "Rejected".toList]) none)] ["status".toList] true

/-- ws/json/ChangeAvailability.json -/
def JSchemas.ChangeAvailability : JSchema :=
  .obj [("connectorId".toList, .int),
      ("type".toList, .str (some ["Inoperative".toList, "Operative".toList]) none)] ["connectorId".toList, "type".toList] true

/-- ws/json/ChangeAvailabilityResponse.json -/
def JSchemas.ChangeAvailabilityResponse : JSchema :=
  .obj [("status".toList, .str (some ["Accepted".toList, "Rejected".toList, "Scheduled".toList]) none)] ["status".toList] true

/-- ws/json/ChangeConfiguration.json -/
def JSchemas.ChangeConfiguration : JSchema :=
  .obj [("key".toList, .str none (some 50)),
      ("value".toList, .str none (some 500))] ["key".toList, "value".toList] true

/-- ws/json/ChangeConfigurationResponse.json -/
def JSchemas.ChangeConfigurationResponse : JSchema :=
  .obj [("status".toList, .str (some ["Accepted".toList, "Rejected".toList, "RebootRequired".toList, "NotSupported".toList]) none)] ["status".toList] true

/-- ws/json/ClearCache.json -/
def JSchemas.ClearCache : JSchema :=
  .obj [] [] true

/-- ws/json/ClearCacheResponse.json -/
def JSchemas.ClearCacheResponse : JSchema :=
  .obj [("status".toList, .str (some ["Accepted".toList, "Rejected".toList]) none)] ["status".toList] true

/-- ws/json/ClearChargingProfile.json -/
def JSchemas.ClearChargingProfile : JSchema :=
  .obj [("id".toList, .int),
      ("connectorId".toList, .int),
      ("chargingProfilePurpose".toList, .str (some ["ChargePointMaxProfile".toList, "TxDefaultProfile".toList, "TxProfile".toList]) none),
      ("stackLevel".toList, .int)] [] true

/-- ws/json/ClearChargingProfileResponse.json -/
def JSchemas.ClearChargingProfileResponse : JSchema :=
  .obj [("status".toList, .str (some ["Accepted".toList, "Unknown".toList]) none)] ["status".toList] true

/-- ws/json/DataTransfer.json -/
def JSchemas.DataTransfer : JSchema :=
  .obj [("vendorId".toList, .str none (some 255)),
      ("messageId".toList, .str none (some 50)),
      ("data".toList, .str none none)] ["vendorId".toList] true

/-- ws/json/DataTransferResponse.json -/
def JSchemas.DataTransferResponse : JSchema :=
  .obj [("status".toList, .str (some ["Accepted".toList, "Rejected".toList, "UnknownMessageId".toList, "UnknownVendorId".toList]) none),
      ("data".toList, .str none none)] ["status".toList] true

/-- ws/json/DiagnosticsStatusNotification.json -/
def JSchemas.DiagnosticsStatusNotification : JSchema :=
  .obj [("status".toList, .str (some ["Idle".toList, "Uploaded".toList, "UploadFailed".toList, "Uploading".toList]) none)] ["status".toList] true

/-- ws/json/DiagnosticsStatusNotificationResponse.json -/
def JSchemas.DiagnosticsStatusNotificationResponse : JSchema :=
  .obj [] [] true

/-- ws/json/FirmwareStatusNotification.json -/
def JSchemas.FirmwareStatusNotification : JSchema :=
  .obj [("status".toList, .str (some ["Downloaded".toList, "DownloadFailed".toList, "Downloading".toList, "Idle".toList, "InstallationFailed".toList, "Installing".toList, "Installed".toList]) none)] ["status".toList] true

/-- ws/json/FirmwareStatusNotificationResponse.json -/
def JSchemas.FirmwareStatusNotificationResponse : JSchema :=
  .obj [] [] true

/-- ws/json/GetCompositeSchedule.json -/
def JSchemas.GetCompositeSchedule : JSchema :=
  .obj [("connectorId".toList, .int),
      ("duration".toList, .int),
      ("chargingRateUnit".toList, .str (some ["A".toList, "W".toList]) none)] ["connectorId".toList, "duration".toList] true

/-- ws/json/GetCompositeScheduleResponse.json -/
def JSchemas.GetCompositeScheduleResponse : JSchema :=
  .obj [("status".toList, .str (some ["Accepted".toList, "Rejected".toList]) none),
      ("connectorId".toList, .int),
      ("scheduleStart".toList, .str none none),
      ("chargingSchedule".toList, .obj [("duration".toList, .int),
        ("startSchedule".toList, .str none none),
        ("chargingRateUnit".toList, .str (some ["A".toList, "W".toList]) none),
        ("chargingSchedulePeriod".toList, .arr (.obj [("startPeriod".toList, .int),
          ("limit".toList, .num),
          ("numberPhases".toList, .int)] ["startPeriod".toList, "limit".toList] false)),
        ("minChargingRate".toList, .num)] ["chargingRateUnit".toList, "chargingSchedulePeriod".toList] false)] ["status".toList] true

/-- ws/json/GetConfiguration.json -/
def JSchemas.GetConfiguration : JSchema :=
  .obj [("key".toList, .arr (.str none (some 50)))] [] true

/-- ws/json/GetConfigurationResponse.json -/
def JSchemas.GetConfigurationResponse : JSchema :=
  .obj [("configurationKey".toList, .arr (.obj [("key".toList, .str none (some 50)),
        ("readonly".toList, .bool),
        ("value".toList, .str none (some 500))] ["key".toList, "readonly".toList] false)),
      ("unknownKey".toList, .arr (.str none (some 50)))] [] true

/-- ws/json/GetDiagnostics.json -/
def JSchemas.GetDiagnostics : JSchema :=
  .obj [("location".toList, .str none none),
      ("retries".toList, .int),
      ("retryInterval".toList, .int),
      ("startTime".toList, .str none none),
      ("stopTime".toList, .str none none)] ["location".toList] true

/-- ws/json/GetDiagnosticsResponse.json -/
def JSchemas.GetDiagnosticsResponse : JSchema :=
  .obj [("fileName".toList, .str none (some 255))] [] true

/-- ws/json/GetLocalListVersion.json -/
def JSchemas.GetLocalListVersion : JSchema :=
  .obj [] [] true

/-- ws/json/GetLocalListVersionResponse.json -/
def JSchemas.GetLocalListVersionResponse : JSchema :=
  .obj [("listVersion".toList, .int)] ["listVersion".toList] true

/-- ws/json/Heartbeat.json -/
def JSchemas.Heartbeat : JSchema :=
  .obj [] [] true

/-- ws/json/HeartbeatResponse.json -/
def JSchemas.HeartbeatResponse : JSchema :=
  .obj [("currentTime".toList, .str none none)] ["currentTime".toList] true

/-- ws/json/MeterValues.json -/
def JSchemas.MeterValues : JSchema :=
  .obj [("connectorId".toList, .int),
      ("transactionId".toList, .int),
      ("meterValue".toList, .arr (.obj [("timestamp".toList, .str none none),
        ("sampledValue".toList, .arr (.obj [("value".toList, .str none none),
          ("context".toList, .str (some ["Interruption.Begin".toList, "Interruption.End".toList, "Sample.Clock".toList, "Sample.Periodic".toList, "Transaction.Begin".toList, "Transaction.End".toList, "Trigger".toList, "Other".toList]) none),
          ("format".toList, .str (some ["Raw".toList, "SignedData".toList]) none),
          ("measurand".toList, .str (some ["Energy.Active.Export.Register".toList, "Energy.Active.Import.Register".toList, "Energy.Reactive.Export.Register".toList, "Energy.Reactive.Import.Register".toList, "Energy.Active.Export.Interval".toList, "Energy.Active.Import.Interval".toList, "Energy.Reactive.Export.Interval".toList, "Energy.Reactive.Import.Interval".toList, "Power.Active.Export".toList, "Power.Active.Import".toList, "Power.Offered".toList, "Power.Reactive.Export".toList, "Power.Reactive.Import".toList, "Power.Factor".toList, "Current.Import".toList, "Current.Export".toList, "Current.Offered".toList, "Voltage".toList, "Frequency".toList, "Temperature".toList, "SoC".toList, "RPM".toList]) none),
          ("phase".toList, .str (some ["L1".toList, "L2".toList, "L3".toList, "N".toList, "L1-N".toList, "L2-N".toList, "L3-N".toList, "L1-L2".toList, "L2-L3".toList, "L3-L1".toList]) none),
          ("location".toList, .str (some ["Cable".toList, "EV".toList, "Inlet".toList, "Outlet".toList, "Body".toList]) none),
          ("unit".toList, .str (some ["Wh".toList, "kWh".toList, "varh".toList, "kvarh".toList, "W".toList, "kW".toList, "VA".toList, "kVA".toList, "var".toList, "kvar".toList, "A".toList, "V".toList, "K".toList, "Celcius".toList, "Fahrenheit".toList, "Percent".toList]) none)] ["value".toList] false))] ["timestamp".toList, "sampledValue".toList] false))] ["connectorId".toList, "meterValue".toList] true

/-- ws/json/MeterValuesResponse.json -/
def JSchemas.MeterValuesResponse : JSchema :=
  .obj [] [] true

/-- ws/json/RemoteStartTransaction.json -/
def JSchemas.RemoteStartTransaction : JSchema :=
  .obj [("connectorId".toList, .int),
      ("idTag".toList, .str none (some 20)),
      ("chargingProfile".toList, .obj [("chargingProfileId".toList, .int),
        ("transactionId".toList, .int),
        ("stackLevel".toList, .int),
        ("chargingProfilePurpose".toList, .str (some ["ChargePointMaxProfile".toList, "TxDefaultProfile".toList, "TxProfile".toList]) none),
        ("chargingProfileKind".toList, .str (some ["Absolute".toList, "Recurring".toList, "Relative".toList]) none),
        ("recurrencyKind".toList, .str (some ["Daily".toList, "Weekly".toList]) none),
        ("validFrom".toList, .str none none),
        ("validTo".toList, .str none none),
        ("chargingSchedule".toList, .obj [("duration".toList, .int),
          ("startSchedule".toList, .str none none),
          ("chargingRateUnit".toList, .str (some ["A".toList, "W".toList]) none),
          ("chargingSchedulePeriod".toList, .arr (.obj [("startPeriod".toList, .int),
            ("limit".toList, .num),
            ("numberPhases".toList, .int)] ["startPeriod".toList, "limit".toList] false)),
          ("minChargingRate".toList, .num)] ["chargingRateUnit".toList, "chargingSchedulePeriod".toList] false)] ["chargingProfileId".toList, "stackLevel".toList, "chargingProfilePurpose".toList, "chargingProfileKind".toList, "chargingSchedule".toList] false)] ["idTag".toList] true

/-- ws/json/RemoteStartTransactionResponse.json -/
def JSchemas.RemoteStartTransactionResponse : JSchema :=
  .obj [("status".toList, .str (some ["Accepted".toList, "Rejected".toList]) none)] ["status".toList] true

/-- ws/json/RemoteStopTransaction.json -/
def JSchemas.RemoteStopTransaction : JSchema :=
  .obj [("transactionId".toList, .int)] ["transactionId".toList] true

/-- ws/json/RemoteStopTransactionResponse.json -/
def JSchemas.RemoteStopTransactionResponse : JSchema :=
  .obj [("status".toList, .str (some ["Accepted".toList, "Rejected".toList]) none)] ["status".toList] true

/-- ws/json/ReserveNow.json -/
def JSchemas.ReserveNow : JSchema :=
  .obj [("connectorId".toList, .int),
      ("expiryDate".toList, .str none none),
      ("idTag".toList, .str none (some 20)),
      ("parentIdTag".toList, .str none (some 20)),
      ("reservationId".toList, .int)] ["connectorId".toList, "expiryDate".toList, "idTag".toList, "reservationId".toList] true

/-- ws/json/ReserveNowResponse.json -/
def JSchemas.ReserveNowResponse : JSchema :=
  .obj [("status".toList, .str (some ["Accepted".toList, "Faulted".toList, "Occupied".toList, "Rejected".toList, "Unavailable".toList]) none)] ["status".toList] true

/-- ws/json/Reset.json -/
def JSchemas.Reset : JSchema :=
  .obj [("type".toList, .str (some ["Hard".toList, "Soft".toList]) none)] ["type".toList] true

/-- ws/json/ResetResponse.json -/
def JSchemas.ResetResponse : JSchema :=
  .obj [("status".toList, .str (some ["Accepted".toList, "Rejected".toList]) none)] ["status".toList] true

/-- ws/json/SendLocalList.json -/
def JSchemas.SendLocalList : JSchema :=
  .obj [("listVersion".toList, .int),
      ("localAuthorizationList".toList, .arr (.obj [("idTag".toList, .str none (some 20)),
        ("idTagInfo".toList, .obj [("status".toList, .str (some ["Accepted".toList, "Blocked".toList, "Expired".toList, "Invalid".toList, "ConcurrentTx".toList]) none)] ["status".toList] false)] ["idTag".toList] false)),
      ("updateType".toList, .str (some ["Differential".toList, "Full".toList]) none)] ["listVersion".toList, "updateType".toList] true

/-- ws/json/SendLocalListResponse.json -/
def JSchemas.SendLocalListResponse : JSchema :=
  .obj [("status".toList, .str (some ["Accepted".toList, "Failed".toList, "NotSupported".toList, "VersionMismatch".toList]) none)] ["status".toList] true

/-- ws/json/SetChargingProfile.json -/
def JSchemas.SetChargingProfile : JSchema :=
  .obj [("connectorId".toList, .int),
      ("csChargingProfiles".toList, .obj [("chargingProfileId".toList, .int),
        ("transactionId".toList, .int),
        ("stackLevel".toList, .int),
        ("chargingProfilePurpose".toList, .str (some ["ChargePointMaxProfile".toList, "TxDefaultProfile".toList, "TxProfile".toList]) none),
        ("chargingProfileKind".toList, .str (some ["Absolute".toList, "Recurring".toList, "Relative".toList]) none),
        ("recurrencyKind".toList, .str (some ["Daily".toList, "Weekly".toList]) none),
        ("validFrom".toList, .str none none),
        ("validTo".toList, .str none none),
        ("chargingSchedule".toList, .obj [("duration".toList, .int),
          ("startSchedule".toList, .str none none),
          ("chargingRateUnit".toList, .str (some ["A".toList, "W".toList]) none),
          ("chargingSchedulePeriod".toList, .arr (.obj [("startPeriod".toList, .int),
            ("limit".toList, .num),
            ("numberPhases".toList, .int)] ["startPeriod".toList, "limit".toList] false)),
          ("minChargingRate".toList, .num)] ["chargingRateUnit".toList, "chargingSchedulePeriod".toList] false)] ["chargingProfileId".toList, "stackLevel".toList, "chargingProfilePurpose".toList, "chargingProfileKind".toList, "chargingSchedule".toList] false)] ["connectorId".toList, "csChargingProfiles".toList] true

/-- ws/json/SetChargingProfileResponse.json -/
def JSchemas.SetChargingProfileResponse : JSchema :=
  .obj [("status".toList, .str (some ["Accepted".toList, "Rejected".toList, "NotSupported".toList]) none)] ["status".toList] true

/-- ws/json/StartTransaction.json -/
def JSchemas.StartTransaction : JSchema :=
  .obj [("connectorId".toList, .int),
      ("idTag".toList, .str none (some 20)),
      ("meterStart".toList, .int),
      ("reservationId".toList, .int),
      ("timestamp".toList, .str none none)] ["connectorId".toList, "idTag".toList, "meterStart".toList, "timestamp".toList] true

/-- ws/json/StartTransactionResponse.json -/
def JSchemas.StartTransactionResponse : JSchema :=
  .obj [("idTagInfo".toList, .obj [("expiryDate".toList, .str none none),
        ("parentIdTag".toList, .str none (some 20)),
        ("status".toList, .str (some ["Accepted".toList, "Blocked".toList, "Expired".toList, "Invalid".toList, "ConcurrentTx".toList]) none)] ["status".toList] false),
      ("transactionId".toList, .int)] ["idTagInfo".toList, "transactionId".toList] true

/-- ws/json/StatusNotification.json -/
def JSchemas.StatusNotification : JSchema :=
  .obj [("connectorId".toList, .int),
      ("errorCode".toList, .str (some ["ConnectorLockFailure".toList, "EVCommunicationError".toList, "GroundFailure".toList, "HighTemperature".toList, "InternalError".toList, "LocalListConflict".toList, "NoError".toList, "OtherError".toList, "OverCurrentFailure".toList, "PowerMeterFailure".toList, "PowerSwitchFailure".toList, "ReaderFailure".toList, "ResetFailure".toList, "UnderVoltage".toList, "OverVoltage".toList, "WeakSignal".toList]) none),
      ("info".toList, .str none (some 50)),
      ("status".toList, .str (some ["Available".toList, "Preparing".toList, "Charging".toList, "SuspendedEVSE".toList, "SuspendedEV".toList, "Finishing".toList, "Reserved".toList, "Unavailable".toList, "Faulted".toList]) none),
      ("timestamp".toList, .str none none),
      ("vendorId".toList, .str none (some 255)),
      ("vendorErrorCode".toList, .str none (some 50))] ["connectorId".toList, "errorCode".toList, "status".toList] true

/-- ws/json/StatusNotificationResponse.json -/
def JSchemas.StatusNotificationResponse : JSchema :=
  .obj [] [] true

/-- ws/json/StopTransaction.json -/
def JSchemas.StopTransaction : JSchema :=
  .obj [("idTag".toList, .str none (some 20)),
      ("meterStop".toList, .int),
      ("timestamp".toList, .str none none),
      ("transactionId".toList, .int),
      ("reason".toList, .str (some ["EmergencyStop".toList, "EVDisconnected".toList, "HardReset".toList, "Local".toList, "Other".toList, "PowerLoss".toList, "Reboot".toList, "Remote".toList, "SoftReset".toList, "UnlockCommand".toList, "DeAuthorized".toList]) none),
      ("transactionData".toList, .arr (.obj [("timestamp".toList, .str none none),
        ("sampledValue".toList, .arr (.obj [("value".toList, .str none none),
          ("context".toList, .str (some ["Interruption.Begin".toList, "Interruption.End".toList, "Sample.Clock".toList, "Sample.Periodic".toList, "Transaction.Begin".toList, "Transaction.End".toList, "Trigger".toList, "Other".toList]) none),
          ("format".toList, .str (some ["Raw".toList, "SignedData".toList]) none),
          ("measurand".toList, .str (some ["Energy.Active.Export.Register".toList, "Energy.Active.Import.Register".toList, "Energy.Reactive.Export.Register".toList, "Energy.Reactive.Import.Register".toList, "Energy.Active.Export.Interval".toList, "Energy.Active.Import.Interval".toList, "Energy.Reactive.Export.Interval".toList, "Energy.Reactive.Import.Interval".toList, "Power.Active.Export".toList, "Power.Active.Import".toList, "Power.Offered".toList, "Power.Reactive.Export".toList, "Power.Reactive.Import".toList, "Power.Factor".toList, "Current.Import".toList, "Current.Export".toList, "Current.Offered".toList, "Voltage".toList, "Frequency".toList, "Temperature".toList, "SoC".toList, "RPM".toList]) none),
          ("phase".toList, .str (some ["L1".toList, "L2".toList, "L3".toList, "N".toList, "L1-N".toList, "L2-N".toList, "L3-N".toList, "L1-L2".toList, "L2-L3".toList, "L3-L1".toList]) none),
          ("location".toList, .str (some ["Cable".toList, "EV".toList, "Inlet".toList, "Outlet".toList, "Body".toList]) none),
          ("unit".toList, .str (some ["Wh".toList, "kWh".toList, "varh".toList, "kvarh".toList, "W".toList, "kW".toList, "VA".toList, "kVA".toList, "var".toList, "kvar".toList, "A".toList, "V".toList, "K".toList, "Celcius".toList, "Fahrenheit".toList, "Percent".toList]) none)] ["value".toList] false))] ["timestamp".toList, "sampledValue".toList] false))] ["transactionId".toList, "timestamp".toList, "meterStop".toList] true

/-- ws/json/StopTransactionResponse.json -/
def JSchemas.StopTransactionResponse : JSchema :=
  .obj [("idTagInfo".toList, .obj [("expiryDate".toList, .str none none),
        ("parentIdTag".toList, .str none (some 20)),
        ("status".toList, .str (some ["Accepted".toList, "Blocked".toList, "Expired".toList, "Invalid".toList, "ConcurrentTx".toList]) none)] ["status".toList] false)] [] true

/-- ws/json/TriggerMessage.json -/
def JSchemas.TriggerMessage : JSchema :=
  .obj [("requestedMessage".toList, .str (some ["BootNotification".toList, "DiagnosticsStatusNotification".toList, "FirmwareStatusNotification".toList, "Heartbeat".toList, "MeterValues".toList, "StatusNotification".toList]) none),
      ("connectorId".toList, .int)] ["requestedMessage".toList] true

/-- ws/json/TriggerMessageResponse.json -/
def JSchemas.TriggerMessageResponse : JSchema :=
  .obj [("status".toList, .str (some ["Accepted".toList, "Rejected".toList, "NotImplemented".toList]) none)] ["status".toList] true

/-- ws/json/UnlockConnector.json -/
def JSchemas.UnlockConnector : JSchema :=
  .obj [("connectorId".toList, .int)] ["connectorId".toList] true

/-- ws/json/UnlockConnectorResponse.json -/
def JSchemas.UnlockConnectorResponse : JSchema :=
  .obj [("status".toList, .str (some ["Unlocked".toList, "UnlockFailed".toList, "NotSupported".toList]) none)] ["status".toList] true

/-- ws/json/UpdateFirmware.json -/
def JSchemas.UpdateFirmware : JSchema :=
  .obj [("location".toList, .str none none),
      ("retries".toList, .num),
      ("retrieveDate".toList, .str none none),
      ("retryInterval".toList, .num)] ["location".toList, "retrieveDate".toList] true

/-- ws/json/UpdateFirmwareResponse.json -/
def JSchemas.UpdateFirmwareResponse : JSchema :=
  .obj [] [] true

/-- The schema of a message type: the file of ws/json named after it. -/
def ReqType.jschema : ReqType → JSchema
  | .cpreqAuthorize => JSchemas.Authorize
  | .cpreqBootNotification => JSchemas.BootNotification
  | .cpreqDataTransfer => JSchemas.DataTransfer
  | .cpreqDiagnosticsStatusNotification => JSchemas.DiagnosticsStatusNotification
  | .cpreqFirmwareStatusNotification => JSchemas.FirmwareStatusNotification
  | .cpreqHeartbeat => JSchemas.Heartbeat
  | .cpreqMeterValues => JSchemas.MeterValues
  | .cpreqStartTransaction => JSchemas.StartTransaction
  | .cpreqStatusNotification => JSchemas.StatusNotification
  | .cpreqStopTransaction => JSchemas.StopTransaction
  | .csreqCancelReservation => JSchemas.CancelReservation
  | .csreqChangeAvailability => JSchemas.ChangeAvailability
  | .csreqChangeConfiguration => JSchemas.ChangeConfiguration
  | .csreqClearCache => JSchemas.ClearCache
  | .csreqClearChargingProfile => JSchemas.ClearChargingProfile
  | .csreqDataTransfer => JSchemas.DataTransfer
  | .csreqGetCompositeSchedule => JSchemas.GetCompositeSchedule
  | .csreqGetConfiguration => JSchemas.GetConfiguration
  | .csreqGetDiagnostics => JSchemas.GetDiagnostics
  | .csreqGetLocalListVersion => JSchemas.GetLocalListVersion
  | .csreqRemoteStartTransaction => JSchemas.RemoteStartTransaction
  | .csreqRemoteStopTransaction => JSchemas.RemoteStopTransaction
  | .csreqReserveNow => JSchemas.ReserveNow
  | .csreqReset => JSchemas.Reset
  | .csreqSendLocalList => JSchemas.SendLocalList
  | .csreqTriggerMessage => JSchemas.TriggerMessage
  | .csreqUnlockConnector => JSchemas.UnlockConnector
  | .csreqUpdateFirmware => JSchemas.UpdateFirmware
  | .csreqSetChargingProfile => JSchemas.SetChargingProfile

/-- The schema of a message type: the file of ws/json named after it. -/
def RespType.jschema : RespType → JSchema
  | .cprespAuthorize => JSchemas.AuthorizeResponse
  | .cprespBootNotification => JSchemas.BootNotificationResponse
  | .cprespDataTransfer => JSchemas.DataTransferResponse
  | .cprespDiagnosticsStatusNotification => JSchemas.DiagnosticsStatusNotificationResponse
  | .cprespFirmwareStatusNotification => JSchemas.FirmwareStatusNotificationResponse
  | .cprespHeartbeat => JSchemas.HeartbeatResponse
  | .cprespMeterValues => JSchemas.MeterValuesResponse
  | .cprespStartTransaction => JSchemas.StartTransactionResponse
  | .cprespStatusNotification => JSchemas.StatusNotificationResponse
  | .cprespStopTransaction => JSchemas.StopTransactionResponse
  | .csrespCancelReservation => JSchemas.CancelReservationResponse
  | .csrespChangeAvailability => JSchemas.ChangeAvailabilityResponse
  | .csrespChangeConfiguration => JSchemas.ChangeConfigurationResponse
  | .csrespClearCache => JSchemas.ClearCacheResponse
  | .csrespClearChargingProfile => JSchemas.ClearChargingProfileResponse
  | .csrespDataTransfer => JSchemas.DataTransferResponse
  | .csrespGetCompositeSchedule => JSchemas.GetCompositeScheduleResponse
  | .csrespGetConfiguration => JSchemas.GetConfigurationResponse
  | .csrespGetDiagnostics => JSchemas.GetDiagnosticsResponse
  | .csrespGetLocalListVersion => JSchemas.GetLocalListVersionResponse
  | .csrespRemoteStartTransaction => JSchemas.RemoteStartTransactionResponse
  | .csrespRemoteStopTransaction => JSchemas.RemoteStopTransactionResponse
  | .csrespReserveNow => JSchemas.ReserveNowResponse
  | .csrespReset => JSchemas.ResetResponse
  | .csrespSendLocalList => JSchemas.SendLocalListResponse
  | .csrespTriggerMessage => JSchemas.TriggerMessageResponse
  | .csrespUnlockConnector => JSchemas.UnlockConnectorResponse
  | .csrespUpdateFirmware => JSchemas.UpdateFirmwareResponse
  | .csrespSetChargingProfile => JSchemas.SetChargingProfileResponse

end Verif
