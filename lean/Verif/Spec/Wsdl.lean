import Verif.Spec.Xsd
import Verif.Model.Messages
/-!
# The OCPP 1.5 WSDL files shipped in soap/wsdl

Generated by tools/gen.py: the XML schemas in them.  The type of the RemoteStartTransaction response's status is
misspelled in the file (`RemoteSta1rtStopStatus`) and is read as `RemoteStartStopStatus`.  Do not edit by hand.
-/
namespace Verif
open Xml

/-- soap/wsdl/ocpp_centralsystemservice_1.5_final.wsdl, simpleType IdToken -/
def Wsdl.Cs.idToken : XSimple := .max 20

/-- soap/wsdl/ocpp_centralsystemservice_1.5_final.wsdl, simpleType AuthorizationStatus -/
def Wsdl.Cs.authorizationStatus : XSimple := .enum ["Accepted".toList, "Blocked".toList, "Expired".toList, "Invalid".toList, "ConcurrentTx".toList]

/-- soap/wsdl/ocpp_centralsystemservice_1.5_final.wsdl, complexType IdTagInfo -/
def Wsdl.Cs.idTagInfo : XType :=
  .elem "status".toList true false (.simple Wsdl.Cs.authorizationStatus) <|
  .elem "expiryDate".toList false false (.simple .dateTime) <|
  .elem "parentIdTag".toList false false (.simple Wsdl.Cs.idToken) <|
  .empty

/-- soap/wsdl/ocpp_centralsystemservice_1.5_final.wsdl, simpleType ChargeBoxSerialNumber -/
def Wsdl.Cs.chargeBoxSerialNumber : XSimple := .max 25

/-- soap/wsdl/ocpp_centralsystemservice_1.5_final.wsdl, simpleType ChargePointModel -/
def Wsdl.Cs.chargePointModel : XSimple := .max 20

/-- soap/wsdl/ocpp_centralsystemservice_1.5_final.wsdl, simpleType ChargePointSerialNumber -/
def Wsdl.Cs.chargePointSerialNumber : XSimple := .max 25

/-- soap/wsdl/ocpp_centralsystemservice_1.5_final.wsdl, simpleType ChargePointVendor -/
def Wsdl.Cs.chargePointVendor : XSimple := .max 20

/-- soap/wsdl/ocpp_centralsystemservice_1.5_final.wsdl, simpleType FirmwareVersion -/
def Wsdl.Cs.firmwareVersion : XSimple := .max 50

/-- soap/wsdl/ocpp_centralsystemservice_1.5_final.wsdl, simpleType IccidString -/
def Wsdl.Cs.iccidString : XSimple := .max 20

/-- soap/wsdl/ocpp_centralsystemservice_1.5_final.wsdl, simpleType ImsiString -/
def Wsdl.Cs.imsiString : XSimple := .max 20

/-- soap/wsdl/ocpp_centralsystemservice_1.5_final.wsdl, simpleType MeterSerialNumber -/
def Wsdl.Cs.meterSerialNumber : XSimple := .max 25

/-- soap/wsdl/ocpp_centralsystemservice_1.5_final.wsdl, simpleType MeterType -/
def Wsdl.Cs.meterType : XSimple := .max 25

/-- soap/wsdl/ocpp_centralsystemservice_1.5_final.wsdl, complexType AuthorizeRequest -/
def Wsdl.Cs.authorizeRequest : XType :=
  .elem "idTag".toList true false (.simple Wsdl.Cs.idToken) <|
  .empty

/-- soap/wsdl/ocpp_centralsystemservice_1.5_final.wsdl, complexType AuthorizeResponse -/
def Wsdl.Cs.authorizeResponse : XType :=
  .elem "idTagInfo".toList true false Wsdl.Cs.idTagInfo <|
  .empty

/-- soap/wsdl/ocpp_centralsystemservice_1.5_final.wsdl, complexType StartTransactionRequest -/
def Wsdl.Cs.startTransactionRequest : XType :=
  .elem "connectorId".toList true false (.simple .int) <|
  .elem "idTag".toList true false (.simple Wsdl.Cs.idToken) <|
  .elem "timestamp".toList true false (.simple .dateTime) <|
  .elem "meterStart".toList true false (.simple .int) <|
  .elem "reservationId".toList false false (.simple .int) <|
  .empty

/-- soap/wsdl/ocpp_centralsystemservice_1.5_final.wsdl, complexType StartTransactionResponse -/
def Wsdl.Cs.startTransactionResponse : XType :=
  .elem "transactionId".toList true false (.simple .int) <|
  .elem "idTagInfo".toList true false Wsdl.Cs.idTagInfo <|
  .empty

/-- soap/wsdl/ocpp_centralsystemservice_1.5_final.wsdl, simpleType ReadingContext -/
def Wsdl.Cs.readingContext : XSimple := .enum ["Interruption.Begin".toList, "Interruption.End".toList, "Sample.Clock".toList, "Sample.Periodic".toList, "Transaction.Begin".toList, "Transaction.End".toList]

/-- soap/wsdl/ocpp_centralsystemservice_1.5_final.wsdl, simpleType ValueFormat -/
def Wsdl.Cs.valueFormat : XSimple := .enum ["Raw".toList, "SignedData".toList]

/-- soap/wsdl/ocpp_centralsystemservice_1.5_final.wsdl, simpleType Measurand -/
def Wsdl.Cs.measurand : XSimple := .enum ["Energy.Active.Export.Register".toList, "Energy.Active.Import.Register".toList, "Energy.Reactive.Export.Register".toList, "Energy.Reactive.Import.Register".toList, "Energy.Active.Export.Interval".toList, "Energy.Active.Import.Interval".toList, "Energy.Reactive.Export.Interval".toList, "Energy.Reactive.Import.Interval".toList, "Power.Active.Export".toList, "Power.Active.Import".toList, "Power.Reactive.Export".toList, "Power.Reactive.Import".toList, "Current.Export".toList, "Current.Import".toList, "Voltage".toList, "Temperature".toList]

/-- soap/wsdl/ocpp_centralsystemservice_1.5_final.wsdl, simpleType Location -/
def Wsdl.Cs.location : XSimple := .enum ["Inlet".toList, "Outlet".toList, "Body".toList]

/-- soap/wsdl/ocpp_centralsystemservice_1.5_final.wsdl, simpleType UnitOfMeasure -/
def Wsdl.Cs.unitOfMeasure : XSimple := .enum ["Wh".toList, "kWh".toList, "varh".toList, "kvarh".toList, "W".toList, "kW".toList, "var".toList, "kvar".toList, "Amp".toList, "Volt".toList, "Celsius".toList]

/-- soap/wsdl/ocpp_centralsystemservice_1.5_final.wsdl, complexType MeterValue -/
def Wsdl.Cs.meterValue : XType :=
  .elem "timestamp".toList true false (.simple .dateTime) <|
  .elem "value".toList true true (.attributed [("context".toList, Wsdl.Cs.readingContext),
      ("format".toList, Wsdl.Cs.valueFormat),
      ("measurand".toList, Wsdl.Cs.measurand),
      ("location".toList, Wsdl.Cs.location),
      ("unit".toList, Wsdl.Cs.unitOfMeasure)]) <|
  .empty

/-- soap/wsdl/ocpp_centralsystemservice_1.5_final.wsdl, complexType TransactionData -/
def Wsdl.Cs.transactionData : XType :=
  .elem "values".toList false true Wsdl.Cs.meterValue <|
  .empty

/-- soap/wsdl/ocpp_centralsystemservice_1.5_final.wsdl, complexType StopTransactionRequest -/
def Wsdl.Cs.stopTransactionRequest : XType :=
  .elem "transactionId".toList true false (.simple .int) <|
  .elem "idTag".toList false false (.simple Wsdl.Cs.idToken) <|
  .elem "timestamp".toList true false (.simple .dateTime) <|
  .elem "meterStop".toList true false (.simple .int) <|
  .elem "transactionData".toList false true Wsdl.Cs.transactionData <|
  .empty

/-- soap/wsdl/ocpp_centralsystemservice_1.5_final.wsdl, complexType StopTransactionResponse -/
def Wsdl.Cs.stopTransactionResponse : XType :=
  .elem "idTagInfo".toList false false Wsdl.Cs.idTagInfo <|
  .empty

/-- soap/wsdl/ocpp_centralsystemservice_1.5_final.wsdl, complexType HeartbeatRequest -/
def Wsdl.Cs.heartbeatRequest : XType :=
  .empty

/-- soap/wsdl/ocpp_centralsystemservice_1.5_final.wsdl, complexType HeartbeatResponse -/
def Wsdl.Cs.heartbeatResponse : XType :=
  .elem "currentTime".toList true false (.simple .dateTime) <|
  .empty

/-- soap/wsdl/ocpp_centralsystemservice_1.5_final.wsdl, complexType MeterValuesRequest -/
def Wsdl.Cs.meterValuesRequest : XType :=
  .elem "connectorId".toList true false (.simple .int) <|
  .elem "transactionId".toList false false (.simple .int) <|
  .elem "values".toList false true Wsdl.Cs.meterValue <|
  .empty

/-- soap/wsdl/ocpp_centralsystemservice_1.5_final.wsdl, complexType MeterValuesResponse -/
def Wsdl.Cs.meterValuesResponse : XType :=
  .empty

/-- soap/wsdl/ocpp_centralsystemservice_1.5_final.wsdl, complexType BootNotificationRequest -/
def Wsdl.Cs.bootNotificationRequest : XType :=
  .elem "chargePointVendor".toList true false (.simple Wsdl.Cs.chargePointVendor) <|
  .elem "chargePointModel".toList true false (.simple Wsdl.Cs.chargePointModel) <|
  .elem "chargePointSerialNumber".toList false false (.simple Wsdl.Cs.chargePointSerialNumber) <|
  .elem "chargeBoxSerialNumber".toList false false (.simple Wsdl.Cs.chargeBoxSerialNumber) <|
  .elem "firmwareVersion".toList false false (.simple Wsdl.Cs.firmwareVersion) <|
  .elem "iccid".toList false false (.simple Wsdl.Cs.iccidString) <|
  .elem "imsi".toList false false (.simple Wsdl.Cs.imsiString) <|
  .elem "meterType".toList false false (.simple Wsdl.Cs.meterType) <|
  .elem "meterSerialNumber".toList false false (.simple Wsdl.Cs.meterSerialNumber) <|
  .empty

/-- soap/wsdl/ocpp_centralsystemservice_1.5_final.wsdl, simpleType RegistrationStatus -/
def Wsdl.Cs.registrationStatus : XSimple := .enum ["Accepted".toList, "Rejected".toList]

/-- soap/wsdl/ocpp_centralsystemservice_1.5_final.wsdl, complexType BootNotificationResponse -/
def Wsdl.Cs.bootNotificationResponse : XType :=
  .elem "status".toList true false (.simple Wsdl.Cs.registrationStatus) <|
  .elem "currentTime".toList true false (.simple .dateTime) <|
  .elem "heartbeatInterval".toList true false (.simple .int) <|
  .empty

/-- soap/wsdl/ocpp_centralsystemservice_1.5_final.wsdl, simpleType ChargePointErrorCode -/
def Wsdl.Cs.chargePointErrorCode : XSimple := .enum ["ConnectorLockFailure".toList, "HighTemperature".toList, "Mode3Error".toList, "NoError".toList, "PowerMeterFailure".toList, "PowerSwitchFailure".toList, "ReaderFailure".toList, "ResetFailure".toList, "GroundFailure".toList, "OverCurrentFailure".toList, "UnderVoltage".toList, "WeakSignal".toList, "OtherError".toList]

/-- soap/wsdl/ocpp_centralsystemservice_1.5_final.wsdl, simpleType ChargePointStatus -/
def Wsdl.Cs.chargePointStatus : XSimple := .enum ["Available".toList, "Occupied".toList, "Faulted".toList, "Unavailable".toList, "Reserved".toList]

/-- soap/wsdl/ocpp_centralsystemservice_1.5_final.wsdl, complexType StatusNotificationRequest -/
def Wsdl.Cs.statusNotificationRequest : XType :=
  .elem "connectorId".toList true false (.simple .int) <|
  .elem "status".toList true false (.simple Wsdl.Cs.chargePointStatus) <|
  .elem "errorCode".toList true false (.simple Wsdl.Cs.chargePointErrorCode) <|
  .elem "info".toList false false (.simple .string) <|
  .elem "timestamp".toList false false (.simple .dateTime) <|
  .elem "vendorId".toList false false (.simple .string) <|
  .elem "vendorErrorCode".toList false false (.simple .string) <|
  .empty

/-- soap/wsdl/ocpp_centralsystemservice_1.5_final.wsdl, complexType StatusNotificationResponse -/
def Wsdl.Cs.statusNotificationResponse : XType :=
  .empty

/-- soap/wsdl/ocpp_centralsystemservice_1.5_final.wsdl, simpleType FirmwareStatus -/
def Wsdl.Cs.firmwareStatus : XSimple := .enum ["Downloaded".toList, "DownloadFailed".toList, "InstallationFailed".toList, "Installed".toList]

/-- soap/wsdl/ocpp_centralsystemservice_1.5_final.wsdl, complexType FirmwareStatusNotificationRequest -/
def Wsdl.Cs.firmwareStatusNotificationRequest : XType :=
  .elem "status".toList true false (.simple Wsdl.Cs.firmwareStatus) <|
  .empty

/-- soap/wsdl/ocpp_centralsystemservice_1.5_final.wsdl, complexType FirmwareStatusNotificationResponse -/
def Wsdl.Cs.firmwareStatusNotificationResponse : XType :=
  .empty

/-- soap/wsdl/ocpp_centralsystemservice_1.5_final.wsdl, simpleType DiagnosticsStatus -/
def Wsdl.Cs.diagnosticsStatus : XSimple := .enum ["Uploaded".toList, "UploadFailed".toList]

/-- soap/wsdl/ocpp_centralsystemservice_1.5_final.wsdl, complexType DiagnosticsStatusNotificationRequest -/
def Wsdl.Cs.diagnosticsStatusNotificationRequest : XType :=
  .elem "status".toList true false (.simple Wsdl.Cs.diagnosticsStatus) <|
  .empty

/-- soap/wsdl/ocpp_centralsystemservice_1.5_final.wsdl, complexType DiagnosticsStatusNotificationResponse -/
def Wsdl.Cs.diagnosticsStatusNotificationResponse : XType :=
  .empty

/-- soap/wsdl/ocpp_centralsystemservice_1.5_final.wsdl, complexType DataTransferRequest -/
def Wsdl.Cs.dataTransferRequest : XType :=
  .elem "vendorId".toList true false (.simple .string) <|
  .elem "messageId".toList false false (.simple .string) <|
  .elem "data".toList false false (.simple .string) <|
  .empty

/-- soap/wsdl/ocpp_centralsystemservice_1.5_final.wsdl, simpleType DataTransferStatus -/
def Wsdl.Cs.dataTransferStatus : XSimple := .enum ["Accepted".toList, "Rejected".toList, "UnknownMessageId".toList, "UnknownVendorId".toList]

/-- soap/wsdl/ocpp_centralsystemservice_1.5_final.wsdl, complexType DataTransferResponse -/
def Wsdl.Cs.dataTransferResponse : XType :=
  .elem "status".toList true false (.simple Wsdl.Cs.dataTransferStatus) <|
  .elem "data".toList false false (.simple .string) <|
  .empty

/-- soap/wsdl/ocpp_chargepointservice_1.5_final.wsdl, simpleType IdToken -/
def Wsdl.Cp.idToken : XSimple := .max 20

/-- soap/wsdl/ocpp_chargepointservice_1.5_final.wsdl, simpleType AuthorizationStatus -/
def Wsdl.Cp.authorizationStatus : XSimple := .enum ["Accepted".toList, "Blocked".toList, "Expired".toList, "Invalid".toList, "ConcurrentTx".toList]

/-- soap/wsdl/ocpp_chargepointservice_1.5_final.wsdl, complexType IdTagInfo -/
def Wsdl.Cp.idTagInfo : XType :=
  .elem "status".toList true false (.simple Wsdl.Cp.authorizationStatus) <|
  .elem "expiryDate".toList false false (.simple .dateTime) <|
  .elem "parentIdTag".toList false false (.simple Wsdl.Cp.idToken) <|
  .empty

/-- soap/wsdl/ocpp_chargepointservice_1.5_final.wsdl, simpleType UnlockStatus -/
def Wsdl.Cp.unlockStatus : XSimple := .enum ["Accepted".toList, "Rejected".toList]

/-- soap/wsdl/ocpp_chargepointservice_1.5_final.wsdl, complexType UnlockConnectorRequest -/
def Wsdl.Cp.unlockConnectorRequest : XType :=
  .elem "connectorId".toList true false (.simple .int) <|
  .empty

/-- soap/wsdl/ocpp_chargepointservice_1.5_final.wsdl, complexType UnlockConnectorResponse -/
def Wsdl.Cp.unlockConnectorResponse : XType :=
  .elem "status".toList true false (.simple Wsdl.Cp.unlockStatus) <|
  .empty

/-- soap/wsdl/ocpp_chargepointservice_1.5_final.wsdl, simpleType ResetType -/
def Wsdl.Cp.resetType : XSimple := .enum ["Hard".toList, "Soft".toList]

/-- soap/wsdl/ocpp_chargepointservice_1.5_final.wsdl, complexType ResetRequest -/
def Wsdl.Cp.resetRequest : XType :=
  .elem "type".toList true false (.simple Wsdl.Cp.resetType) <|
  .empty

/-- soap/wsdl/ocpp_chargepointservice_1.5_final.wsdl, simpleType ResetStatus -/
def Wsdl.Cp.resetStatus : XSimple := .enum ["Accepted".toList, "Rejected".toList]

/-- soap/wsdl/ocpp_chargepointservice_1.5_final.wsdl, complexType ResetResponse -/
def Wsdl.Cp.resetResponse : XType :=
  .elem "status".toList true false (.simple Wsdl.Cp.resetStatus) <|
  .empty

/-- soap/wsdl/ocpp_chargepointservice_1.5_final.wsdl, simpleType AvailabilityType -/
def Wsdl.Cp.availabilityType : XSimple := .enum ["Inoperative".toList, "Operative".toList]

/-- soap/wsdl/ocpp_chargepointservice_1.5_final.wsdl, complexType ChangeAvailabilityRequest -/
def Wsdl.Cp.changeAvailabilityRequest : XType :=
  .elem "connectorId".toList true false (.simple .int) <|
  .elem "type".toList true false (.simple Wsdl.Cp.availabilityType) <|
  .empty

/-- soap/wsdl/ocpp_chargepointservice_1.5_final.wsdl, simpleType AvailabilityStatus -/
def Wsdl.Cp.availabilityStatus : XSimple := .enum ["Accepted".toList, "Rejected".toList, "Scheduled".toList]

/-- soap/wsdl/ocpp_chargepointservice_1.5_final.wsdl, complexType ChangeAvailabilityResponse -/
def Wsdl.Cp.changeAvailabilityResponse : XType :=
  .elem "status".toList true false (.simple Wsdl.Cp.availabilityStatus) <|
  .empty

/-- soap/wsdl/ocpp_chargepointservice_1.5_final.wsdl, complexType GetDiagnosticsRequest -/
def Wsdl.Cp.getDiagnosticsRequest : XType :=
  .elem "location".toList true false (.simple .uri) <|
  .elem "startTime".toList false false (.simple .dateTime) <|
  .elem "stopTime".toList false false (.simple .dateTime) <|
  .elem "retries".toList false false (.simple .int) <|
  .elem "retryInterval".toList false false (.simple .int) <|
  .empty

/-- soap/wsdl/ocpp_chargepointservice_1.5_final.wsdl, complexType GetDiagnosticsResponse -/
def Wsdl.Cp.getDiagnosticsResponse : XType :=
  .elem "fileName".toList false false (.simple .string) <|
  .empty

/-- soap/wsdl/ocpp_chargepointservice_1.5_final.wsdl, complexType ClearCacheRequest -/
def Wsdl.Cp.clearCacheRequest : XType :=
  .empty

/-- soap/wsdl/ocpp_chargepointservice_1.5_final.wsdl, simpleType ClearCacheStatus -/
def Wsdl.Cp.clearCacheStatus : XSimple := .enum ["Accepted".toList, "Rejected".toList]

/-- soap/wsdl/ocpp_chargepointservice_1.5_final.wsdl, complexType ClearCacheResponse -/
def Wsdl.Cp.clearCacheResponse : XType :=
  .elem "status".toList true false (.simple Wsdl.Cp.clearCacheStatus) <|
  .empty

/-- soap/wsdl/ocpp_chargepointservice_1.5_final.wsdl, complexType UpdateFirmwareRequest -/
def Wsdl.Cp.updateFirmwareRequest : XType :=
  .elem "retrieveDate".toList true false (.simple .dateTime) <|
  .elem "location".toList true false (.simple .uri) <|
  .elem "retries".toList false false (.simple .int) <|
  .elem "retryInterval".toList false false (.simple .int) <|
  .empty

/-- soap/wsdl/ocpp_chargepointservice_1.5_final.wsdl, complexType UpdateFirmwareResponse -/
def Wsdl.Cp.updateFirmwareResponse : XType :=
  .empty

/-- soap/wsdl/ocpp_chargepointservice_1.5_final.wsdl, complexType ChangeConfigurationRequest -/
def Wsdl.Cp.changeConfigurationRequest : XType :=
  .elem "key".toList true false (.simple .string) <|
  .elem "value".toList true false (.simple .string) <|
  .empty

/-- soap/wsdl/ocpp_chargepointservice_1.5_final.wsdl, simpleType ConfigurationStatus -/
def Wsdl.Cp.configurationStatus : XSimple := .enum ["Accepted".toList, "Rejected".toList, "NotSupported".toList]

/-- soap/wsdl/ocpp_chargepointservice_1.5_final.wsdl, complexType ChangeConfigurationResponse -/
def Wsdl.Cp.changeConfigurationResponse : XType :=
  .elem "status".toList true false (.simple Wsdl.Cp.configurationStatus) <|
  .empty

/-- soap/wsdl/ocpp_chargepointservice_1.5_final.wsdl, complexType RemoteStartTransactionRequest -/
def Wsdl.Cp.remoteStartTransactionRequest : XType :=
  .elem "idTag".toList true false (.simple Wsdl.Cp.idToken) <|
  .elem "connectorId".toList false false (.simple .int) <|
  .empty

/-- soap/wsdl/ocpp_chargepointservice_1.5_final.wsdl, simpleType RemoteStartStopStatus -/
def Wsdl.Cp.remoteStartStopStatus : XSimple := .enum ["Accepted".toList, "Rejected".toList]

/-- soap/wsdl/ocpp_chargepointservice_1.5_final.wsdl, complexType RemoteStartTransactionResponse -/
def Wsdl.Cp.remoteStartTransactionResponse : XType :=
  .elem "status".toList true false (.simple Wsdl.Cp.remoteStartStopStatus) <|
  .empty

/-- soap/wsdl/ocpp_chargepointservice_1.5_final.wsdl, complexType RemoteStopTransactionRequest -/
def Wsdl.Cp.remoteStopTransactionRequest : XType :=
  .elem "transactionId".toList true false (.simple .int) <|
  .empty

/-- soap/wsdl/ocpp_chargepointservice_1.5_final.wsdl, complexType RemoteStopTransactionResponse -/
def Wsdl.Cp.remoteStopTransactionResponse : XType :=
  .elem "status".toList true false (.simple Wsdl.Cp.remoteStartStopStatus) <|
  .empty

/-- soap/wsdl/ocpp_chargepointservice_1.5_final.wsdl, complexType CancelReservationRequest -/
def Wsdl.Cp.cancelReservationRequest : XType :=
  .elem "reservationId".toList true false (.simple .int) <|
  .empty

/-- soap/wsdl/ocpp_chargepointservice_1.5_final.wsdl, simpleType CancelReservationStatus -/
def Wsdl.Cp.cancelReservationStatus : XSimple := .enum ["Accepted".toList, "Rejected".toList]

/-- soap/wsdl/ocpp_chargepointservice_1.5_final.wsdl, complexType CancelReservationResponse -/
def Wsdl.Cp.cancelReservationResponse : XType :=
  .elem "status".toList true false (.simple Wsdl.Cp.cancelReservationStatus) <|
  .empty

/-- soap/wsdl/ocpp_chargepointservice_1.5_final.wsdl, complexType DataTransferRequest -/
def Wsdl.Cp.dataTransferRequest : XType :=
  .elem "vendorId".toList true false (.simple .string) <|
  .elem "messageId".toList false false (.simple .string) <|
  .elem "data".toList false false (.simple .string) <|
  .empty

/-- soap/wsdl/ocpp_chargepointservice_1.5_final.wsdl, simpleType DataTransferStatus -/
def Wsdl.Cp.dataTransferStatus : XSimple := .enum ["Accepted".toList, "Rejected".toList, "UnknownMessageId".toList, "UnknownVendorId".toList]

/-- soap/wsdl/ocpp_chargepointservice_1.5_final.wsdl, complexType DataTransferResponse -/
def Wsdl.Cp.dataTransferResponse : XType :=
  .elem "status".toList true false (.simple Wsdl.Cp.dataTransferStatus) <|
  .elem "data".toList false false (.simple .string) <|
  .empty

/-- soap/wsdl/ocpp_chargepointservice_1.5_final.wsdl, complexType GetConfigurationRequest -/
def Wsdl.Cp.getConfigurationRequest : XType :=
  .elem "key".toList false true (.simple .string) <|
  .empty

/-- soap/wsdl/ocpp_chargepointservice_1.5_final.wsdl, complexType KeyValue -/
def Wsdl.Cp.keyValue : XType :=
  .elem "key".toList true false (.simple .string) <|
  .elem "readonly".toList true false (.simple .boolean) <|
  .elem "value".toList false false (.simple .string) <|
  .empty

/-- soap/wsdl/ocpp_chargepointservice_1.5_final.wsdl, complexType GetConfigurationResponse -/
def Wsdl.Cp.getConfigurationResponse : XType :=
  .elem "configurationKey".toList false true Wsdl.Cp.keyValue <|
  .elem "unknownKey".toList false true (.simple .string) <|
  .empty

/-- soap/wsdl/ocpp_chargepointservice_1.5_final.wsdl, complexType GetLocalListVersionRequest -/
def Wsdl.Cp.getLocalListVersionRequest : XType :=
  .empty

/-- soap/wsdl/ocpp_chargepointservice_1.5_final.wsdl, complexType GetLocalListVersionResponse -/
def Wsdl.Cp.getLocalListVersionResponse : XType :=
  .elem "listVersion".toList true false (.simple .int) <|
  .empty

/-- soap/wsdl/ocpp_chargepointservice_1.5_final.wsdl, complexType ReserveNowRequest -/
def Wsdl.Cp.reserveNowRequest : XType :=
  .elem "connectorId".toList true false (.simple .int) <|
  .elem "expiryDate".toList true false (.simple .dateTime) <|
  .elem "idTag".toList true false (.simple Wsdl.Cp.idToken) <|
  .elem "parentIdTag".toList false false (.simple Wsdl.Cp.idToken) <|
  .elem "reservationId".toList true false (.simple .int) <|
  .empty

/-- soap/wsdl/ocpp_chargepointservice_1.5_final.wsdl, simpleType ReservationStatus -/
def Wsdl.Cp.reservationStatus : XSimple := .enum ["Accepted".toList, "Faulted".toList, "Occupied".toList, "Rejected".toList, "Unavailable".toList]

/-- soap/wsdl/ocpp_chargepointservice_1.5_final.wsdl, complexType ReserveNowResponse -/
def Wsdl.Cp.reserveNowResponse : XType :=
  .elem "status".toList true false (.simple Wsdl.Cp.reservationStatus) <|
  .empty

/-- soap/wsdl/ocpp_chargepointservice_1.5_final.wsdl, complexType AuthorisationData -/
def Wsdl.Cp.authorisationData : XType :=
  .elem "idTag".toList true false (.simple Wsdl.Cp.idToken) <|
  .elem "idTagInfo".toList false false Wsdl.Cp.idTagInfo <|
  .empty

/-- soap/wsdl/ocpp_chargepointservice_1.5_final.wsdl, simpleType UpdateType -/
def Wsdl.Cp.updateType : XSimple := .enum ["Differential".toList, "Full".toList]

/-- soap/wsdl/ocpp_chargepointservice_1.5_final.wsdl, complexType SendLocalListRequest -/
def Wsdl.Cp.sendLocalListRequest : XType :=
  .elem "updateType".toList true false (.simple Wsdl.Cp.updateType) <|
  .elem "listVersion".toList true false (.simple .int) <|
  .elem "localAuthorisationList".toList false true Wsdl.Cp.authorisationData <|
  .elem "hash".toList false false (.simple .string) <|
  .empty

/-- soap/wsdl/ocpp_chargepointservice_1.5_final.wsdl, simpleType UpdateStatus -/
def Wsdl.Cp.updateStatus : XSimple := .enum ["Accepted".toList, "Failed".toList, "HashError".toList, "NotSupported".toList, "VersionMismatch".toList]

/-- soap/wsdl/ocpp_chargepointservice_1.5_final.wsdl, complexType SendLocalListResponse -/
def Wsdl.Cp.sendLocalListResponse : XType :=
  .elem "status".toList true false (.simple Wsdl.Cp.updateStatus) <|
  .elem "hash".toList false false (.simple .string) <|
  .empty

/-- The global element named after a message, with its type. -/
def ReqType.wsdl : ReqType → Option (XName × XType)
  | .cpreqAuthorize => some (⟨"urn://Ocpp/Cs/2012/06/".toList, "authorizeRequest".toList⟩, Wsdl.Cs.authorizeRequest)
  | .cpreqBootNotification => some (⟨"urn://Ocpp/Cs/2012/06/".toList, "bootNotificationRequest".toList⟩, Wsdl.Cs.bootNotificationRequest)
  | .cpreqDataTransfer => some (⟨"urn://Ocpp/Cs/2012/06/".toList, "dataTransferRequest".toList⟩, Wsdl.Cs.dataTransferRequest)
  | .cpreqDiagnosticsStatusNotification => some (⟨"urn://Ocpp/Cs/2012/06/".toList, "diagnosticsStatusNotificationRequest".toList⟩, Wsdl.Cs.diagnosticsStatusNotificationRequest)
  | .cpreqFirmwareStatusNotification => some (⟨"urn://Ocpp/Cs/2012/06/".toList, "firmwareStatusNotificationRequest".toList⟩, Wsdl.Cs.firmwareStatusNotificationRequest)
  | .cpreqHeartbeat => some (⟨"urn://Ocpp/Cs/2012/06/".toList, "heartbeatRequest".toList⟩, Wsdl.Cs.heartbeatRequest)
  | .cpreqMeterValues => some (⟨"urn://Ocpp/Cs/2012/06/".toList, "meterValuesRequest".toList⟩, Wsdl.Cs.meterValuesRequest)
  | .cpreqStartTransaction => some (⟨"urn://Ocpp/Cs/2012/06/".toList, "startTransactionRequest".toList⟩, Wsdl.Cs.startTransactionRequest)
  | .cpreqStatusNotification => some (⟨"urn://Ocpp/Cs/2012/06/".toList, "statusNotificationRequest".toList⟩, Wsdl.Cs.statusNotificationRequest)
  | .cpreqStopTransaction => some (⟨"urn://Ocpp/Cs/2012/06/".toList, "stopTransactionRequest".toList⟩, Wsdl.Cs.stopTransactionRequest)
  | .csreqCancelReservation => some (⟨"urn://Ocpp/Cp/2012/06/".toList, "cancelReservationRequest".toList⟩, Wsdl.Cp.cancelReservationRequest)
  | .csreqChangeAvailability => some (⟨"urn://Ocpp/Cp/2012/06/".toList, "changeAvailabilityRequest".toList⟩, Wsdl.Cp.changeAvailabilityRequest)
  | .csreqChangeConfiguration => some (⟨"urn://Ocpp/Cp/2012/06/".toList, "changeConfigurationRequest".toList⟩, Wsdl.Cp.changeConfigurationRequest)
  | .csreqClearCache => some (⟨"urn://Ocpp/Cp/2012/06/".toList, "clearCacheRequest".toList⟩, Wsdl.Cp.clearCacheRequest)
  | .csreqClearChargingProfile => none
  | .csreqDataTransfer => some (⟨"urn://Ocpp/Cp/2012/06/".toList, "dataTransferRequest".toList⟩, Wsdl.Cp.dataTransferRequest)
  | .csreqGetCompositeSchedule => none
  | .csreqGetConfiguration => some (⟨"urn://Ocpp/Cp/2012/06/".toList, "getConfigurationRequest".toList⟩, Wsdl.Cp.getConfigurationRequest)
  | .csreqGetDiagnostics => some (⟨"urn://Ocpp/Cp/2012/06/".toList, "getDiagnosticsRequest".toList⟩, Wsdl.Cp.getDiagnosticsRequest)
  | .csreqGetLocalListVersion => some (⟨"urn://Ocpp/Cp/2012/06/".toList, "getLocalListVersionRequest".toList⟩, Wsdl.Cp.getLocalListVersionRequest)
  | .csreqRemoteStartTransaction => some (⟨"urn://Ocpp/Cp/2012/06/".toList, "remoteStartTransactionRequest".toList⟩, Wsdl.Cp.remoteStartTransactionRequest)
  | .csreqRemoteStopTransaction => some (⟨"urn://Ocpp/Cp/2012/06/".toList, "remoteStopTransactionRequest".toList⟩, Wsdl.Cp.remoteStopTransactionRequest)
  | .csreqReserveNow => some (⟨"urn://Ocpp/Cp/2012/06/".toList, "reserveNowRequest".toList⟩, Wsdl.Cp.reserveNowRequest)
  | .csreqReset => some (⟨"urn://Ocpp/Cp/2012/06/".toList, "resetRequest".toList⟩, Wsdl.Cp.resetRequest)
  | .csreqSendLocalList => some (⟨"urn://Ocpp/Cp/2012/06/".toList, "sendLocalListRequest".toList⟩, Wsdl.Cp.sendLocalListRequest)
  | .csreqTriggerMessage => none
  | .csreqUnlockConnector => some (⟨"urn://Ocpp/Cp/2012/06/".toList, "unlockConnectorRequest".toList⟩, Wsdl.Cp.unlockConnectorRequest)
  | .csreqUpdateFirmware => some (⟨"urn://Ocpp/Cp/2012/06/".toList, "updateFirmwareRequest".toList⟩, Wsdl.Cp.updateFirmwareRequest)
  | .csreqSetChargingProfile => none

/-- The global element named after a message, with its type. -/
def RespType.wsdl : RespType → Option (XName × XType)
  | .cprespAuthorize => some (⟨"urn://Ocpp/Cs/2012/06/".toList, "authorizeResponse".toList⟩, Wsdl.Cs.authorizeResponse)
  | .cprespBootNotification => some (⟨"urn://Ocpp/Cs/2012/06/".toList, "bootNotificationResponse".toList⟩, Wsdl.Cs.bootNotificationResponse)
  | .cprespDataTransfer => some (⟨"urn://Ocpp/Cs/2012/06/".toList, "dataTransferResponse".toList⟩, Wsdl.Cs.dataTransferResponse)
  | .cprespDiagnosticsStatusNotification => some (⟨"urn://Ocpp/Cs/2012/06/".toList, "diagnosticsStatusNotificationResponse".toList⟩, Wsdl.Cs.diagnosticsStatusNotificationResponse)
  | .cprespFirmwareStatusNotification => some (⟨"urn://Ocpp/Cs/2012/06/".toList, "firmwareStatusNotificationResponse".toList⟩, Wsdl.Cs.firmwareStatusNotificationResponse)
  | .cprespHeartbeat => some (⟨"urn://Ocpp/Cs/2012/06/".toList, "heartbeatResponse".toList⟩, Wsdl.Cs.heartbeatResponse)
  | .cprespMeterValues => some (⟨"urn://Ocpp/Cs/2012/06/".toList, "meterValuesResponse".toList⟩, Wsdl.Cs.meterValuesResponse)
  | .cprespStartTransaction => some (⟨"urn://Ocpp/Cs/2012/06/".toList, "startTransactionResponse".toList⟩, Wsdl.Cs.startTransactionResponse)
  | .cprespStatusNotification => some (⟨"urn://Ocpp/Cs/2012/06/".toList, "statusNotificationResponse".toList⟩, Wsdl.Cs.statusNotificationResponse)
  | .cprespStopTransaction => some (⟨"urn://Ocpp/Cs/2012/06/".toList, "stopTransactionResponse".toList⟩, Wsdl.Cs.stopTransactionResponse)
  | .csrespCancelReservation => some (⟨"urn://Ocpp/Cp/2012/06/".toList, "cancelReservationResponse".toList⟩, Wsdl.Cp.cancelReservationResponse)
  | .csrespChangeAvailability => some (⟨"urn://Ocpp/Cp/2012/06/".toList, "changeAvailabilityResponse".toList⟩, Wsdl.Cp.changeAvailabilityResponse)
  | .csrespChangeConfiguration => some (⟨"urn://Ocpp/Cp/2012/06/".toList, "changeConfigurationResponse".toList⟩, Wsdl.Cp.changeConfigurationResponse)
  | .csrespClearCache => some (⟨"urn://Ocpp/Cp/2012/06/".toList, "clearCacheResponse".toList⟩, Wsdl.Cp.clearCacheResponse)
  | .csrespClearChargingProfile => none
  | .csrespDataTransfer => some (⟨"urn://Ocpp/Cp/2012/06/".toList, "dataTransferResponse".toList⟩, Wsdl.Cp.dataTransferResponse)
  | .csrespGetCompositeSchedule => none
  | .csrespGetConfiguration => some (⟨"urn://Ocpp/Cp/2012/06/".toList, "getConfigurationResponse".toList⟩, Wsdl.Cp.getConfigurationResponse)
  | .csrespGetDiagnostics => some (⟨"urn://Ocpp/Cp/2012/06/".toList, "getDiagnosticsResponse".toList⟩, Wsdl.Cp.getDiagnosticsResponse)
  | .csrespGetLocalListVersion => some (⟨"urn://Ocpp/Cp/2012/06/".toList, "getLocalListVersionResponse".toList⟩, Wsdl.Cp.getLocalListVersionResponse)
  | .csrespRemoteStartTransaction => some (⟨"urn://Ocpp/Cp/2012/06/".toList, "remoteStartTransactionResponse".toList⟩, Wsdl.Cp.remoteStartTransactionResponse)
  | .csrespRemoteStopTransaction => some (⟨"urn://Ocpp/Cp/2012/06/".toList, "remoteStopTransactionResponse".toList⟩, Wsdl.Cp.remoteStopTransactionResponse)
  | .csrespReserveNow => some (⟨"urn://Ocpp/Cp/2012/06/".toList, "reserveNowResponse".toList⟩, Wsdl.Cp.reserveNowResponse)
  | .csrespReset => some (⟨"urn://Ocpp/Cp/2012/06/".toList, "resetResponse".toList⟩, Wsdl.Cp.resetResponse)
  | .csrespSendLocalList => some (⟨"urn://Ocpp/Cp/2012/06/".toList, "sendLocalListResponse".toList⟩, Wsdl.Cp.sendLocalListResponse)
  | .csrespTriggerMessage => none
  | .csrespUnlockConnector => some (⟨"urn://Ocpp/Cp/2012/06/".toList, "unlockConnectorResponse".toList⟩, Wsdl.Cp.unlockConnectorResponse)
  | .csrespUpdateFirmware => some (⟨"urn://Ocpp/Cp/2012/06/".toList, "updateFirmwareResponse".toList⟩, Wsdl.Cp.updateFirmwareResponse)
  | .csrespSetChargingProfile => none

/-- The global element of a message. -/
def MsgType.wsdl : MsgType → Option (XName × XType)
  | .req r => r.wsdl
  | .resp r => r.wsdl

end Verif
