import Verif.Model.Codec
/-!
# The message types of go-ocpp

Generated by tools/gen.py from the Go text of messages/v1x, messages/req and messages/res: every
struct with its tags, MarshalJSON program, UnmarshalJSON table, action name and response type.
Do not edit by hand.
-/
namespace Verif

/-- messages/v1x/cpreq/messages.go:13-18; json_encode.go:11-32 (MarshalJSON), 34-57 (UnmarshalJSON) -/
def cpreq.Authorize.info : StructInfo where
  pkg := "cpreq"
  name := "Authorize"
  fields := [⟨"IdTag", "idTag".toList, false, .elem, "idTag".toList, true⟩]
  enc := .prog [
      .simple (.lit "{".toList),
      .simple (.commaIf),
      .simple (.lit "\"idTag\": ".toList),
      .simple (.field 0),
      .simple (.setComma),
      .simple (.lit "}".toList)]
  dec := .cases [("idTag".toList, 0)] true ["idTag".toList]
  xmlName := some ("urn://Ocpp/Cs/2012/06/".toList, "authorizeRequest".toList)

/-- messages/v1x/cpreq/messages.go:13-18 -/
def cpreq.Authorize : Ty := .struct cpreq.Authorize.info [.str]

/-- messages/v1x/cpreq/messages.go:21-34; json_encode.go:59-170 (MarshalJSON), 172-233 (UnmarshalJSON) -/
def cpreq.BootNotification.info : StructInfo where
  pkg := "cpreq"
  name := "BootNotification"
  fields := [⟨"ChargeBoxSerialNumber", "chargeBoxSerialNumber".toList, true, .elem, "chargeBoxSerialNumber".toList, true⟩,
    ⟨"ChargePointModel", "chargePointModel".toList, false, .elem, "chargePointModel".toList, true⟩,
    ⟨"ChargePointSerialNumber", "chargePointSerialNumber".toList, true, .elem, "chargePointSerialNumber".toList, true⟩,
    ⟨"ChargePointVendor", "chargePointVendor".toList, false, .elem, "chargePointVendor".toList, true⟩,
    ⟨"FirmwareVersion", "firmwareVersion".toList, true, .elem, "firmwareVersion".toList, true⟩,
    ⟨"Iccid", "iccid".toList, true, .elem, "iccid".toList, true⟩,
    ⟨"Imsi", "imsi".toList, true, .elem, "imsi".toList, true⟩,
    ⟨"MeterSerialNumber", "meterSerialNumber".toList, true, .elem, "meterSerialNumber".toList, true⟩,
    ⟨"MeterType", "meterType".toList, true, .elem, "meterType".toList, true⟩]
  enc := .prog [
      .simple (.lit "{".toList),
      .simple (.commaIf),
      .simple (.lit "\"chargeBoxSerialNumber\": ".toList),
      .simple (.field 0),
      .simple (.setComma),
      .simple (.commaIf),
      .simple (.lit "\"chargePointModel\": ".toList),
      .simple (.field 1),
      .simple (.setComma),
      .simple (.commaIf),
      .simple (.lit "\"chargePointSerialNumber\": ".toList),
      .simple (.field 2),
      .simple (.setComma),
      .simple (.commaIf),
      .simple (.lit "\"chargePointVendor\": ".toList),
      .simple (.field 3),
      .simple (.setComma),
      .simple (.commaIf),
      .simple (.lit "\"firmwareVersion\": ".toList),
      .simple (.field 4),
      .simple (.setComma),
      .simple (.commaIf),
      .simple (.lit "\"iccid\": ".toList),
      .simple (.field 5),
      .simple (.setComma),
      .simple (.commaIf),
      .simple (.lit "\"imsi\": ".toList),
      .simple (.field 6),
      .simple (.setComma),
      .simple (.commaIf),
      .simple (.lit "\"meterSerialNumber\": ".toList),
      .simple (.field 7),
      .simple (.setComma),
      .simple (.commaIf),
      .simple (.lit "\"meterType\": ".toList),
      .simple (.field 8),
      .simple (.setComma),
      .simple (.lit "}".toList)]
  dec := .cases [("chargeBoxSerialNumber".toList, 0), ("chargePointModel".toList, 1), ("chargePointSerialNumber".toList, 2), ("chargePointVendor".toList, 3), ("firmwareVersion".toList, 4), ("iccid".toList, 5), ("imsi".toList, 6), ("meterSerialNumber".toList, 7), ("meterType".toList, 8)] true ["chargePointModel".toList, "chargePointVendor".toList]
  xmlName := some ("urn://Ocpp/Cs/2012/06/".toList, "bootNotificationRequest".toList)

/-- messages/v1x/cpreq/messages.go:21-34 -/
def cpreq.BootNotification : Ty := .struct cpreq.BootNotification.info [.str, .str, .str, .str, .str, .str, .str, .str, .str]

/-- messages/v1x/cpreq/messages.go:37-44; json_encode.go:235-278 (MarshalJSON), 280-311 (UnmarshalJSON) -/
def cpreq.DataTransfer.info : StructInfo where
  pkg := "cpreq"
  name := "DataTransfer"
  fields := [⟨"Data", "data".toList, true, .elem, "data".toList, true⟩,
    ⟨"MessageId", "messageId".toList, true, .elem, "messageId".toList, true⟩,
    ⟨"VendorId", "vendorId".toList, false, .elem, "vendorId".toList, true⟩]
  enc := .prog [
      .simple (.lit "{".toList),
      .simple (.commaIf),
      .simple (.lit "\"data\": ".toList),
      .simple (.field 0),
      .simple (.setComma),
      .simple (.commaIf),
      .simple (.lit "\"messageId\": ".toList),
      .simple (.field 1),
      .simple (.setComma),
      .simple (.commaIf),
      .simple (.lit "\"vendorId\": ".toList),
      .simple (.field 2),
      .simple (.setComma),
      .simple (.lit "}".toList)]
  dec := .cases [("data".toList, 0), ("messageId".toList, 1), ("vendorId".toList, 2)] true ["vendorId".toList]
  xmlName := some ("urn://Ocpp/Cs/2012/06/".toList, "dataTransferRequest".toList)

/-- messages/v1x/cpreq/messages.go:37-44 -/
def cpreq.DataTransfer : Ty := .struct cpreq.DataTransfer.info [.str, .str, .str]

/-- messages/v1x/cpreq/messages.go:47-52; json_encode.go:313-334 (MarshalJSON), 336-359 (UnmarshalJSON) -/
def cpreq.DiagnosticsStatusNotification.info : StructInfo where
  pkg := "cpreq"
  name := "DiagnosticsStatusNotification"
  fields := [⟨"Status", "status".toList, false, .elem, "status".toList, true⟩]
  enc := .prog [
      .simple (.lit "{".toList),
      .simple (.commaIf),
      .simple (.lit "\"status\": ".toList),
      .simple (.field 0),
      .simple (.setComma),
      .simple (.lit "}".toList)]
  dec := .cases [("status".toList, 0)] true ["status".toList]
  xmlName := some ("urn://Ocpp/Cs/2012/06/".toList, "diagnosticsStatusNotificationRequest".toList)

/-- messages/v1x/cpreq/messages.go:47-52 -/
def cpreq.DiagnosticsStatusNotification : Ty := .struct cpreq.DiagnosticsStatusNotification.info [.str]

/-- messages/v1x/cpreq/messages.go:55-60; json_encode.go:361-382 (MarshalJSON), 384-407 (UnmarshalJSON) -/
def cpreq.FirmwareStatusNotification.info : StructInfo where
  pkg := "cpreq"
  name := "FirmwareStatusNotification"
  fields := [⟨"Status", "status".toList, false, .elem, "status".toList, true⟩]
  enc := .prog [
      .simple (.lit "{".toList),
      .simple (.commaIf),
      .simple (.lit "\"status\": ".toList),
      .simple (.field 0),
      .simple (.setComma),
      .simple (.lit "}".toList)]
  dec := .cases [("status".toList, 0)] true ["status".toList]
  xmlName := some ("urn://Ocpp/Cs/2012/06/".toList, "firmwareStatusNotificationRequest".toList)

/-- messages/v1x/cpreq/messages.go:55-60 -/
def cpreq.FirmwareStatusNotification : Ty := .struct cpreq.FirmwareStatusNotification.info [.str]

/-- messages/v1x/cpreq/messages.go:63-66; json_encode.go:409-416 (MarshalJSON), 418-431 (UnmarshalJSON) -/
def cpreq.Heartbeat.info : StructInfo where
  pkg := "cpreq"
  name := "Heartbeat"
  fields := []
  enc := .prog [
      .simple (.lit "{".toList),
      .simple (.lit "}".toList)]
  dec := .cases [] true []
  xmlName := some ("urn://Ocpp/Cs/2012/06/".toList, "heartbeatRequest".toList)

/-- messages/v1x/cpreq/messages.go:63-66 -/
def cpreq.Heartbeat : Ty := .struct cpreq.Heartbeat.info []

/-- messages/v1x/cpreq/messages.go:87-97; json_encode.go:588-675 (MarshalJSON), 677-722 (UnmarshalJSON) -/
def cpreq.SampledValue.info : StructInfo where
  pkg := "cpreq"
  name := "SampledValue"
  fields := [⟨"Context", "context".toList, true, .attr, "context".toList, true⟩,
    ⟨"Format", "format".toList, true, .attr, "format".toList, true⟩,
    ⟨"Location", "location".toList, true, .attr, "location".toList, true⟩,
    ⟨"Measurand", "measurand".toList, true, .attr, "measurand".toList, true⟩,
    ⟨"Phase", "phase".toList, true, .skip, "".toList, false⟩,
    ⟨"Unit", "unit".toList, true, .attr, "unit".toList, true⟩,
    ⟨"Value", "value".toList, false, .chardata, "".toList, false⟩]
  enc := .prog [
      .simple (.lit "{".toList),
      .simple (.commaIf),
      .simple (.lit "\"context\": ".toList),
      .simple (.field 0),
      .simple (.setComma),
      .simple (.commaIf),
      .simple (.lit "\"format\": ".toList),
      .simple (.field 1),
      .simple (.setComma),
      .simple (.commaIf),
      .simple (.lit "\"location\": ".toList),
      .simple (.field 2),
      .simple (.setComma),
      .simple (.commaIf),
      .simple (.lit "\"measurand\": ".toList),
      .simple (.field 3),
      .simple (.setComma),
      .simple (.commaIf),
      .simple (.lit "\"phase\": ".toList),
      .simple (.field 4),
      .simple (.setComma),
      .simple (.commaIf),
      .simple (.lit "\"unit\": ".toList),
      .simple (.field 5),
      .simple (.setComma),
      .simple (.commaIf),
      .simple (.lit "\"value\": ".toList),
      .simple (.field 6),
      .simple (.setComma),
      .simple (.lit "}".toList)]
  dec := .cases [("context".toList, 0), ("format".toList, 1), ("location".toList, 2), ("measurand".toList, 3), ("phase".toList, 4), ("unit".toList, 5), ("value".toList, 6)] false ["value".toList]
  xmlName := none

/-- messages/v1x/cpreq/messages.go:87-97 -/
def cpreq.SampledValue : Ty := .struct cpreq.SampledValue.info [.str, .str, .str, .str, .str, .str, .str]

/-- messages/v1x/cpreq/messages.go:69-73; json_encode.go:433-467 (MarshalJSON), 469-500 (UnmarshalJSON) -/
def cpreq.MeterValueItems.info : StructInfo where
  pkg := "cpreq"
  name := "MeterValueItems"
  fields := [⟨"SampledValues", "sampledValue".toList, false, .elem, "value".toList, true⟩,
    ⟨"Timestamp", "timestamp".toList, false, .elem, "timestamp".toList, true⟩]
  enc := .prog [
      .simple (.lit "{".toList),
      .simple (.commaIf),
      .simple (.lit "\"sampledValue\": ".toList),
      .simple (.field 0),
      .simple (.setComma),
      .simple (.commaIf),
      .simple (.lit "\"timestamp\": ".toList),
      .simple (.timeField 1),
      .simple (.setComma),
      .simple (.lit "}".toList)]
  dec := .cases [("sampledValue".toList, 0), ("timestamp".toList, 1)] false ["sampledValue".toList, "timestamp".toList]
  xmlName := none

/-- messages/v1x/cpreq/messages.go:69-73 -/
def cpreq.MeterValueItems : Ty := .struct cpreq.MeterValueItems.info [.slice (.ptr (cpreq.SampledValue)), .time]

/-- messages/v1x/cpreq/messages.go:76-84; json_encode.go:502-547 (MarshalJSON), 549-586 (UnmarshalJSON) -/
def cpreq.MeterValues.info : StructInfo where
  pkg := "cpreq"
  name := "MeterValues"
  fields := [⟨"ConnectorId", "connectorId".toList, false, .elem, "connectorId".toList, true⟩,
    ⟨"MeterValue", "meterValue".toList, false, .elem, "values".toList, true⟩,
    ⟨"TransactionId", "transactionId".toList, true, .elem, "transactionId".toList, true⟩]
  enc := .prog [
      .simple (.lit "{".toList),
      .simple (.commaIf),
      .simple (.lit "\"connectorId\": ".toList),
      .simple (.field 0),
      .simple (.setComma),
      .simple (.commaIf),
      .simple (.lit "\"meterValue\": ".toList),
      .simple (.field 1),
      .simple (.setComma),
      .simple (.commaIf),
      .simple (.lit "\"transactionId\": ".toList),
      .simple (.field 2),
      .simple (.setComma),
      .simple (.lit "}".toList)]
  dec := .cases [("connectorId".toList, 0), ("meterValue".toList, 1), ("transactionId".toList, 2)] true ["connectorId".toList, "meterValue".toList]
  xmlName := some ("urn://Ocpp/Cs/2012/06/".toList, "meterValuesRequest".toList)

/-- messages/v1x/cpreq/messages.go:76-84 -/
def cpreq.MeterValues : Ty := .struct cpreq.MeterValues.info [.int 64, .slice (.ptr (cpreq.MeterValueItems)), .int 32]

/-- messages/v1x/cpreq/messages.go:100-109; json_encode.go:724-795 (MarshalJSON), 797-854 (UnmarshalJSON) -/
def cpreq.StartTransaction.info : StructInfo where
  pkg := "cpreq"
  name := "StartTransaction"
  fields := [⟨"ConnectorId", "connectorId".toList, false, .elem, "connectorId".toList, true⟩,
    ⟨"IdTag", "idTag".toList, false, .elem, "idTag".toList, true⟩,
    ⟨"MeterStart", "meterStart".toList, false, .elem, "meterStart".toList, true⟩,
    ⟨"ReservationId", "reservationId".toList, true, .elem, "reservationId".toList, true⟩,
    ⟨"Timestamp", "timestamp".toList, false, .elem, "timestamp".toList, true⟩]
  enc := .prog [
      .simple (.lit "{".toList),
      .simple (.commaIf),
      .simple (.lit "\"connectorId\": ".toList),
      .simple (.field 0),
      .simple (.setComma),
      .simple (.commaIf),
      .simple (.lit "\"idTag\": ".toList),
      .simple (.field 1),
      .simple (.setComma),
      .simple (.commaIf),
      .simple (.lit "\"meterStart\": ".toList),
      .simple (.field 2),
      .simple (.setComma),
      .simple (.commaIf),
      .simple (.lit "\"reservationId\": ".toList),
      .simple (.field 3),
      .simple (.setComma),
      .simple (.commaIf),
      .simple (.lit "\"timestamp\": ".toList),
      .simple (.timeField 4),
      .simple (.setComma),
      .simple (.lit "}".toList)]
  dec := .cases [("connectorId".toList, 0), ("idTag".toList, 1), ("meterStart".toList, 2), ("reservationId".toList, 3), ("timestamp".toList, 4)] true ["connectorId".toList, "idTag".toList, "meterStart".toList, "timestamp".toList]
  xmlName := some ("urn://Ocpp/Cs/2012/06/".toList, "startTransactionRequest".toList)

/-- messages/v1x/cpreq/messages.go:100-109 -/
def cpreq.StartTransaction : Ty := .struct cpreq.StartTransaction.info [.int 64, .str, .int 64, .int 64, .time]

/-- messages/v1x/cpreq/messages.go:112-123; json_encode.go:856-946 (MarshalJSON), 948-1007 (UnmarshalJSON) -/
def cpreq.StatusNotification.info : StructInfo where
  pkg := "cpreq"
  name := "StatusNotification"
  fields := [⟨"ConnectorId", "connectorId".toList, false, .elem, "connectorId".toList, true⟩,
    ⟨"ErrorCode", "errorCode".toList, false, .elem, "errorCode".toList, true⟩,
    ⟨"Info", "info".toList, true, .elem, "info".toList, true⟩,
    ⟨"Status", "status".toList, false, .elem, "status".toList, true⟩,
    ⟨"Timestamp", "timestamp".toList, true, .elem, "timestamp".toList, true⟩,
    ⟨"VendorErrorCode", "vendorErrorCode".toList, true, .elem, "vendorErrorCode".toList, true⟩,
    ⟨"VendorId", "vendorId".toList, true, .elem, "vendorId".toList, true⟩]
  enc := .prog [
      .simple (.lit "{".toList),
      .simple (.commaIf),
      .simple (.lit "\"connectorId\": ".toList),
      .simple (.field 0),
      .simple (.setComma),
      .simple (.commaIf),
      .simple (.lit "\"errorCode\": ".toList),
      .simple (.field 1),
      .simple (.setComma),
      .simple (.commaIf),
      .simple (.lit "\"info\": ".toList),
      .simple (.field 2),
      .simple (.setComma),
      .simple (.commaIf),
      .simple (.lit "\"status\": ".toList),
      .simple (.field 3),
      .ifNotNil 4 [.lit ",".toList, .lit "\"timestamp\": ".toList, .timeField 4],
      .simple (.setComma),
      .simple (.commaIf),
      .simple (.lit "\"vendorErrorCode\": ".toList),
      .simple (.field 5),
      .simple (.setComma),
      .simple (.commaIf),
      .simple (.lit "\"vendorId\": ".toList),
      .simple (.field 6),
      .simple (.setComma),
      .simple (.lit "}".toList)]
  dec := .cases [("connectorId".toList, 0), ("errorCode".toList, 1), ("info".toList, 2), ("status".toList, 3), ("timestamp".toList, 4), ("vendorErrorCode".toList, 5), ("vendorId".toList, 6)] true ["connectorId".toList, "errorCode".toList, "status".toList]
  xmlName := some ("urn://Ocpp/Cs/2012/06/".toList, "statusNotificationRequest".toList)

/-- messages/v1x/cpreq/messages.go:112-123 -/
def cpreq.StatusNotification : Ty := .struct cpreq.StatusNotification.info [.int 64, .str, .str, .str, .ptr (.time), .str, .str]

/-- messages/v1x/cpreq/messages.go:139-142; json_encode.go:1148-1182 (MarshalJSON), 1184-1215 (UnmarshalJSON) -/
def cpreq.TransactionDataItems.info : StructInfo where
  pkg := "cpreq"
  name := "TransactionDataItems"
  fields := [⟨"SampledValues", "sampledValue".toList, false, .elem, "sampledValue".toList, true⟩,
    ⟨"Timestamp", "timestamp".toList, false, .elem, "timestamp".toList, true⟩]
  enc := .prog [
      .simple (.lit "{".toList),
      .simple (.commaIf),
      .simple (.lit "\"sampledValue\": ".toList),
      .simple (.field 0),
      .simple (.setComma),
      .simple (.commaIf),
      .simple (.lit "\"timestamp\": ".toList),
      .simple (.timeField 1),
      .simple (.setComma),
      .simple (.lit "}".toList)]
  dec := .cases [("sampledValue".toList, 0), ("timestamp".toList, 1)] false ["sampledValue".toList, "timestamp".toList]
  xmlName := none

/-- messages/v1x/cpreq/messages.go:139-142 -/
def cpreq.TransactionDataItems : Ty := .struct cpreq.TransactionDataItems.info [.slice (.ptr (cpreq.SampledValue)), .time]

/-- messages/v1x/cpreq/messages.go:126-136; json_encode.go:1009-1089 (MarshalJSON), 1091-1146 (UnmarshalJSON) -/
def cpreq.StopTransaction.info : StructInfo where
  pkg := "cpreq"
  name := "StopTransaction"
  fields := [⟨"IdTag", "idTag".toList, true, .elem, "idTag".toList, true⟩,
    ⟨"MeterStop", "meterStop".toList, false, .elem, "meterStop".toList, true⟩,
    ⟨"Reason", "reason".toList, true, .elem, "reason".toList, true⟩,
    ⟨"Timestamp", "timestamp".toList, false, .elem, "timestamp".toList, true⟩,
    ⟨"TransactionData", "transactionData".toList, true, .elem, "transactionData".toList, true⟩,
    ⟨"TransactionId", "transactionId".toList, false, .elem, "transactionId".toList, true⟩]
  enc := .prog [
      .simple (.lit "{".toList),
      .simple (.commaIf),
      .simple (.lit "\"idTag\": ".toList),
      .simple (.field 0),
      .simple (.setComma),
      .simple (.commaIf),
      .simple (.lit "\"meterStop\": ".toList),
      .simple (.field 1),
      .simple (.setComma),
      .simple (.commaIf),
      .simple (.lit "\"reason\": ".toList),
      .simple (.field 2),
      .simple (.setComma),
      .simple (.commaIf),
      .simple (.lit "\"timestamp\": ".toList),
      .simple (.timeField 3),
      .simple (.setComma),
      .simple (.commaIf),
      .simple (.lit "\"transactionData\": ".toList),
      .simple (.field 4),
      .simple (.setComma),
      .simple (.commaIf),
      .simple (.lit "\"transactionId\": ".toList),
      .simple (.field 5),
      .simple (.setComma),
      .simple (.lit "}".toList)]
  dec := .cases [("idTag".toList, 0), ("meterStop".toList, 1), ("reason".toList, 2), ("timestamp".toList, 3), ("transactionData".toList, 4), ("transactionId".toList, 5)] true ["meterStop".toList, "timestamp".toList, "transactionId".toList]
  xmlName := some ("urn://Ocpp/Cs/2012/06/".toList, "stopTransactionRequest".toList)

/-- messages/v1x/cpreq/messages.go:126-136 -/
def cpreq.StopTransaction : Ty := .struct cpreq.StopTransaction.info [.str, .int 64, .str, .time, .slice (.ptr (cpreq.TransactionDataItems)), .int 64]

/-- messages/v1x/cpresp/messages.go:58-62; json_encode.go:314-345 (MarshalJSON), 347-376 (UnmarshalJSON) -/
def cpresp.IdTagInfo.info : StructInfo where
  pkg := "cpresp"
  name := "IdTagInfo"
  fields := [⟨"ExpiryDate", "expiryDate".toList, true, .elem, "expiryDate".toList, true⟩,
    ⟨"ParentIdTag", "parentIdTag".toList, true, .elem, "parentIdTag".toList, true⟩,
    ⟨"Status", "status".toList, false, .elem, "status".toList, true⟩]
  enc := .prog [
      .simple (.lit "{".toList),
      .ifNotNil 0 [.lit "\"expiryDate\": ".toList, .timeField 0, .lit ",".toList],
      .simple (.lit "\"parentIdTag\": ".toList),
      .simple (.field 1),
      .simple (.lit ",".toList),
      .simple (.lit "\"status\": ".toList),
      .simple (.field 2),
      .simple (.lit "}".toList)]
  dec := .cases [("expiryDate".toList, 0), ("parentIdTag".toList, 1), ("status".toList, 2)] false ["status".toList]
  xmlName := none

/-- messages/v1x/cpresp/messages.go:58-62 -/
def cpresp.IdTagInfo : Ty := .struct cpresp.IdTagInfo.info [.ptr (.time), .str, .str]

/-- messages/v1x/cpresp/messages.go:9-14; json_encode.go:11-34 (MarshalJSON), 36-59 (UnmarshalJSON) -/
def cpresp.Authorize.info : StructInfo where
  pkg := "cpresp"
  name := "Authorize"
  fields := [⟨"IdTagInfo", "idTagInfo".toList, false, .elem, "idTagInfo".toList, true⟩]
  enc := .prog [
      .simple (.lit "{".toList),
      .requireNonNil 0 ("idTagInfo is a required field".toList),
      .simple (.commaIf),
      .simple (.lit "\"idTagInfo\": ".toList),
      .simple (.field 0),
      .simple (.setComma),
      .simple (.lit "}".toList)]
  dec := .cases [("idTagInfo".toList, 0)] true ["idTagInfo".toList]
  xmlName := some ("urn://Ocpp/Cs/2012/06/".toList, "authorizeResponse".toList)

/-- messages/v1x/cpresp/messages.go:9-14 -/
def cpresp.Authorize : Ty := .struct cpresp.Authorize.info [.ptr (cpresp.IdTagInfo)]

/-- messages/v1x/cpresp/messages.go:17-26; json_encode.go:61-108 (MarshalJSON), 110-153 (UnmarshalJSON) -/
def cpresp.BootNotification.info : StructInfo where
  pkg := "cpresp"
  name := "BootNotification"
  fields := [⟨"Status", "status".toList, false, .elem, "status".toList, true⟩,
    ⟨"CurrentTime", "currentTime".toList, false, .elem, "currentTime".toList, true⟩,
    ⟨"Interval", "interval".toList, false, .elem, "heartbeatInterval".toList, true⟩]
  enc := .prog [
      .simple (.lit "{".toList),
      .simple (.commaIf),
      .simple (.lit "\"currentTime\": ".toList),
      .simple (.timeField 1),
      .simple (.setComma),
      .simple (.commaIf),
      .simple (.lit "\"interval\": ".toList),
      .simple (.field 2),
      .simple (.setComma),
      .simple (.commaIf),
      .simple (.lit "\"status\": ".toList),
      .simple (.field 0),
      .simple (.setComma),
      .simple (.lit "}".toList)]
  dec := .cases [("currentTime".toList, 1), ("interval".toList, 2), ("status".toList, 0)] true ["currentTime".toList, "interval".toList, "status".toList]
  xmlName := some ("urn://Ocpp/Cs/2012/06/".toList, "bootNotificationResponse".toList)

/-- messages/v1x/cpresp/messages.go:17-26 -/
def cpresp.BootNotification : Ty := .struct cpresp.BootNotification.info [.str, .time, .float]

/-- messages/v1x/cpresp/messages.go:29-35; json_encode.go:155-187 (MarshalJSON), 189-216 (UnmarshalJSON) -/
def cpresp.DataTransfer.info : StructInfo where
  pkg := "cpresp"
  name := "DataTransfer"
  fields := [⟨"Data", "data".toList, false, .elem, "Data".toList, false⟩,
    ⟨"Status", "status".toList, false, .elem, "status".toList, true⟩]
  enc := .prog [
      .simple (.lit "{".toList),
      .simple (.commaIf),
      .simple (.lit "\"data\": ".toList),
      .simple (.field 0),
      .simple (.setComma),
      .simple (.commaIf),
      .simple (.lit "\"status\": ".toList),
      .simple (.field 1),
      .simple (.setComma),
      .simple (.lit "}".toList)]
  dec := .cases [("data".toList, 0), ("status".toList, 1)] true ["status".toList]
  xmlName := some ("urn://Ocpp/Cs/2012/06/".toList, "dataTransferResponse".toList)

/-- messages/v1x/cpresp/messages.go:29-35 -/
def cpresp.DataTransfer : Ty := .struct cpresp.DataTransfer.info [.str, .str]

/-- messages/v1x/cpresp/messages.go:38-41; json_encode.go:218-225 (MarshalJSON), 227-240 (UnmarshalJSON) -/
def cpresp.DiagnosticsStatusNotification.info : StructInfo where
  pkg := "cpresp"
  name := "DiagnosticsStatusNotification"
  fields := []
  enc := .prog [
      .simple (.lit "{".toList),
      .simple (.lit "}".toList)]
  dec := .cases [] true []
  xmlName := some ("urn://Ocpp/Cs/2012/06/".toList, "diagnosticsStatusNotificationResponse".toList)

/-- messages/v1x/cpresp/messages.go:38-41 -/
def cpresp.DiagnosticsStatusNotification : Ty := .struct cpresp.DiagnosticsStatusNotification.info []

/-- messages/v1x/cpresp/messages.go:44-47; json_encode.go:242-249 (MarshalJSON), 251-264 (UnmarshalJSON) -/
def cpresp.FirmwareStatusNotification.info : StructInfo where
  pkg := "cpresp"
  name := "FirmwareStatusNotification"
  fields := []
  enc := .prog [
      .simple (.lit "{".toList),
      .simple (.lit "}".toList)]
  dec := .cases [] true []
  xmlName := some ("urn://Ocpp/Cs/2012/06/".toList, "firmwareStatusNotificationResponse".toList)

/-- messages/v1x/cpresp/messages.go:44-47 -/
def cpresp.FirmwareStatusNotification : Ty := .struct cpresp.FirmwareStatusNotification.info []

/-- messages/v1x/cpresp/messages.go:50-55; json_encode.go:266-287 (MarshalJSON), 289-312 (UnmarshalJSON) -/
def cpresp.Heartbeat.info : StructInfo where
  pkg := "cpresp"
  name := "Heartbeat"
  fields := [⟨"CurrentTime", "currentTime".toList, false, .elem, "currentTime".toList, true⟩]
  enc := .prog [
      .simple (.lit "{".toList),
      .simple (.commaIf),
      .simple (.lit "\"currentTime\": ".toList),
      .simple (.timeField 0),
      .simple (.setComma),
      .simple (.lit "}".toList)]
  dec := .cases [("currentTime".toList, 0)] true ["currentTime".toList]
  xmlName := some ("urn://Ocpp/Cs/2012/06/".toList, "heartbeatResponse".toList)

/-- messages/v1x/cpresp/messages.go:50-55 -/
def cpresp.Heartbeat : Ty := .struct cpresp.Heartbeat.info [.time]

/-- messages/v1x/cpresp/messages.go:65-68; json_encode.go:378-385 (MarshalJSON), 387-400 (UnmarshalJSON) -/
def cpresp.MeterValues.info : StructInfo where
  pkg := "cpresp"
  name := "MeterValues"
  fields := []
  enc := .prog [
      .simple (.lit "{".toList),
      .simple (.lit "}".toList)]
  dec := .cases [] true []
  xmlName := some ("urn://Ocpp/Cs/2012/06/".toList, "meterValuesResponse".toList)

/-- messages/v1x/cpresp/messages.go:65-68 -/
def cpresp.MeterValues : Ty := .struct cpresp.MeterValues.info []

/-- messages/v1x/cpresp/messages.go:71-77; json_encode.go:402-438 (MarshalJSON), 440-473 (UnmarshalJSON) -/
def cpresp.StartTransaction.info : StructInfo where
  pkg := "cpresp"
  name := "StartTransaction"
  fields := [⟨"IdTagInfo", "idTagInfo".toList, false, .elem, "idTagInfo".toList, true⟩,
    ⟨"TransactionId", "transactionId".toList, false, .elem, "transactionId".toList, true⟩]
  enc := .prog [
      .simple (.lit "{".toList),
      .requireNonNil 0 ("idTagInfo is a required field".toList),
      .simple (.commaIf),
      .simple (.lit "\"idTagInfo\": ".toList),
      .simple (.field 0),
      .simple (.setComma),
      .simple (.commaIf),
      .simple (.lit "\"transactionId\": ".toList),
      .simple (.field 1),
      .simple (.setComma),
      .simple (.lit "}".toList)]
  dec := .cases [("idTagInfo".toList, 0), ("transactionId".toList, 1)] true ["idTagInfo".toList, "transactionId".toList]
  xmlName := some ("urn://Ocpp/Cs/2012/06/".toList, "startTransactionResponse".toList)

/-- messages/v1x/cpresp/messages.go:71-77 -/
def cpresp.StartTransaction : Ty := .struct cpresp.StartTransaction.info [.ptr (cpresp.IdTagInfo), .int 32]

/-- messages/v1x/cpresp/messages.go:80-83; json_encode.go:475-482 (MarshalJSON), 484-497 (UnmarshalJSON) -/
def cpresp.StatusNotification.info : StructInfo where
  pkg := "cpresp"
  name := "StatusNotification"
  fields := []
  enc := .prog [
      .simple (.lit "{".toList),
      .simple (.lit "}".toList)]
  dec := .cases [] true []
  xmlName := some ("urn://Ocpp/Cs/2012/06/".toList, "statusNotificationResponse".toList)

/-- messages/v1x/cpresp/messages.go:80-83 -/
def cpresp.StatusNotification : Ty := .struct cpresp.StatusNotification.info []

/-- messages/v1x/cpresp/messages.go:86-91; json_encode.go:499-518 (MarshalJSON), 520-537 (UnmarshalJSON) -/
def cpresp.StopTransaction.info : StructInfo where
  pkg := "cpresp"
  name := "StopTransaction"
  fields := [⟨"IdTagInfo", "idTagInfo".toList, false, .elem, "IdTagInfo".toList, false⟩]
  enc := .prog [
      .simple (.lit "{".toList),
      .simple (.commaIf),
      .simple (.lit "\"idTagInfo\": ".toList),
      .simple (.field 0),
      .simple (.setComma),
      .simple (.lit "}".toList)]
  dec := .cases [("idTagInfo".toList, 0)] true []
  xmlName := some ("urn://Ocpp/Cs/2012/06/".toList, "stopTransactionResponse".toList)

/-- messages/v1x/cpresp/messages.go:86-91 -/
def cpresp.StopTransaction : Ty := .struct cpresp.StopTransaction.info [.ptr (cpresp.IdTagInfo)]

/-- messages/v1x/csreq/messages.go:12-17; json_encode.go:11-32 (MarshalJSON), 34-57 (UnmarshalJSON) -/
def csreq.CancelReservation.info : StructInfo where
  pkg := "csreq"
  name := "CancelReservation"
  fields := [⟨"ReservationId", "reservationId".toList, false, .elem, "reservationId".toList, false⟩]
  enc := .prog [
      .simple (.lit "{".toList),
      .simple (.commaIf),
      .simple (.lit "\"reservationId\": ".toList),
      .simple (.field 0),
      .simple (.setComma),
      .simple (.lit "}".toList)]
  dec := .cases [("reservationId".toList, 0)] true ["reservationId".toList]
  xmlName := some ("urn://Ocpp/Cp/2012/06/".toList, "cancelReservationRequest".toList)

/-- messages/v1x/csreq/messages.go:12-17 -/
def csreq.CancelReservation : Ty := .struct csreq.CancelReservation.info [.int 64]

/-- messages/v1x/csreq/messages.go:20-26; json_encode.go:59-93 (MarshalJSON), 95-128 (UnmarshalJSON) -/
def csreq.ChangeAvailability.info : StructInfo where
  pkg := "csreq"
  name := "ChangeAvailability"
  fields := [⟨"ConnectorId", "connectorId".toList, false, .elem, "connectorId".toList, false⟩,
    ⟨"Type", "type".toList, false, .elem, "type".toList, false⟩]
  enc := .prog [
      .simple (.lit "{".toList),
      .simple (.commaIf),
      .simple (.lit "\"connectorId\": ".toList),
      .simple (.field 0),
      .simple (.setComma),
      .simple (.commaIf),
      .simple (.lit "\"type\": ".toList),
      .simple (.field 1),
      .simple (.setComma),
      .simple (.lit "}".toList)]
  dec := .cases [("connectorId".toList, 0), ("type".toList, 1)] true ["connectorId".toList, "type".toList]
  xmlName := some ("urn://Ocpp/Cp/2012/06/".toList, "changeAvailabilityRequest".toList)

/-- messages/v1x/csreq/messages.go:20-26 -/
def csreq.ChangeAvailability : Ty := .struct csreq.ChangeAvailability.info [.int 64, .str]

/-- messages/v1x/csreq/messages.go:29-35; json_encode.go:130-164 (MarshalJSON), 166-199 (UnmarshalJSON) -/
def csreq.ChangeConfiguration.info : StructInfo where
  pkg := "csreq"
  name := "ChangeConfiguration"
  fields := [⟨"Key", "key".toList, false, .elem, "key".toList, false⟩,
    ⟨"Value", "value".toList, false, .elem, "value".toList, false⟩]
  enc := .prog [
      .simple (.lit "{".toList),
      .simple (.commaIf),
      .simple (.lit "\"key\": ".toList),
      .simple (.field 0),
      .simple (.setComma),
      .simple (.commaIf),
      .simple (.lit "\"value\": ".toList),
      .simple (.field 1),
      .simple (.setComma),
      .simple (.lit "}".toList)]
  dec := .cases [("key".toList, 0), ("value".toList, 1)] true ["key".toList, "value".toList]
  xmlName := some ("urn://Ocpp/Cp/2012/06/".toList, "changeConfigurationRequest".toList)

/-- messages/v1x/csreq/messages.go:29-35 -/
def csreq.ChangeConfiguration : Ty := .struct csreq.ChangeConfiguration.info [.str, .str]

/-- messages/v1x/csreq/messages.go:60-64; json_encode.go:1389-1434 (MarshalJSON), 1436-1471 (UnmarshalJSON) -/
def csreq.ChargingSchedulePeriodItems.info : StructInfo where
  pkg := "csreq"
  name := "ChargingSchedulePeriodItems"
  fields := [⟨"Limit", "limit".toList, false, .elem, "limit".toList, false⟩,
    ⟨"NumberPhases", "numberPhases".toList, true, .elem, "numberPhases".toList, true⟩,
    ⟨"StartPeriod", "startPeriod".toList, false, .elem, "startPeriod".toList, false⟩]
  enc := .prog [
      .simple (.lit "{".toList),
      .simple (.commaIf),
      .simple (.lit "\"limit\": ".toList),
      .simple (.field 0),
      .simple (.setComma),
      .simple (.commaIf),
      .simple (.lit "\"numberPhases\": ".toList),
      .simple (.field 1),
      .simple (.setComma),
      .simple (.commaIf),
      .simple (.lit "\"startPeriod\": ".toList),
      .simple (.field 2),
      .simple (.setComma),
      .simple (.lit "}".toList)]
  dec := .cases [("limit".toList, 0), ("numberPhases".toList, 1), ("startPeriod".toList, 2)] false ["limit".toList, "startPeriod".toList]
  xmlName := none

/-- messages/v1x/csreq/messages.go:60-64 -/
def csreq.ChargingSchedulePeriodItems : Ty := .struct csreq.ChargingSchedulePeriodItems.info [.float, .int 64, .int 64]

/-- messages/v1x/csreq/messages.go:51-57; json_encode.go:1279-1342 (MarshalJSON), 1344-1387 (UnmarshalJSON) -/
def csreq.ChargingSchedule.info : StructInfo where
  pkg := "csreq"
  name := "ChargingSchedule"
  fields := [⟨"ChargingRateUnit", "chargingRateUnit".toList, false, .elem, "chargingRateUnit".toList, false⟩,
    ⟨"ChargingSchedulePeriod", "chargingSchedulePeriod".toList, false, .elem, "chargingSchedulePeriod".toList, false⟩,
    ⟨"Duration", "duration".toList, true, .elem, "duration".toList, true⟩,
    ⟨"MinChargingRate", "minChargingRate".toList, true, .elem, "minChargingRate".toList, true⟩,
    ⟨"StartSchedule", "startSchedule".toList, true, .elem, "startSchedule".toList, true⟩]
  enc := .prog [
      .simple (.lit "{".toList),
      .simple (.commaIf),
      .simple (.lit "\"chargingRateUnit\": ".toList),
      .simple (.field 0),
      .simple (.setComma),
      .simple (.commaIf),
      .simple (.lit "\"chargingSchedulePeriod\": ".toList),
      .simple (.field 1),
      .simple (.setComma),
      .simple (.commaIf),
      .simple (.lit "\"duration\": ".toList),
      .simple (.field 2),
      .simple (.setComma),
      .simple (.commaIf),
      .simple (.lit "\"minChargingRate\": ".toList),
      .simple (.field 3),
      .ifNotNil 4 [.lit ",".toList, .lit "\"startSchedule\": ".toList, .timeField 4],
      .simple (.lit "}".toList)]
  dec := .cases [("chargingRateUnit".toList, 0), ("chargingSchedulePeriod".toList, 1), ("duration".toList, 2), ("minChargingRate".toList, 3), ("startSchedule".toList, 4)] false ["chargingRateUnit".toList, "chargingSchedulePeriod".toList]
  xmlName := none

/-- messages/v1x/csreq/messages.go:51-57 -/
def csreq.ChargingSchedule : Ty := .struct csreq.ChargingSchedule.info [.str, .slice (.ptr (csreq.ChargingSchedulePeriodItems)), .int 64, .float, .ptr (.time)]

/-- messages/v1x/csreq/messages.go:38-48; json_encode.go:201-314 (MarshalJSON), 316-393 (UnmarshalJSON) -/
def csreq.ChargingProfile.info : StructInfo where
  pkg := "csreq"
  name := "ChargingProfile"
  fields := [⟨"ChargingProfileId", "chargingProfileId".toList, false, .elem, "chargingProfileId".toList, false⟩,
    ⟨"ChargingProfileKind", "chargingProfileKind".toList, false, .elem, "chargingProfileKind".toList, false⟩,
    ⟨"ChargingProfilePurpose", "chargingProfilePurpose".toList, false, .elem, "chargingProfilePurpose".toList, false⟩,
    ⟨"ChargingSchedule", "chargingSchedule".toList, false, .elem, "chargingSchedule".toList, false⟩,
    ⟨"RecurrencyKind", "recurrencyKind".toList, true, .elem, "recurrencyKind".toList, true⟩,
    ⟨"StackLevel", "stackLevel".toList, false, .elem, "stackLevel".toList, false⟩,
    ⟨"TransactionId", "transactionId".toList, true, .elem, "transactionId".toList, true⟩,
    ⟨"ValidFrom", "validFrom".toList, true, .elem, "validFrom".toList, true⟩,
    ⟨"ValidTo", "validTo".toList, true, .elem, "validTo".toList, true⟩]
  enc := .prog [
      .simple (.lit "{".toList),
      .simple (.commaIf),
      .simple (.lit "\"chargingProfileId\": ".toList),
      .simple (.field 0),
      .simple (.setComma),
      .simple (.commaIf),
      .simple (.lit "\"chargingProfileKind\": ".toList),
      .simple (.field 1),
      .simple (.setComma),
      .simple (.commaIf),
      .simple (.lit "\"chargingProfilePurpose\": ".toList),
      .simple (.field 2),
      .simple (.setComma),
      .requireNonNil 3 ("chargingSchedule is a required field".toList),
      .simple (.commaIf),
      .simple (.lit "\"chargingSchedule\": ".toList),
      .simple (.field 3),
      .simple (.setComma),
      .simple (.commaIf),
      .simple (.lit "\"recurrencyKind\": ".toList),
      .simple (.field 4),
      .simple (.setComma),
      .simple (.commaIf),
      .simple (.lit "\"stackLevel\": ".toList),
      .simple (.field 5),
      .simple (.setComma),
      .simple (.commaIf),
      .simple (.lit "\"transactionId\": ".toList),
      .simple (.field 6),
      .ifNotNil 7 [.lit ",".toList, .lit "\"validFrom\": ".toList, .timeField 7],
      .ifNotNil 8 [.lit ",".toList, .lit "\"validTo\": ".toList, .timeField 8],
      .simple (.lit "}".toList)]
  dec := .cases [("chargingProfileId".toList, 0), ("chargingProfileKind".toList, 1), ("chargingProfilePurpose".toList, 2), ("chargingSchedule".toList, 3), ("recurrencyKind".toList, 4), ("stackLevel".toList, 5), ("transactionId".toList, 6), ("validFrom".toList, 7), ("validTo".toList, 8)] false ["chargingProfileId".toList, "chargingProfileKind".toList, "chargingProfilePurpose".toList, "chargingSchedule".toList, "stackLevel".toList]
  xmlName := none

/-- messages/v1x/csreq/messages.go:38-48 -/
def csreq.ChargingProfile : Ty := .struct csreq.ChargingProfile.info [.int 64, .str, .str, .ptr (csreq.ChargingSchedule), .str, .int 64, .int 64, .ptr (.time), .ptr (.time)]

/-- messages/v1x/csreq/messages.go:67-70; json_encode.go:395-402 (MarshalJSON), 404-417 (UnmarshalJSON) -/
def csreq.ClearCache.info : StructInfo where
  pkg := "csreq"
  name := "ClearCache"
  fields := []
  enc := .prog [
      .simple (.lit "{".toList),
      .simple (.lit "}".toList)]
  dec := .cases [] true []
  xmlName := some ("urn://Ocpp/Cp/2012/06/".toList, "clearCacheRequest".toList)

/-- messages/v1x/csreq/messages.go:67-70 -/
def csreq.ClearCache : Ty := .struct csreq.ClearCache.info []

/-- messages/v1x/csreq/messages.go:73-81; json_encode.go:419-471 (MarshalJSON), 473-502 (UnmarshalJSON) -/
def csreq.ClearChargingProfile.info : StructInfo where
  pkg := "csreq"
  name := "ClearChargingProfile"
  fields := [⟨"ChargingProfilePurpose", "chargingProfilePurpose".toList, true, .elem, "chargingProfilePurpose".toList, true⟩,
    ⟨"ConnectorId", "connectorId".toList, true, .elem, "connectorId".toList, true⟩,
    ⟨"Id", "id".toList, true, .elem, "id".toList, true⟩,
    ⟨"StackLevel", "stackLevel".toList, true, .elem, "stackLevel".toList, true⟩]
  enc := .prog [
      .simple (.lit "{".toList),
      .simple (.commaIf),
      .simple (.lit "\"chargingProfilePurpose\": ".toList),
      .simple (.field 0),
      .simple (.setComma),
      .simple (.commaIf),
      .simple (.lit "\"connectorId\": ".toList),
      .simple (.field 1),
      .simple (.setComma),
      .simple (.commaIf),
      .simple (.lit "\"id\": ".toList),
      .simple (.field 2),
      .simple (.setComma),
      .simple (.commaIf),
      .simple (.lit "\"stackLevel\": ".toList),
      .simple (.field 3),
      .simple (.setComma),
      .simple (.lit "}".toList)]
  dec := .cases [("chargingProfilePurpose".toList, 0), ("connectorId".toList, 1), ("id".toList, 2), ("stackLevel".toList, 3)] true []
  xmlName := some ("urn://Ocpp/Cp/2012/06/".toList, "clearChargingProfileRequest".toList)

/-- messages/v1x/csreq/messages.go:73-81 -/
def csreq.ClearChargingProfile : Ty := .struct csreq.ClearChargingProfile.info [.str, .int 64, .int 64, .int 64]

/-- messages/v1x/csreq/messages.go:84-91; json_encode.go:504-547 (MarshalJSON), 549-580 (UnmarshalJSON) -/
def csreq.DataTransfer.info : StructInfo where
  pkg := "csreq"
  name := "DataTransfer"
  fields := [⟨"Data", "data".toList, true, .elem, "data".toList, true⟩,
    ⟨"MessageId", "messageId".toList, true, .elem, "messageId".toList, true⟩,
    ⟨"VendorId", "vendorId".toList, false, .elem, "vendorId".toList, false⟩]
  enc := .prog [
      .simple (.lit "{".toList),
      .simple (.commaIf),
      .simple (.lit "\"data\": ".toList),
      .simple (.field 0),
      .simple (.setComma),
      .simple (.commaIf),
      .simple (.lit "\"messageId\": ".toList),
      .simple (.field 1),
      .simple (.setComma),
      .simple (.commaIf),
      .simple (.lit "\"vendorId\": ".toList),
      .simple (.field 2),
      .simple (.setComma),
      .simple (.lit "}".toList)]
  dec := .cases [("data".toList, 0), ("messageId".toList, 1), ("vendorId".toList, 2)] true ["vendorId".toList]
  xmlName := some ("urn://Ocpp/Cp/2012/06/".toList, "dataTransferRequest".toList)

/-- messages/v1x/csreq/messages.go:84-91 -/
def csreq.DataTransfer : Ty := .struct csreq.DataTransfer.info [.str, .str, .str]

/-- messages/v1x/csreq/messages.go:94-101; json_encode.go:582-627 (MarshalJSON), 629-666 (UnmarshalJSON) -/
def csreq.GetCompositeSchedule.info : StructInfo where
  pkg := "csreq"
  name := "GetCompositeSchedule"
  fields := [⟨"ChargingRateUnit", "chargingRateUnit".toList, true, .elem, "chargingRateUnit".toList, true⟩,
    ⟨"ConnectorId", "connectorId".toList, false, .elem, "connectorId".toList, false⟩,
    ⟨"Duration", "duration".toList, false, .elem, "duration".toList, false⟩]
  enc := .prog [
      .simple (.lit "{".toList),
      .simple (.commaIf),
      .simple (.lit "\"chargingRateUnit\": ".toList),
      .simple (.field 0),
      .simple (.setComma),
      .simple (.commaIf),
      .simple (.lit "\"connectorId\": ".toList),
      .simple (.field 1),
      .simple (.setComma),
      .simple (.commaIf),
      .simple (.lit "\"duration\": ".toList),
      .simple (.field 2),
      .simple (.setComma),
      .simple (.lit "}".toList)]
  dec := .cases [("chargingRateUnit".toList, 0), ("connectorId".toList, 1), ("duration".toList, 2)] true ["connectorId".toList, "duration".toList]
  xmlName := some ("urn://Ocpp/Cp/2012/06/".toList, "getCompositeScheduleRequest".toList)

/-- messages/v1x/csreq/messages.go:94-101 -/
def csreq.GetCompositeSchedule : Ty := .struct csreq.GetCompositeSchedule.info [.str, .int 64, .int 64]

/-- messages/v1x/csreq/messages.go:104-109; json_encode.go:668-674 (MarshalJSON), 676-693 (UnmarshalJSON) -/
def csreq.GetConfiguration.info : StructInfo where
  pkg := "csreq"
  name := "GetConfiguration"
  fields := [⟨"Key", "key".toList, true, .elem, "key".toList, true⟩]
  enc := .mapIfNotNil "key".toList 0
  dec := .cases [("key".toList, 0)] true []
  xmlName := some ("urn://Ocpp/Cp/2012/06/".toList, "getConfigurationRequest".toList)

/-- messages/v1x/csreq/messages.go:104-109 -/
def csreq.GetConfiguration : Ty := .struct csreq.GetConfiguration.info [.slice (.str)]

/-- messages/v1x/csreq/messages.go:112-121; json_encode.go:695-754 (MarshalJSON), 756-795 (UnmarshalJSON) -/
def csreq.GetDiagnostics.info : StructInfo where
  pkg := "csreq"
  name := "GetDiagnostics"
  fields := [⟨"Location", "location".toList, false, .elem, "location".toList, false⟩,
    ⟨"Retries", "retries".toList, true, .elem, "retries".toList, true⟩,
    ⟨"RetryInterval", "retryInterval".toList, true, .elem, "retryInterval".toList, true⟩,
    ⟨"StartTime", "startTime".toList, true, .elem, "startTime".toList, true⟩,
    ⟨"StopTime", "stopTime".toList, true, .elem, "stopTime".toList, true⟩]
  enc := .prog [
      .simple (.lit "{".toList),
      .simple (.commaIf),
      .simple (.lit "\"location\": ".toList),
      .simple (.field 0),
      .simple (.setComma),
      .simple (.commaIf),
      .simple (.lit "\"retries\": ".toList),
      .simple (.field 1),
      .simple (.setComma),
      .simple (.commaIf),
      .simple (.lit "\"retryInterval\": ".toList),
      .simple (.field 2),
      .ifNotNil 3 [.lit ",".toList, .lit "\"startTime\": ".toList, .timeField 3],
      .ifNotNil 4 [.lit ",".toList, .lit "\"stopTime\": ".toList, .timeField 4],
      .simple (.lit "}".toList)]
  dec := .cases [("location".toList, 0), ("retries".toList, 1), ("retryInterval".toList, 2), ("startTime".toList, 3), ("stopTime".toList, 4)] true ["location".toList]
  xmlName := some ("urn://Ocpp/Cp/2012/06/".toList, "getDiagnosticsRequest".toList)

/-- messages/v1x/csreq/messages.go:112-121 -/
def csreq.GetDiagnostics : Ty := .struct csreq.GetDiagnostics.info [.str, .int 64, .int 64, .ptr (.time), .ptr (.time)]

/-- messages/v1x/csreq/messages.go:124-127; json_encode.go:797-804 (MarshalJSON), 806-819 (UnmarshalJSON) -/
def csreq.GetLocalListVersion.info : StructInfo where
  pkg := "csreq"
  name := "GetLocalListVersion"
  fields := []
  enc := .prog [
      .simple (.lit "{".toList),
      .simple (.lit "}".toList)]
  dec := .cases [] true []
  xmlName := some ("urn://Ocpp/Cp/2012/06/".toList, "getLocalListVersionRequest".toList)

/-- messages/v1x/csreq/messages.go:124-127 -/
def csreq.GetLocalListVersion : Ty := .struct csreq.GetLocalListVersion.info []

/-- messages/v1x/csreq/messages.go:130-134; json_encode.go:821-864 (MarshalJSON), 866-887 (UnmarshalJSON) -/
def csreq.IdTagInfo.info : StructInfo where
  pkg := "csreq"
  name := "IdTagInfo"
  fields := [⟨"ExpiryDate", "expiryDate".toList, true, .elem, "expiryDate".toList, true⟩,
    ⟨"ParentIdTag", "parentIdTag".toList, true, .elem, "parentIdTag".toList, true⟩,
    ⟨"Status", "status".toList, false, .elem, "status".toList, false⟩]
  enc := .prog [
      .simple (.lit "{".toList),
      .simple (.commaIf),
      .simple (.lit "\"expiryDate\": ".toList),
      .simple (.timeField 0),
      .simple (.setComma),
      .simple (.commaIf),
      .simple (.lit "\"parentIdTag\": ".toList),
      .simple (.field 1),
      .simple (.setComma),
      .simple (.commaIf),
      .simple (.lit "\"status\": ".toList),
      .simple (.field 2),
      .simple (.setComma),
      .simple (.lit "}".toList)]
  dec := .cases [("status".toList, 2)] false ["status".toList]
  xmlName := none

/-- messages/v1x/csreq/messages.go:130-134 -/
def csreq.IdTagInfo : Ty := .struct csreq.IdTagInfo.info [.ptr (.time), .str, .str]

/-- messages/v1x/csreq/messages.go:137-140; json_encode.go:889-921 (MarshalJSON), 923-948 (UnmarshalJSON) -/
def csreq.LocalAuthorizationListItems.info : StructInfo where
  pkg := "csreq"
  name := "LocalAuthorizationListItems"
  fields := [⟨"IdTag", "idTag".toList, false, .elem, "idTag".toList, false⟩,
    ⟨"IdTagInfo", "idTagInfo".toList, true, .elem, "idTagInfo".toList, true⟩]
  enc := .prog [
      .simple (.lit "{".toList),
      .simple (.commaIf),
      .simple (.lit "\"idTag\": ".toList),
      .simple (.field 0),
      .simple (.setComma),
      .simple (.commaIf),
      .simple (.lit "\"idTagInfo\": ".toList),
      .simple (.field 1),
      .simple (.setComma),
      .simple (.lit "}".toList)]
  dec := .cases [("idTag".toList, 0), ("idTagInfo".toList, 1)] false ["idTag".toList]
  xmlName := none

/-- messages/v1x/csreq/messages.go:137-140 -/
def csreq.LocalAuthorizationListItems : Ty := .struct csreq.LocalAuthorizationListItems.info [.str, .ptr (csreq.IdTagInfo)]

/-- messages/v1x/csreq/messages.go:143-150; no codec methods: encoding/json reflection -/
def csreq.RemoteStartTransaction.info : StructInfo where
  pkg := "csreq"
  name := "RemoteStartTransaction"
  fields := [⟨"IdTag", "idTag".toList, false, .elem, "idTag".toList, false⟩,
    ⟨"ChargingProfile", "chargingProfile".toList, true, .elem, "chargingProfile".toList, true⟩,
    ⟨"ConnectorId", "connectorId".toList, true, .elem, "connectorId".toList, true⟩]
  enc := .reflect [("idTag".toList, 0, false), ("chargingProfile".toList, 1, true), ("connectorId".toList, 2, true)]
  dec := .reflect [("idTag".toList, 0), ("chargingProfile".toList, 1), ("connectorId".toList, 2)]
  xmlName := some ("urn://Ocpp/Cp/2012/06/".toList, "remoteStartTransactionRequest".toList)

/-- messages/v1x/csreq/messages.go:143-150 -/
def csreq.RemoteStartTransaction : Ty := .struct csreq.RemoteStartTransaction.info [.str, .ptr (csreq.ChargingProfile), .int 32]

/-- messages/v1x/csreq/messages.go:153-158; no codec methods: encoding/json reflection -/
def csreq.RemoteStopTransaction.info : StructInfo where
  pkg := "csreq"
  name := "RemoteStopTransaction"
  fields := [⟨"TransactionId", "transactionId".toList, false, .elem, "transactionId".toList, false⟩]
  enc := .reflect [("transactionId".toList, 0, false)]
  dec := .reflect [("transactionId".toList, 0)]
  xmlName := some ("urn://Ocpp/Cp/2012/06/".toList, "remoteStopTransactionRequest".toList)

/-- messages/v1x/csreq/messages.go:153-158 -/
def csreq.RemoteStopTransaction : Ty := .struct csreq.RemoteStopTransaction.info [.int 32]

/-- messages/v1x/csreq/messages.go:161-170; json_encode.go:950-1021 (MarshalJSON), 1023-1080 (UnmarshalJSON) -/
def csreq.ReserveNow.info : StructInfo where
  pkg := "csreq"
  name := "ReserveNow"
  fields := [⟨"ConnectorId", "connectorId".toList, false, .elem, "connectorId".toList, false⟩,
    ⟨"ExpiryDate", "expiryDate".toList, false, .elem, "expiryDate".toList, false⟩,
    ⟨"IdTag", "idTag".toList, false, .elem, "idTag".toList, false⟩,
    ⟨"ParentIdTag", "parentIdTag".toList, true, .elem, "parentIdTag".toList, true⟩,
    ⟨"ReservationId", "reservationId".toList, false, .elem, "reservationId".toList, false⟩]
  enc := .prog [
      .simple (.lit "{".toList),
      .simple (.commaIf),
      .simple (.lit "\"connectorId\": ".toList),
      .simple (.field 0),
      .simple (.setComma),
      .simple (.commaIf),
      .simple (.lit "\"expiryDate\": ".toList),
      .simple (.timeField 1),
      .simple (.setComma),
      .simple (.commaIf),
      .simple (.lit "\"idTag\": ".toList),
      .simple (.field 2),
      .simple (.setComma),
      .simple (.commaIf),
      .simple (.lit "\"parentIdTag\": ".toList),
      .simple (.field 3),
      .simple (.setComma),
      .simple (.commaIf),
      .simple (.lit "\"reservationId\": ".toList),
      .simple (.field 4),
      .simple (.setComma),
      .simple (.lit "}".toList)]
  dec := .cases [("connectorId".toList, 0), ("expiryDate".toList, 1), ("idTag".toList, 2), ("parentIdTag".toList, 3), ("reservationId".toList, 4)] true ["connectorId".toList, "expiryDate".toList, "idTag".toList, "reservationId".toList]
  xmlName := some ("urn://Ocpp/Cp/2012/06/".toList, "reserveNowRequest".toList)

/-- messages/v1x/csreq/messages.go:161-170 -/
def csreq.ReserveNow : Ty := .struct csreq.ReserveNow.info [.int 64, .time, .str, .str, .int 64]

/-- messages/v1x/csreq/messages.go:173-178; json_encode.go:1082-1103 (MarshalJSON), 1105-1128 (UnmarshalJSON) -/
def csreq.Reset.info : StructInfo where
  pkg := "csreq"
  name := "Reset"
  fields := [⟨"Type", "type".toList, false, .elem, "type".toList, false⟩]
  enc := .prog [
      .simple (.lit "{".toList),
      .simple (.commaIf),
      .simple (.lit "\"type\": ".toList),
      .simple (.field 0),
      .simple (.setComma),
      .simple (.lit "}".toList)]
  dec := .cases [("type".toList, 0)] true ["type".toList]
  xmlName := some ("urn://Ocpp/Cp/2012/06/".toList, "resetRequest".toList)

/-- messages/v1x/csreq/messages.go:173-178 -/
def csreq.Reset : Ty := .struct csreq.Reset.info [.str]

/-- messages/v1x/csreq/messages.go:181-188; json_encode.go:1130-1175 (MarshalJSON), 1177-1214 (UnmarshalJSON) -/
def csreq.SendLocalList.info : StructInfo where
  pkg := "csreq"
  name := "SendLocalList"
  fields := [⟨"ListVersion", "listVersion".toList, false, .elem, "listVersion".toList, false⟩,
    ⟨"LocalAuthorizationList", "localAuthorizationList".toList, true, .elem, "localAuthorizationList".toList, true⟩,
    ⟨"UpdateType", "updateType".toList, false, .elem, "updateType".toList, false⟩]
  enc := .prog [
      .simple (.lit "{".toList),
      .simple (.commaIf),
      .simple (.lit "\"listVersion\": ".toList),
      .simple (.field 0),
      .simple (.setComma),
      .simple (.commaIf),
      .simple (.lit "\"localAuthorizationList\": ".toList),
      .simple (.field 1),
      .simple (.setComma),
      .simple (.commaIf),
      .simple (.lit "\"updateType\": ".toList),
      .simple (.field 2),
      .simple (.setComma),
      .simple (.lit "}".toList)]
  dec := .cases [("listVersion".toList, 0), ("localAuthorizationList".toList, 1), ("updateType".toList, 2)] true ["listVersion".toList, "updateType".toList]
  xmlName := some ("urn://Ocpp/Cp/2012/06/".toList, "sendLocalListRequest".toList)

/-- messages/v1x/csreq/messages.go:181-188 -/
def csreq.SendLocalList : Ty := .struct csreq.SendLocalList.info [.int 64, .slice (.ptr (csreq.LocalAuthorizationListItems)), .str]

/-- messages/v1x/csreq/messages.go:191-197; json_encode.go:1216-1248 (MarshalJSON), 1250-1277 (UnmarshalJSON) -/
def csreq.TriggerMessage.info : StructInfo where
  pkg := "csreq"
  name := "TriggerMessage"
  fields := [⟨"ConnectorId", "connectorId".toList, true, .elem, "connectorId".toList, true⟩,
    ⟨"RequestedMessage", "requestedMessage".toList, false, .elem, "requestedMessage".toList, false⟩]
  enc := .prog [
      .simple (.lit "{".toList),
      .simple (.commaIf),
      .simple (.lit "\"connectorId\": ".toList),
      .simple (.field 0),
      .simple (.setComma),
      .simple (.commaIf),
      .simple (.lit "\"requestedMessage\": ".toList),
      .simple (.field 1),
      .simple (.setComma),
      .simple (.lit "}".toList)]
  dec := .cases [("connectorId".toList, 0), ("requestedMessage".toList, 1)] true ["requestedMessage".toList]
  xmlName := some ("urn://Ocpp/Cp/2012/06/".toList, "triggerMessageRequest".toList)

/-- messages/v1x/csreq/messages.go:191-197 -/
def csreq.TriggerMessage : Ty := .struct csreq.TriggerMessage.info [.int 64, .str]

/-- messages/v1x/csreq/messages.go:200-205; json_encode.go:1746-1767 (MarshalJSON), 1769-1792 (UnmarshalJSON) -/
def csreq.UnlockConnector.info : StructInfo where
  pkg := "csreq"
  name := "UnlockConnector"
  fields := [⟨"ConnectorId", "connectorId".toList, false, .elem, "connectorId".toList, false⟩]
  enc := .prog [
      .simple (.lit "{".toList),
      .simple (.commaIf),
      .simple (.lit "\"connectorId\": ".toList),
      .simple (.field 0),
      .simple (.setComma),
      .simple (.lit "}".toList)]
  dec := .cases [("connectorId".toList, 0)] true ["connectorId".toList]
  xmlName := some ("urn://Ocpp/Cp/2012/06/".toList, "unlockConnectorRequest".toList)

/-- messages/v1x/csreq/messages.go:200-205 -/
def csreq.UnlockConnector : Ty := .struct csreq.UnlockConnector.info [.int 64]

/-- messages/v1x/csreq/messages.go:208-216; json_encode.go:1794-1850 (MarshalJSON), 1852-1893 (UnmarshalJSON) -/
def csreq.UpdateFirmware.info : StructInfo where
  pkg := "csreq"
  name := "UpdateFirmware"
  fields := [⟨"Location", "location".toList, false, .elem, "location".toList, false⟩,
    ⟨"Retries", "retries".toList, true, .elem, "retries".toList, true⟩,
    ⟨"RetrieveDate", "retrieveDate".toList, false, .elem, "retrieveDate".toList, false⟩,
    ⟨"RetryInterval", "retryInterval".toList, true, .elem, "retryInterval".toList, true⟩]
  enc := .prog [
      .simple (.lit "{".toList),
      .simple (.commaIf),
      .simple (.lit "\"location\": ".toList),
      .simple (.field 0),
      .simple (.setComma),
      .simple (.commaIf),
      .simple (.lit "\"retries\": ".toList),
      .simple (.field 1),
      .simple (.setComma),
      .simple (.commaIf),
      .simple (.lit "\"retrieveDate\": ".toList),
      .simple (.timeField 2),
      .simple (.setComma),
      .simple (.commaIf),
      .simple (.lit "\"retryInterval\": ".toList),
      .simple (.field 3),
      .simple (.setComma),
      .simple (.lit "}".toList)]
  dec := .cases [("location".toList, 0), ("retries".toList, 1), ("retrieveDate".toList, 2), ("retryInterval".toList, 3)] true ["location".toList, "retrieveDate".toList]
  xmlName := some ("urn://Ocpp/Cp/2012/06/".toList, "updateFirmwareRequest".toList)

/-- messages/v1x/csreq/messages.go:208-216 -/
def csreq.UpdateFirmware : Ty := .struct csreq.UpdateFirmware.info [.str, .float, .time, .float]

/-- messages/v1x/csreq/messages.go:219-229; json_encode.go:1473-1592 (MarshalJSON), 1594-1671 (UnmarshalJSON) -/
def csreq.CsChargingProfiles.info : StructInfo where
  pkg := "csreq"
  name := "CsChargingProfiles"
  fields := [⟨"ChargingProfileId", "chargingProfileId".toList, false, .elem, "chargingProfileId".toList, false⟩,
    ⟨"ChargingProfileKind", "chargingProfileKind".toList, false, .elem, "chargingProfileKind".toList, false⟩,
    ⟨"ChargingProfilePurpose", "chargingProfilePurpose".toList, false, .elem, "chargingProfilePurpose".toList, false⟩,
    ⟨"ChargingSchedule", "chargingSchedule".toList, false, .elem, "chargingSchedule".toList, false⟩,
    ⟨"RecurrencyKind", "recurrencyKind".toList, true, .elem, "recurrencyKind".toList, true⟩,
    ⟨"StackLevel", "stackLevel".toList, false, .elem, "stackLevel".toList, false⟩,
    ⟨"TransactionId", "transactionId".toList, true, .elem, "transactionId".toList, true⟩,
    ⟨"ValidFrom", "validFrom".toList, true, .elem, "validFrom".toList, true⟩,
    ⟨"ValidTo", "validTo".toList, true, .elem, "validTo".toList, true⟩]
  enc := .prog [
      .simple (.lit "{".toList),
      .simple (.commaIf),
      .simple (.lit "\"chargingProfileId\": ".toList),
      .simple (.field 0),
      .simple (.setComma),
      .simple (.commaIf),
      .simple (.lit "\"chargingProfileKind\": ".toList),
      .simple (.field 1),
      .simple (.setComma),
      .simple (.commaIf),
      .simple (.lit "\"chargingProfilePurpose\": ".toList),
      .simple (.field 2),
      .simple (.setComma),
      .requireNonNil 3 ("chargingSchedule is a required field".toList),
      .simple (.commaIf),
      .simple (.lit "\"chargingSchedule\": ".toList),
      .simple (.field 3),
      .simple (.setComma),
      .simple (.commaIf),
      .simple (.lit "\"recurrencyKind\": ".toList),
      .simple (.field 4),
      .simple (.setComma),
      .simple (.commaIf),
      .simple (.lit "\"stackLevel\": ".toList),
      .simple (.field 5),
      .simple (.setComma),
      .simple (.commaIf),
      .simple (.lit "\"transactionId\": ".toList),
      .simple (.field 6),
      .simple (.setComma),
      .simple (.commaIf),
      .simple (.lit "\"validFrom\": ".toList),
      .simple (.timeField 7),
      .simple (.setComma),
      .simple (.commaIf),
      .simple (.lit "\"validTo\": ".toList),
      .simple (.timeField 8),
      .simple (.setComma),
      .simple (.lit "}".toList)]
  dec := .cases [("chargingProfileId".toList, 0), ("chargingProfileKind".toList, 1), ("chargingProfilePurpose".toList, 2), ("chargingSchedule".toList, 3), ("recurrencyKind".toList, 4), ("stackLevel".toList, 5), ("transactionId".toList, 6), ("validFrom".toList, 7), ("validTo".toList, 8)] false ["chargingProfileId".toList, "chargingProfileKind".toList, "chargingProfilePurpose".toList, "chargingSchedule".toList, "stackLevel".toList]
  xmlName := none

/-- messages/v1x/csreq/messages.go:219-229 -/
def csreq.CsChargingProfiles : Ty := .struct csreq.CsChargingProfiles.info [.int 64, .str, .str, .ptr (csreq.ChargingSchedule), .str, .int 64, .int 64, .time, .time]

/-- messages/v1x/csreq/messages.go:232-238; json_encode.go:1673-1709 (MarshalJSON), 1711-1744 (UnmarshalJSON) -/
def csreq.SetChargingProfile.info : StructInfo where
  pkg := "csreq"
  name := "SetChargingProfile"
  fields := [⟨"ConnectorId", "connectorId".toList, false, .elem, "connectorId".toList, false⟩,
    ⟨"CsChargingProfiles", "csChargingProfiles".toList, false, .elem, "csChargingProfiles".toList, false⟩]
  enc := .prog [
      .simple (.lit "{".toList),
      .simple (.commaIf),
      .simple (.lit "\"connectorId\": ".toList),
      .simple (.field 0),
      .simple (.setComma),
      .requireNonNil 1 ("csChargingProfiles is a required field".toList),
      .simple (.commaIf),
      .simple (.lit "\"csChargingProfiles\": ".toList),
      .simple (.field 1),
      .simple (.setComma),
      .simple (.lit "}".toList)]
  dec := .cases [("connectorId".toList, 0), ("csChargingProfiles".toList, 1)] true ["connectorId".toList, "csChargingProfiles".toList]
  xmlName := some ("urn://Ocpp/Cp/2012/06/".toList, "setChargingProfileRequest".toList)

/-- messages/v1x/csreq/messages.go:232-238 -/
def csreq.SetChargingProfile : Ty := .struct csreq.SetChargingProfile.info [.int 64, .ptr (csreq.CsChargingProfiles)]

/-- messages/v1x/csresp/messages.go:9-14; json_encode.go:11-32 (MarshalJSON), 34-57 (UnmarshalJSON) -/
def csresp.CancelReservation.info : StructInfo where
  pkg := "csresp"
  name := "CancelReservation"
  fields := [⟨"Status", "status".toList, false, .elem, "status".toList, false⟩]
  enc := .prog [
      .simple (.lit "{".toList),
      .simple (.commaIf),
      .simple (.lit "\"status\": ".toList),
      .simple (.field 0),
      .simple (.setComma),
      .simple (.lit "}".toList)]
  dec := .cases [("status".toList, 0)] true ["status".toList]
  xmlName := some ("urn://Ocpp/Cp/2012/06/".toList, "cancelReservationResponse".toList)

/-- messages/v1x/csresp/messages.go:9-14 -/
def csresp.CancelReservation : Ty := .struct csresp.CancelReservation.info [.str]

/-- messages/v1x/csresp/messages.go:17-22; json_encode.go:59-80 (MarshalJSON), 82-105 (UnmarshalJSON) -/
def csresp.ChangeAvailability.info : StructInfo where
  pkg := "csresp"
  name := "ChangeAvailability"
  fields := [⟨"Status", "status".toList, false, .elem, "status".toList, false⟩]
  enc := .prog [
      .simple (.lit "{".toList),
      .simple (.commaIf),
      .simple (.lit "\"status\": ".toList),
      .simple (.field 0),
      .simple (.setComma),
      .simple (.lit "}".toList)]
  dec := .cases [("status".toList, 0)] true ["status".toList]
  xmlName := some ("urn://Ocpp/Cp/2012/06/".toList, "changeAvailabilityResponse".toList)

/-- messages/v1x/csresp/messages.go:17-22 -/
def csresp.ChangeAvailability : Ty := .struct csresp.ChangeAvailability.info [.str]

/-- messages/v1x/csresp/messages.go:25-30; json_encode.go:107-128 (MarshalJSON), 130-153 (UnmarshalJSON) -/
def csresp.ChangeConfiguration.info : StructInfo where
  pkg := "csresp"
  name := "ChangeConfiguration"
  fields := [⟨"Status", "status".toList, false, .elem, "status".toList, false⟩]
  enc := .prog [
      .simple (.lit "{".toList),
      .simple (.commaIf),
      .simple (.lit "\"status\": ".toList),
      .simple (.field 0),
      .simple (.setComma),
      .simple (.lit "}".toList)]
  dec := .cases [("status".toList, 0)] true ["status".toList]
  xmlName := some ("urn://Ocpp/Cp/2012/06/".toList, "changeConfigurationResponse".toList)

/-- messages/v1x/csresp/messages.go:25-30 -/
def csresp.ChangeConfiguration : Ty := .struct csresp.ChangeConfiguration.info [.str]

/-- messages/v1x/csresp/messages.go:42-46; json_encode.go:267-312 (MarshalJSON), 314-349 (UnmarshalJSON) -/
def csresp.ChargingSchedulePeriodItems.info : StructInfo where
  pkg := "csresp"
  name := "ChargingSchedulePeriodItems"
  fields := [⟨"Limit", "limit".toList, false, .elem, "limit".toList, false⟩,
    ⟨"NumberPhases", "numberPhases".toList, true, .elem, "numberPhases".toList, true⟩,
    ⟨"StartPeriod", "startPeriod".toList, false, .elem, "startPeriod".toList, false⟩]
  enc := .prog [
      .simple (.lit "{".toList),
      .simple (.commaIf),
      .simple (.lit "\"limit\": ".toList),
      .simple (.field 0),
      .simple (.setComma),
      .simple (.commaIf),
      .simple (.lit "\"numberPhases\": ".toList),
      .simple (.field 1),
      .simple (.setComma),
      .simple (.commaIf),
      .simple (.lit "\"startPeriod\": ".toList),
      .simple (.field 2),
      .simple (.setComma),
      .simple (.lit "}".toList)]
  dec := .cases [("limit".toList, 0), ("numberPhases".toList, 1), ("startPeriod".toList, 2)] false ["limit".toList, "startPeriod".toList]
  xmlName := none

/-- messages/v1x/csresp/messages.go:42-46 -/
def csresp.ChargingSchedulePeriodItems : Ty := .struct csresp.ChargingSchedulePeriodItems.info [.float, .int 64, .int 64]

/-- messages/v1x/csresp/messages.go:33-39; json_encode.go:155-220 (MarshalJSON), 222-265 (UnmarshalJSON) -/
def csresp.ChargingSchedule.info : StructInfo where
  pkg := "csresp"
  name := "ChargingSchedule"
  fields := [⟨"ChargingRateUnit", "chargingRateUnit".toList, false, .elem, "chargingRateUnit".toList, false⟩,
    ⟨"ChargingSchedulePeriod", "chargingSchedulePeriod".toList, false, .elem, "chargingSchedulePeriod".toList, false⟩,
    ⟨"Duration", "duration".toList, true, .elem, "duration".toList, true⟩,
    ⟨"MinChargingRate", "minChargingRate".toList, true, .elem, "minChargingRate".toList, true⟩,
    ⟨"StartSchedule", "startSchedule".toList, true, .elem, "startSchedule".toList, true⟩]
  enc := .prog [
      .simple (.lit "{".toList),
      .simple (.commaIf),
      .simple (.lit "\"chargingRateUnit\": ".toList),
      .simple (.field 0),
      .simple (.setComma),
      .simple (.commaIf),
      .simple (.lit "\"chargingSchedulePeriod\": ".toList),
      .simple (.field 1),
      .simple (.setComma),
      .simple (.commaIf),
      .simple (.lit "\"duration\": ".toList),
      .simple (.field 2),
      .simple (.setComma),
      .simple (.commaIf),
      .simple (.lit "\"minChargingRate\": ".toList),
      .simple (.field 3),
      .ifNotNil 4 [.lit ",".toList, .lit "\"startSchedule\": ".toList, .timeField 4],
      .simple (.lit "}".toList)]
  dec := .cases [("chargingRateUnit".toList, 0), ("chargingSchedulePeriod".toList, 1), ("duration".toList, 2), ("minChargingRate".toList, 3), ("startSchedule".toList, 4)] false ["chargingRateUnit".toList, "chargingSchedulePeriod".toList]
  xmlName := none

/-- messages/v1x/csresp/messages.go:33-39 -/
def csresp.ChargingSchedule : Ty := .struct csresp.ChargingSchedule.info [.str, .slice (.ptr (csresp.ChargingSchedulePeriodItems)), .int 64, .float, .ptr (.time)]

/-- messages/v1x/csresp/messages.go:49-54; json_encode.go:351-372 (MarshalJSON), 374-397 (UnmarshalJSON) -/
def csresp.ClearCache.info : StructInfo where
  pkg := "csresp"
  name := "ClearCache"
  fields := [⟨"Status", "status".toList, false, .elem, "status".toList, false⟩]
  enc := .prog [
      .simple (.lit "{".toList),
      .simple (.commaIf),
      .simple (.lit "\"status\": ".toList),
      .simple (.field 0),
      .simple (.setComma),
      .simple (.lit "}".toList)]
  dec := .cases [("status".toList, 0)] true ["status".toList]
  xmlName := some ("urn://Ocpp/Cp/2012/06/".toList, "clearCacheResponse".toList)

/-- messages/v1x/csresp/messages.go:49-54 -/
def csresp.ClearCache : Ty := .struct csresp.ClearCache.info [.str]

/-- messages/v1x/csresp/messages.go:57-62; json_encode.go:399-420 (MarshalJSON), 422-445 (UnmarshalJSON) -/
def csresp.ClearChargingProfile.info : StructInfo where
  pkg := "csresp"
  name := "ClearChargingProfile"
  fields := [⟨"Status", "status".toList, false, .elem, "status".toList, false⟩]
  enc := .prog [
      .simple (.lit "{".toList),
      .simple (.commaIf),
      .simple (.lit "\"status\": ".toList),
      .simple (.field 0),
      .simple (.setComma),
      .simple (.lit "}".toList)]
  dec := .cases [("status".toList, 0)] true ["status".toList]
  xmlName := some ("urn://Ocpp/Cp/2012/06/".toList, "clearChargingProfileResponse".toList)

/-- messages/v1x/csresp/messages.go:57-62 -/
def csresp.ClearChargingProfile : Ty := .struct csresp.ClearChargingProfile.info [.str]

/-- messages/v1x/csresp/messages.go:65-69; json_encode.go:447-492 (MarshalJSON), 494-529 (UnmarshalJSON) -/
def csresp.ConfigurationKeyItems.info : StructInfo where
  pkg := "csresp"
  name := "ConfigurationKeyItems"
  fields := [⟨"Key", "key".toList, false, .elem, "key".toList, false⟩,
    ⟨"Readonly", "readonly".toList, false, .elem, "readonly".toList, false⟩,
    ⟨"Value", "value".toList, true, .elem, "value".toList, true⟩]
  enc := .prog [
      .simple (.lit "{".toList),
      .simple (.commaIf),
      .simple (.lit "\"key\": ".toList),
      .simple (.field 0),
      .simple (.setComma),
      .simple (.commaIf),
      .simple (.lit "\"readonly\": ".toList),
      .simple (.field 1),
      .simple (.setComma),
      .simple (.commaIf),
      .simple (.lit "\"value\": ".toList),
      .simple (.field 2),
      .simple (.setComma),
      .simple (.lit "}".toList)]
  dec := .cases [("key".toList, 0), ("readonly".toList, 1), ("value".toList, 2)] false ["key".toList, "readonly".toList]
  xmlName := none

/-- messages/v1x/csresp/messages.go:65-69 -/
def csresp.ConfigurationKeyItems : Ty := .struct csresp.ConfigurationKeyItems.info [.str, .bool, .str]

/-- messages/v1x/csresp/messages.go:72-78; json_encode.go:531-563 (MarshalJSON), 565-592 (UnmarshalJSON) -/
def csresp.DataTransfer.info : StructInfo where
  pkg := "csresp"
  name := "DataTransfer"
  fields := [⟨"Data", "data".toList, true, .elem, "data".toList, true⟩,
    ⟨"Status", "status".toList, false, .elem, "status".toList, false⟩]
  enc := .prog [
      .simple (.lit "{".toList),
      .simple (.commaIf),
      .simple (.lit "\"data\": ".toList),
      .simple (.field 0),
      .simple (.setComma),
      .simple (.commaIf),
      .simple (.lit "\"status\": ".toList),
      .simple (.field 1),
      .simple (.setComma),
      .simple (.lit "}".toList)]
  dec := .cases [("data".toList, 0), ("status".toList, 1)] true ["status".toList]
  xmlName := some ("urn://Ocpp/Cp/2012/06/".toList, "dataTransferResponse".toList)

/-- messages/v1x/csresp/messages.go:72-78 -/
def csresp.DataTransfer : Ty := .struct csresp.DataTransfer.info [.str, .str]

/-- messages/v1x/csresp/messages.go:81-89; json_encode.go:594-643 (MarshalJSON), 645-680 (UnmarshalJSON) -/
def csresp.GetCompositeSchedule.info : StructInfo where
  pkg := "csresp"
  name := "GetCompositeSchedule"
  fields := [⟨"ChargingSchedule", "chargingSchedule".toList, true, .elem, "chargingSchedule".toList, true⟩,
    ⟨"ConnectorId", "connectorId".toList, true, .elem, "connectorId".toList, true⟩,
    ⟨"ScheduleStart", "scheduleStart".toList, true, .elem, "scheduleStart".toList, true⟩,
    ⟨"Status", "status".toList, false, .elem, "status".toList, false⟩]
  enc := .prog [
      .simple (.lit "{".toList),
      .simple (.commaIf),
      .simple (.lit "\"chargingSchedule\": ".toList),
      .simple (.field 0),
      .simple (.setComma),
      .simple (.commaIf),
      .simple (.lit "\"connectorId\": ".toList),
      .simple (.field 1),
      .ifNotNil 2 [.lit ",".toList, .lit "\"scheduleStart\": ".toList, .timeField 2],
      .simple (.lit ",".toList),
      .simple (.lit "\"status\": ".toList),
      .simple (.field 3),
      .simple (.lit "}".toList)]
  dec := .cases [("chargingSchedule".toList, 0), ("connectorId".toList, 1), ("scheduleStart".toList, 2), ("status".toList, 3)] true ["status".toList]
  xmlName := some ("urn://Ocpp/Cp/2012/06/".toList, "getCompositeScheduleResponse".toList)

/-- messages/v1x/csresp/messages.go:81-89 -/
def csresp.GetCompositeSchedule : Ty := .struct csresp.GetCompositeSchedule.info [.ptr (csresp.ChargingSchedule), .int 64, .ptr (.time), .str]

/-- messages/v1x/csresp/messages.go:92-98; json_encode.go:682-712 (MarshalJSON), 714-735 (UnmarshalJSON) -/
def csresp.GetConfiguration.info : StructInfo where
  pkg := "csresp"
  name := "GetConfiguration"
  fields := [⟨"ConfigurationKey", "configurationKey".toList, true, .elem, "configurationKey".toList, true⟩,
    ⟨"UnknownKey", "unknownKey".toList, true, .elem, "unknownKey".toList, true⟩]
  enc := .prog [
      .simple (.lit "{".toList),
      .simple (.commaIf),
      .simple (.lit "\"configurationKey\": ".toList),
      .simple (.field 0),
      .simple (.setComma),
      .simple (.commaIf),
      .simple (.lit "\"unknownKey\": ".toList),
      .simple (.field 1),
      .simple (.setComma),
      .simple (.lit "}".toList)]
  dec := .cases [("configurationKey".toList, 0), ("unknownKey".toList, 1)] true []
  xmlName := some ("urn://Ocpp/Cp/2012/06/".toList, "getConfigurationResponse".toList)

/-- messages/v1x/csresp/messages.go:92-98 -/
def csresp.GetConfiguration : Ty := .struct csresp.GetConfiguration.info [.slice (.ptr (csresp.ConfigurationKeyItems)), .slice (.str)]

/-- messages/v1x/csresp/messages.go:101-106; json_encode.go:737-756 (MarshalJSON), 758-775 (UnmarshalJSON) -/
def csresp.GetDiagnostics.info : StructInfo where
  pkg := "csresp"
  name := "GetDiagnostics"
  fields := [⟨"FileName", "fileName".toList, true, .elem, "fileName".toList, true⟩]
  enc := .prog [
      .simple (.lit "{".toList),
      .simple (.commaIf),
      .simple (.lit "\"fileName\": ".toList),
      .simple (.field 0),
      .simple (.setComma),
      .simple (.lit "}".toList)]
  dec := .cases [("fileName".toList, 0)] true []
  xmlName := some ("urn://Ocpp/Cp/2012/06/".toList, "getDiagnosticsResponse".toList)

/-- messages/v1x/csresp/messages.go:101-106 -/
def csresp.GetDiagnostics : Ty := .struct csresp.GetDiagnostics.info [.str]

/-- messages/v1x/csresp/messages.go:109-114; json_encode.go:777-798 (MarshalJSON), 800-823 (UnmarshalJSON) -/
def csresp.GetLocalListVersion.info : StructInfo where
  pkg := "csresp"
  name := "GetLocalListVersion"
  fields := [⟨"ListVersion", "listVersion".toList, false, .elem, "listVersion".toList, false⟩]
  enc := .prog [
      .simple (.lit "{".toList),
      .simple (.commaIf),
      .simple (.lit "\"listVersion\": ".toList),
      .simple (.field 0),
      .simple (.setComma),
      .simple (.lit "}".toList)]
  dec := .cases [("listVersion".toList, 0)] true ["listVersion".toList]
  xmlName := some ("urn://Ocpp/Cp/2012/06/".toList, "getLocalListVersionResponse".toList)

/-- messages/v1x/csresp/messages.go:109-114 -/
def csresp.GetLocalListVersion : Ty := .struct csresp.GetLocalListVersion.info [.int 64]

/-- messages/v1x/csresp/messages.go:117-122; json_encode.go:825-846 (MarshalJSON), 848-871 (UnmarshalJSON) -/
def csresp.RemoteStartTransaction.info : StructInfo where
  pkg := "csresp"
  name := "RemoteStartTransaction"
  fields := [⟨"Status", "status".toList, false, .elem, "status".toList, false⟩]
  enc := .prog [
      .simple (.lit "{".toList),
      .simple (.commaIf),
      .simple (.lit "\"status\": ".toList),
      .simple (.field 0),
      .simple (.setComma),
      .simple (.lit "}".toList)]
  dec := .cases [("status".toList, 0)] true ["status".toList]
  xmlName := some ("urn://Ocpp/Cp/2012/06/".toList, "remoteStartTransactionResponse".toList)

/-- messages/v1x/csresp/messages.go:117-122 -/
def csresp.RemoteStartTransaction : Ty := .struct csresp.RemoteStartTransaction.info [.str]

/-- messages/v1x/csresp/messages.go:125-130; json_encode.go:873-894 (MarshalJSON), 896-919 (UnmarshalJSON) -/
def csresp.RemoteStopTransaction.info : StructInfo where
  pkg := "csresp"
  name := "RemoteStopTransaction"
  fields := [⟨"Status", "status".toList, false, .elem, "status".toList, false⟩]
  enc := .prog [
      .simple (.lit "{".toList),
      .simple (.commaIf),
      .simple (.lit "\"status\": ".toList),
      .simple (.field 0),
      .simple (.setComma),
      .simple (.lit "}".toList)]
  dec := .cases [("status".toList, 0)] true ["status".toList]
  xmlName := some ("urn://Ocpp/Cp/2012/06/".toList, "remoteStopTransactionResponse".toList)

/-- messages/v1x/csresp/messages.go:125-130 -/
def csresp.RemoteStopTransaction : Ty := .struct csresp.RemoteStopTransaction.info [.str]

/-- messages/v1x/csresp/messages.go:133-138; json_encode.go:921-942 (MarshalJSON), 944-967 (UnmarshalJSON) -/
def csresp.ReserveNow.info : StructInfo where
  pkg := "csresp"
  name := "ReserveNow"
  fields := [⟨"Status", "status".toList, false, .elem, "status".toList, false⟩]
  enc := .prog [
      .simple (.lit "{".toList),
      .simple (.commaIf),
      .simple (.lit "\"status\": ".toList),
      .simple (.field 0),
      .simple (.setComma),
      .simple (.lit "}".toList)]
  dec := .cases [("status".toList, 0)] true ["status".toList]
  xmlName := some ("urn://Ocpp/Cp/2012/06/".toList, "reserveNowResponse".toList)

/-- messages/v1x/csresp/messages.go:133-138 -/
def csresp.ReserveNow : Ty := .struct csresp.ReserveNow.info [.str]

/-- messages/v1x/csresp/messages.go:141-146; json_encode.go:969-990 (MarshalJSON), 992-1015 (UnmarshalJSON) -/
def csresp.Reset.info : StructInfo where
  pkg := "csresp"
  name := "Reset"
  fields := [⟨"Status", "status".toList, false, .elem, "status".toList, false⟩]
  enc := .prog [
      .simple (.lit "{".toList),
      .simple (.commaIf),
      .simple (.lit "\"status\": ".toList),
      .simple (.field 0),
      .simple (.setComma),
      .simple (.lit "}".toList)]
  dec := .cases [("status".toList, 0)] true ["status".toList]
  xmlName := some ("urn://Ocpp/Cp/2012/06/".toList, "resetResponse".toList)

/-- messages/v1x/csresp/messages.go:141-146 -/
def csresp.Reset : Ty := .struct csresp.Reset.info [.str]

/-- messages/v1x/csresp/messages.go:149-154; json_encode.go:1017-1038 (MarshalJSON), 1040-1063 (UnmarshalJSON) -/
def csresp.SendLocalList.info : StructInfo where
  pkg := "csresp"
  name := "SendLocalList"
  fields := [⟨"Status", "status".toList, false, .elem, "status".toList, false⟩]
  enc := .prog [
      .simple (.lit "{".toList),
      .simple (.commaIf),
      .simple (.lit "\"status\": ".toList),
      .simple (.field 0),
      .simple (.setComma),
      .simple (.lit "}".toList)]
  dec := .cases [("status".toList, 0)] true ["status".toList]
  xmlName := some ("urn://Ocpp/Cp/2012/06/".toList, "sendLocalListResponse".toList)

/-- messages/v1x/csresp/messages.go:149-154 -/
def csresp.SendLocalList : Ty := .struct csresp.SendLocalList.info [.str]

/-- messages/v1x/csresp/messages.go:157-162; json_encode.go:1113-1134 (MarshalJSON), 1136-1159 (UnmarshalJSON) -/
def csresp.TriggerMessage.info : StructInfo where
  pkg := "csresp"
  name := "TriggerMessage"
  fields := [⟨"Status", "status".toList, false, .elem, "status".toList, false⟩]
  enc := .prog [
      .simple (.lit "{".toList),
      .simple (.commaIf),
      .simple (.lit "\"status\": ".toList),
      .simple (.field 0),
      .simple (.setComma),
      .simple (.lit "}".toList)]
  dec := .cases [("status".toList, 0)] true ["status".toList]
  xmlName := some ("urn://Ocpp/Cp/2012/06/".toList, "triggerMessageResponse".toList)

/-- messages/v1x/csresp/messages.go:157-162 -/
def csresp.TriggerMessage : Ty := .struct csresp.TriggerMessage.info [.str]

/-- messages/v1x/csresp/messages.go:165-170; json_encode.go:1161-1182 (MarshalJSON), 1184-1207 (UnmarshalJSON) -/
def csresp.UnlockConnector.info : StructInfo where
  pkg := "csresp"
  name := "UnlockConnector"
  fields := [⟨"Status", "status".toList, false, .elem, "status".toList, false⟩]
  enc := .prog [
      .simple (.lit "{".toList),
      .simple (.commaIf),
      .simple (.lit "\"status\": ".toList),
      .simple (.field 0),
      .simple (.setComma),
      .simple (.lit "}".toList)]
  dec := .cases [("status".toList, 0)] true ["status".toList]
  xmlName := some ("urn://Ocpp/Cp/2012/06/".toList, "unlockConnectorResponse".toList)

/-- messages/v1x/csresp/messages.go:165-170 -/
def csresp.UnlockConnector : Ty := .struct csresp.UnlockConnector.info [.str]

/-- messages/v1x/csresp/messages.go:173-176; json_encode.go:1209-1216 (MarshalJSON), 1218-1231 (UnmarshalJSON) -/
def csresp.UpdateFirmware.info : StructInfo where
  pkg := "csresp"
  name := "UpdateFirmware"
  fields := []
  enc := .prog [
      .simple (.lit "{".toList),
      .simple (.lit "}".toList)]
  dec := .cases [] true []
  xmlName := some ("urn://Ocpp/Cp/2012/06/".toList, "updateFirmwareResponse".toList)

/-- messages/v1x/csresp/messages.go:173-176 -/
def csresp.UpdateFirmware : Ty := .struct csresp.UpdateFirmware.info []

/-- messages/v1x/csresp/messages.go:179-184; json_encode.go:1065-1086 (MarshalJSON), 1088-1111 (UnmarshalJSON) -/
def csresp.SetChargingProfile.info : StructInfo where
  pkg := "csresp"
  name := "SetChargingProfile"
  fields := [⟨"Status", "status".toList, false, .elem, "status".toList, false⟩]
  enc := .prog [
      .simple (.lit "{".toList),
      .simple (.commaIf),
      .simple (.lit "\"status\": ".toList),
      .simple (.field 0),
      .simple (.setComma),
      .simple (.lit "}".toList)]
  dec := .cases [("status".toList, 0)] true ["status".toList]
  xmlName := some ("urn://Ocpp/Cp/2012/06/".toList, "setChargingProfileResponse".toList)

/-- messages/v1x/csresp/messages.go:179-184 -/
def csresp.SetChargingProfile : Ty := .struct csresp.SetChargingProfile.info [.str]

/-- The request types: the structs of messages/v1x/cpreq/messages.go and csreq/messages.go that embed
`chargepointRequest` or `centralSystemRequest`. -/
inductive ReqType where
  | cpreqAuthorize
  | cpreqBootNotification
  | cpreqDataTransfer
  | cpreqDiagnosticsStatusNotification
  | cpreqFirmwareStatusNotification
  | cpreqHeartbeat
  | cpreqMeterValues
  | cpreqStartTransaction
  | cpreqStatusNotification
  | cpreqStopTransaction
  | csreqCancelReservation
  | csreqChangeAvailability
  | csreqChangeConfiguration
  | csreqClearCache
  | csreqClearChargingProfile
  | csreqDataTransfer
  | csreqGetCompositeSchedule
  | csreqGetConfiguration
  | csreqGetDiagnostics
  | csreqGetLocalListVersion
  | csreqRemoteStartTransaction
  | csreqRemoteStopTransaction
  | csreqReserveNow
  | csreqReset
  | csreqSendLocalList
  | csreqTriggerMessage
  | csreqUnlockConnector
  | csreqUpdateFirmware
  | csreqSetChargingProfile
  deriving DecidableEq, Repr

/-- The response types of messages/v1x/cpresp/messages.go and csresp/messages.go. -/
inductive RespType where
  | cprespAuthorize
  | cprespBootNotification
  | cprespDataTransfer
  | cprespDiagnosticsStatusNotification
  | cprespFirmwareStatusNotification
  | cprespHeartbeat
  | cprespMeterValues
  | cprespStartTransaction
  | cprespStatusNotification
  | cprespStopTransaction
  | csrespCancelReservation
  | csrespChangeAvailability
  | csrespChangeConfiguration
  | csrespClearCache
  | csrespClearChargingProfile
  | csrespDataTransfer
  | csrespGetCompositeSchedule
  | csrespGetConfiguration
  | csrespGetDiagnostics
  | csrespGetLocalListVersion
  | csrespRemoteStartTransaction
  | csrespRemoteStopTransaction
  | csrespReserveNow
  | csrespReset
  | csrespSendLocalList
  | csrespTriggerMessage
  | csrespUnlockConnector
  | csrespUpdateFirmware
  | csrespSetChargingProfile
  deriving DecidableEq, Repr

/-- The struct behind a request type. -/
def ReqType.ty : ReqType → Ty
  | .cpreqAuthorize => cpreq.Authorize
  | .cpreqBootNotification => cpreq.BootNotification
  | .cpreqDataTransfer => cpreq.DataTransfer
  | .cpreqDiagnosticsStatusNotification => cpreq.DiagnosticsStatusNotification
  | .cpreqFirmwareStatusNotification => cpreq.FirmwareStatusNotification
  | .cpreqHeartbeat => cpreq.Heartbeat
  | .cpreqMeterValues => cpreq.MeterValues
  | .cpreqStartTransaction => cpreq.StartTransaction
  | .cpreqStatusNotification => cpreq.StatusNotification
  | .cpreqStopTransaction => cpreq.StopTransaction
  | .csreqCancelReservation => csreq.CancelReservation
  | .csreqChangeAvailability => csreq.ChangeAvailability
  | .csreqChangeConfiguration => csreq.ChangeConfiguration
  | .csreqClearCache => csreq.ClearCache
  | .csreqClearChargingProfile => csreq.ClearChargingProfile
  | .csreqDataTransfer => csreq.DataTransfer
  | .csreqGetCompositeSchedule => csreq.GetCompositeSchedule
  | .csreqGetConfiguration => csreq.GetConfiguration
  | .csreqGetDiagnostics => csreq.GetDiagnostics
  | .csreqGetLocalListVersion => csreq.GetLocalListVersion
  | .csreqRemoteStartTransaction => csreq.RemoteStartTransaction
  | .csreqRemoteStopTransaction => csreq.RemoteStopTransaction
  | .csreqReserveNow => csreq.ReserveNow
  | .csreqReset => csreq.Reset
  | .csreqSendLocalList => csreq.SendLocalList
  | .csreqTriggerMessage => csreq.TriggerMessage
  | .csreqUnlockConnector => csreq.UnlockConnector
  | .csreqUpdateFirmware => csreq.UpdateFirmware
  | .csreqSetChargingProfile => csreq.SetChargingProfile

/-- The struct behind a response type. -/
def RespType.ty : RespType → Ty
  | .cprespAuthorize => cpresp.Authorize
  | .cprespBootNotification => cpresp.BootNotification
  | .cprespDataTransfer => cpresp.DataTransfer
  | .cprespDiagnosticsStatusNotification => cpresp.DiagnosticsStatusNotification
  | .cprespFirmwareStatusNotification => cpresp.FirmwareStatusNotification
  | .cprespHeartbeat => cpresp.Heartbeat
  | .cprespMeterValues => cpresp.MeterValues
  | .cprespStartTransaction => cpresp.StartTransaction
  | .cprespStatusNotification => cpresp.StatusNotification
  | .cprespStopTransaction => cpresp.StopTransaction
  | .csrespCancelReservation => csresp.CancelReservation
  | .csrespChangeAvailability => csresp.ChangeAvailability
  | .csrespChangeConfiguration => csresp.ChangeConfiguration
  | .csrespClearCache => csresp.ClearCache
  | .csrespClearChargingProfile => csresp.ClearChargingProfile
  | .csrespDataTransfer => csresp.DataTransfer
  | .csrespGetCompositeSchedule => csresp.GetCompositeSchedule
  | .csrespGetConfiguration => csresp.GetConfiguration
  | .csrespGetDiagnostics => csresp.GetDiagnostics
  | .csrespGetLocalListVersion => csresp.GetLocalListVersion
  | .csrespRemoteStartTransaction => csresp.RemoteStartTransaction
  | .csrespRemoteStopTransaction => csresp.RemoteStopTransaction
  | .csrespReserveNow => csresp.ReserveNow
  | .csrespReset => csresp.Reset
  | .csrespSendLocalList => csresp.SendLocalList
  | .csrespTriggerMessage => csresp.TriggerMessage
  | .csrespUnlockConnector => csresp.UnlockConnector
  | .csrespUpdateFirmware => csresp.UpdateFirmware
  | .csrespSetChargingProfile => csresp.SetChargingProfile

/-- `Action()`: messages/v1x/cpreq/messages.go:144-153, csreq/messages.go:240-258. -/
def ReqType.action : ReqType → Text
  | .cpreqAuthorize => "Authorize".toList
  | .cpreqBootNotification => "BootNotification".toList
  | .cpreqDataTransfer => "DataTransfer".toList
  | .cpreqDiagnosticsStatusNotification => "DiagnosticsStatusNotification".toList
  | .cpreqFirmwareStatusNotification => "FirmwareStatusNotification".toList
  | .cpreqHeartbeat => "Heartbeat".toList
  | .cpreqMeterValues => "MeterValues".toList
  | .cpreqStartTransaction => "StartTransaction".toList
  | .cpreqStatusNotification => "StatusNotification".toList
  | .cpreqStopTransaction => "StopTransaction".toList
  | .csreqCancelReservation => "CancelReservation".toList
  | .csreqChangeAvailability => "ChangeAvailability".toList
  | .csreqChangeConfiguration => "ChangeConfiguration".toList
  | .csreqClearCache => "ClearCache".toList
  | .csreqClearChargingProfile => "ClearChargingProfile".toList
  | .csreqDataTransfer => "DataTransfer".toList
  | .csreqGetCompositeSchedule => "GetCompositeSchedule".toList
  | .csreqGetConfiguration => "GetConfiguration".toList
  | .csreqGetDiagnostics => "GetDiagnostics".toList
  | .csreqGetLocalListVersion => "GetLocalListVersion".toList
  | .csreqRemoteStartTransaction => "RemoteStartTransaction".toList
  | .csreqRemoteStopTransaction => "RemoteStopTransaction".toList
  | .csreqReserveNow => "ReserveNow".toList
  | .csreqReset => "Reset".toList
  | .csreqSendLocalList => "SendLocalList".toList
  | .csreqTriggerMessage => "TriggerMessage".toList
  | .csreqUnlockConnector => "UnlockConnector".toList
  | .csreqUpdateFirmware => "UpdateFirmware".toList
  | .csreqSetChargingProfile => "SetChargingProfile".toList

/-- `GetResponse()`: messages/v1x/cpreq/messages.go:155-, csreq/messages.go:260-. -/
def ReqType.response : ReqType → RespType
  | .cpreqAuthorize => .cprespAuthorize
  | .cpreqBootNotification => .cprespBootNotification
  | .cpreqDataTransfer => .cprespDataTransfer
  | .cpreqDiagnosticsStatusNotification => .cprespDiagnosticsStatusNotification
  | .cpreqFirmwareStatusNotification => .cprespFirmwareStatusNotification
  | .cpreqHeartbeat => .cprespHeartbeat
  | .cpreqMeterValues => .cprespMeterValues
  | .cpreqStartTransaction => .cprespStartTransaction
  | .cpreqStatusNotification => .cprespStatusNotification
  | .cpreqStopTransaction => .cprespStopTransaction
  | .csreqCancelReservation => .csrespCancelReservation
  | .csreqChangeAvailability => .csrespChangeAvailability
  | .csreqChangeConfiguration => .csrespChangeConfiguration
  | .csreqClearCache => .csrespClearCache
  | .csreqClearChargingProfile => .csrespClearChargingProfile
  | .csreqDataTransfer => .csrespDataTransfer
  | .csreqGetCompositeSchedule => .csrespGetCompositeSchedule
  | .csreqGetConfiguration => .csrespGetConfiguration
  | .csreqGetDiagnostics => .csrespGetDiagnostics
  | .csreqGetLocalListVersion => .csrespGetLocalListVersion
  | .csreqRemoteStartTransaction => .csrespRemoteStartTransaction
  | .csreqRemoteStopTransaction => .csrespRemoteStopTransaction
  | .csreqReserveNow => .csrespReserveNow
  | .csreqReset => .csrespReset
  | .csreqSendLocalList => .csrespSendLocalList
  | .csreqTriggerMessage => .csrespTriggerMessage
  | .csreqUnlockConnector => .csrespUnlockConnector
  | .csreqUpdateFirmware => .csrespUpdateFirmware
  | .csreqSetChargingProfile => .csrespSetChargingProfile

/-- Does the type have the method `IsChargePointRequest` (embeds `chargepointRequest`, cpreq/cpreq.go:10-17), as opposed to
`IsCentralSystemRequest` (csreq/csreq.go:10-17)? -/
def ReqType.isChargePoint : ReqType → Bool
  | .cpreqAuthorize => true
  | .cpreqBootNotification => true
  | .cpreqDataTransfer => true
  | .cpreqDiagnosticsStatusNotification => true
  | .cpreqFirmwareStatusNotification => true
  | .cpreqHeartbeat => true
  | .cpreqMeterValues => true
  | .cpreqStartTransaction => true
  | .cpreqStatusNotification => true
  | .cpreqStopTransaction => true
  | .csreqCancelReservation => false
  | .csreqChangeAvailability => false
  | .csreqChangeConfiguration => false
  | .csreqClearCache => false
  | .csreqClearChargingProfile => false
  | .csreqDataTransfer => false
  | .csreqGetCompositeSchedule => false
  | .csreqGetConfiguration => false
  | .csreqGetDiagnostics => false
  | .csreqGetLocalListVersion => false
  | .csreqRemoteStartTransaction => false
  | .csreqRemoteStopTransaction => false
  | .csreqReserveNow => false
  | .csreqReset => false
  | .csreqSendLocalList => false
  | .csreqTriggerMessage => false
  | .csreqUnlockConnector => false
  | .csreqUpdateFirmware => false
  | .csreqSetChargingProfile => false

/-- Does the type have the method `IsChargePointResponse` (embeds `chargepointResponse`, cpresp/cpresp.go:10-17), as opposed to
`IsCentralSystemResponse` (csresp/csresp.go:10-17)? -/
def RespType.isChargePoint : RespType → Bool
  | .cprespAuthorize => true
  | .cprespBootNotification => true
  | .cprespDataTransfer => true
  | .cprespDiagnosticsStatusNotification => true
  | .cprespFirmwareStatusNotification => true
  | .cprespHeartbeat => true
  | .cprespMeterValues => true
  | .cprespStartTransaction => true
  | .cprespStatusNotification => true
  | .cprespStopTransaction => true
  | .csrespCancelReservation => false
  | .csrespChangeAvailability => false
  | .csrespChangeConfiguration => false
  | .csrespClearCache => false
  | .csrespClearChargingProfile => false
  | .csrespDataTransfer => false
  | .csrespGetCompositeSchedule => false
  | .csrespGetConfiguration => false
  | .csrespGetDiagnostics => false
  | .csrespGetLocalListVersion => false
  | .csrespRemoteStartTransaction => false
  | .csrespRemoteStopTransaction => false
  | .csrespReserveNow => false
  | .csrespReset => false
  | .csrespSendLocalList => false
  | .csrespTriggerMessage => false
  | .csrespUnlockConnector => false
  | .csrespUpdateFirmware => false
  | .csrespSetChargingProfile => false

/-- All request types. -/
def ReqType.all : List ReqType := [.cpreqAuthorize, .cpreqBootNotification, .cpreqDataTransfer, .cpreqDiagnosticsStatusNotification, .cpreqFirmwareStatusNotification, .cpreqHeartbeat, .cpreqMeterValues, .cpreqStartTransaction, .cpreqStatusNotification, .cpreqStopTransaction, .csreqCancelReservation, .csreqChangeAvailability, .csreqChangeConfiguration, .csreqClearCache, .csreqClearChargingProfile, .csreqDataTransfer, .csreqGetCompositeSchedule, .csreqGetConfiguration, .csreqGetDiagnostics, .csreqGetLocalListVersion, .csreqRemoteStartTransaction, .csreqRemoteStopTransaction, .csreqReserveNow, .csreqReset, .csreqSendLocalList, .csreqTriggerMessage, .csreqUnlockConnector, .csreqUpdateFirmware, .csreqSetChargingProfile]

/-- All response types. -/
def RespType.all : List RespType := [.cprespAuthorize, .cprespBootNotification, .cprespDataTransfer, .cprespDiagnosticsStatusNotification, .cprespFirmwareStatusNotification, .cprespHeartbeat, .cprespMeterValues, .cprespStartTransaction, .cprespStatusNotification, .cprespStopTransaction, .csrespCancelReservation, .csrespChangeAvailability, .csrespChangeConfiguration, .csrespClearCache, .csrespClearChargingProfile, .csrespDataTransfer, .csrespGetCompositeSchedule, .csrespGetConfiguration, .csrespGetDiagnostics, .csrespGetLocalListVersion, .csrespRemoteStartTransaction, .csrespRemoteStopTransaction, .csrespReserveNow, .csrespReset, .csrespSendLocalList, .csrespTriggerMessage, .csrespUnlockConnector, .csrespUpdateFirmware, .csrespSetChargingProfile]

/-- `FromActionName`, messages/req/actions.go:9-74; `none` is the nil interface. -/
def reqFromActionTable : List (Text × ReqType) := [
  ("Authorize".toList, .cpreqAuthorize),
  ("BootNotification".toList, .cpreqBootNotification),
  ("DiagnosticsStatusNotification".toList, .cpreqDiagnosticsStatusNotification),
  ("FirmwareStatusNotification".toList, .cpreqFirmwareStatusNotification),
  ("Heartbeat".toList, .cpreqHeartbeat),
  ("MeterValues".toList, .cpreqMeterValues),
  ("StartTransaction".toList, .cpreqStartTransaction),
  ("StatusNotification".toList, .cpreqStatusNotification),
  ("StopTransaction".toList, .cpreqStopTransaction),
  ("CancelReservation".toList, .csreqCancelReservation),
  ("ChangeAvailability".toList, .csreqChangeAvailability),
  ("ChangeConfiguration".toList, .csreqChangeConfiguration),
  ("ClearCache".toList, .csreqClearCache),
  ("ClearChargingProfile".toList, .csreqClearChargingProfile),
  ("GetCompositeSchedule".toList, .csreqGetCompositeSchedule),
  ("GetConfiguration".toList, .csreqGetConfiguration),
  ("GetDiagnostics".toList, .csreqGetDiagnostics),
  ("GetLocalListVersion".toList, .csreqGetLocalListVersion),
  ("RemoteStartTransaction".toList, .csreqRemoteStartTransaction),
  ("RemoteStopTransaction".toList, .csreqRemoteStopTransaction),
  ("ReserveNow".toList, .csreqReserveNow),
  ("Reset".toList, .csreqReset),
  ("SendLocalList".toList, .csreqSendLocalList),
  ("TriggerMessage".toList, .csreqTriggerMessage),
  ("UnlockConnector".toList, .csreqUnlockConnector),
  ("UpdateFirmware".toList, .csreqUpdateFirmware),
  ("SetChargingProfile".toList, .csreqSetChargingProfile)]

/-- `FromActionName`, messages/req/actions.go:9-74. -/
def reqFromAction (action : Text) : Option ReqType := reqFromActionTable.lookup action

/-- `FromActionName`, messages/res/actions.go:9-74; `none` is the nil interface. -/
def resFromActionTable : List (Text × RespType) := [
  ("CancelReservation".toList, .csrespCancelReservation),
  ("ChangeAvailability".toList, .csrespChangeAvailability),
  ("ChangeConfiguration".toList, .csrespChangeConfiguration),
  ("ClearCache".toList, .csrespClearCache),
  ("ClearChargingProfile".toList, .csrespClearChargingProfile),
  ("GetCompositeSchedule".toList, .csrespGetCompositeSchedule),
  ("GetConfiguration".toList, .csrespGetConfiguration),
  ("GetDiagnostics".toList, .csrespGetDiagnostics),
  ("GetLocalListVersion".toList, .csrespGetLocalListVersion),
  ("RemoteStartTransaction".toList, .csrespRemoteStartTransaction),
  ("RemoteStopTransaction".toList, .csrespRemoteStopTransaction),
  ("ReserveNow".toList, .csrespReserveNow),
  ("Reset".toList, .csrespReset),
  ("SendLocalList".toList, .csrespSendLocalList),
  ("TriggerMessage".toList, .csrespTriggerMessage),
  ("UnlockConnector".toList, .csrespUnlockConnector),
  ("UpdateFirmware".toList, .csrespUpdateFirmware),
  ("SetChargingProfile".toList, .csrespSetChargingProfile),
  ("Authorize".toList, .cprespAuthorize),
  ("BootNotification".toList, .cprespBootNotification),
  ("DiagnosticsStatusNotification".toList, .cprespDiagnosticsStatusNotification),
  ("FirmwareStatusNotification".toList, .cprespFirmwareStatusNotification),
  ("Heartbeat".toList, .cprespHeartbeat),
  ("MeterValues".toList, .cprespMeterValues),
  ("StartTransaction".toList, .cprespStartTransaction),
  ("StatusNotification".toList, .cprespStatusNotification),
  ("StopTransaction".toList, .cprespStopTransaction)]

/-- `FromActionName`, messages/res/actions.go:9-74. -/
def resFromAction (action : Text) : Option RespType := resFromActionTable.lookup action

end Verif
