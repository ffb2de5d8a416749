import Verif.Lemmas.WsdlTypes
import Verif.Props.SoapDoc
/-!
# Messages sent over SOAP, against the WSDL files of OCPP 1.5
-/
namespace Verif.Soap
open Xml Ocppj

theorem noWsdl {G : FloatText} {m : MsgType} {v : Val} (h : m.wsdl = none) :
    (∃ decl, m.wsdl = some decl ∧ XValid decl (rendered G m v)) → False := by
  rintro ⟨_, h', -⟩
  rw [h] at h'
  cases h'

theorem req_ok (G : FloatText) (r : ReqType) {vs : List Val} (hv : HasTy r.ty (.struct vs)) (hp : Val.TimesAlls GoTime.Plain vs) :
    (∃ decl, (MsgType.req r).wsdl = some decl ∧ XValid decl (rendered G (.req r) (.struct vs))) ↔ ReqOk r vs := by
  match r with
  | .cpreqAuthorize => exact ok_cpreqAuthorize G hv hp
  | .cpreqBootNotification => exact ok_cpreqBootNotification G hv hp
  | .cpreqDataTransfer => exact ok_cpreqDataTransfer G hv hp
  | .cpreqDiagnosticsStatusNotification => exact ok_cpreqDiagnosticsStatusNotification G hv hp
  | .cpreqFirmwareStatusNotification => exact ok_cpreqFirmwareStatusNotification G hv hp
  | .cpreqHeartbeat => exact ok_cpreqHeartbeat G hv hp
  | .cpreqMeterValues => exact ok_cpreqMeterValues G hv hp
  | .cpreqStartTransaction => exact ok_cpreqStartTransaction G hv hp
  | .cpreqStatusNotification => exact ok_cpreqStatusNotification G hv hp
  | .cpreqStopTransaction => exact ok_cpreqStopTransaction G hv hp
  | .csreqCancelReservation => exact ok_csreqCancelReservation G hv hp
  | .csreqChangeAvailability => exact ok_csreqChangeAvailability G hv hp
  | .csreqChangeConfiguration => exact ok_csreqChangeConfiguration G hv hp
  | .csreqClearCache => exact ok_csreqClearCache G hv hp
  | .csreqClearChargingProfile => exact ⟨fun h => (noWsdl rfl h).elim, fun h => h.elim⟩
  | .csreqDataTransfer => exact ok_csreqDataTransfer G hv hp
  | .csreqGetCompositeSchedule => exact ⟨fun h => (noWsdl rfl h).elim, fun h => h.elim⟩
  | .csreqGetConfiguration => exact ok_csreqGetConfiguration G hv hp
  | .csreqGetDiagnostics => exact ok_csreqGetDiagnostics G hv hp
  | .csreqGetLocalListVersion => exact ok_csreqGetLocalListVersion G hv hp
  | .csreqRemoteStartTransaction => exact ok_csreqRemoteStartTransaction G hv hp
  | .csreqRemoteStopTransaction => exact ok_csreqRemoteStopTransaction G hv hp
  | .csreqReserveNow => exact ok_csreqReserveNow G hv hp
  | .csreqReset => exact ok_csreqReset G hv hp
  | .csreqSendLocalList => exact ok_csreqSendLocalList G hv hp
  | .csreqTriggerMessage => exact ⟨fun h => (noWsdl rfl h).elim, fun h => h.elim⟩
  | .csreqUnlockConnector => exact ok_csreqUnlockConnector G hv hp
  | .csreqUpdateFirmware => exact ok_csreqUpdateFirmware G hv hp
  | .csreqSetChargingProfile => exact ⟨fun h => (noWsdl rfl h).elim, fun h => h.elim⟩

theorem resp_ok (G : FloatText) (r : RespType) {vs : List Val} (hv : HasTy r.ty (.struct vs)) (hp : Val.TimesAlls GoTime.Plain vs) :
    (∃ decl, (MsgType.resp r).wsdl = some decl ∧ XValid decl (rendered G (.resp r) (.struct vs))) ↔ RespOk G r vs := by
  match r with
  | .cprespAuthorize => exact ok_cprespAuthorize G hv hp
  | .cprespBootNotification => exact ok_cprespBootNotification G hv hp
  | .cprespDataTransfer => exact ok_cprespDataTransfer G hv hp
  | .cprespDiagnosticsStatusNotification => exact ok_cprespDiagnosticsStatusNotification G hv hp
  | .cprespFirmwareStatusNotification => exact ok_cprespFirmwareStatusNotification G hv hp
  | .cprespHeartbeat => exact ok_cprespHeartbeat G hv hp
  | .cprespMeterValues => exact ok_cprespMeterValues G hv hp
  | .cprespStartTransaction => exact ok_cprespStartTransaction G hv hp
  | .cprespStatusNotification => exact ok_cprespStatusNotification G hv hp
  | .cprespStopTransaction => exact ok_cprespStopTransaction G hv hp
  | .csrespCancelReservation => exact ok_csrespCancelReservation G hv hp
  | .csrespChangeAvailability => exact ok_csrespChangeAvailability G hv hp
  | .csrespChangeConfiguration => exact ok_csrespChangeConfiguration G hv hp
  | .csrespClearCache => exact ok_csrespClearCache G hv hp
  | .csrespClearChargingProfile => exact ⟨fun h => (noWsdl rfl h).elim, fun h => h.elim⟩
  | .csrespDataTransfer => exact ok_csrespDataTransfer G hv hp
  | .csrespGetCompositeSchedule => exact ⟨fun h => (noWsdl rfl h).elim, fun h => h.elim⟩
  | .csrespGetConfiguration => exact ok_csrespGetConfiguration G hv hp
  | .csrespGetDiagnostics => exact ok_csrespGetDiagnostics G hv hp
  | .csrespGetLocalListVersion => exact ok_csrespGetLocalListVersion G hv hp
  | .csrespRemoteStartTransaction => exact ok_csrespRemoteStartTransaction G hv hp
  | .csrespRemoteStopTransaction => exact ok_csrespRemoteStopTransaction G hv hp
  | .csrespReserveNow => exact ok_csrespReserveNow G hv hp
  | .csrespReset => exact ok_csrespReset G hv hp
  | .csrespSendLocalList => exact ok_csrespSendLocalList G hv hp
  | .csrespTriggerMessage => exact ⟨fun h => (noWsdl rfl h).elim, fun h => h.elim⟩
  | .csrespUnlockConnector => exact ok_csrespUnlockConnector G hv hp
  | .csrespUpdateFirmware => exact ok_csrespUpdateFirmware G hv hp
  | .csrespSetChargingProfile => exact ⟨fun h => (noWsdl rfl h).elim, fun h => h.elim⟩

/-- **C73** The element of a message is valid against the WSDL file exactly for the values listed. -/
theorem C73_iff (G : FloatText) (m : MsgType) {v : Val} (hv : HasTy m.ty v) (hp : v.TimesAll GoTime.Plain) :
    (∃ decl, m.wsdl = some decl ∧ XValid decl (rendered G m v)) ↔ MsgOk G m v := by
  obtain ⟨vs, rfl⟩ : ∃ vs, v = .struct vs := by
    obtain ⟨info, ts, h⟩ : ∃ info ts, m.ty = .struct info ts := by
      cases m with
      | req r => cases r <;> exact ⟨_, _, rfl⟩
      | resp r => cases r <;> exact ⟨_, _, rfl⟩
    rw [h] at hv
    cases v <;> first | exact ⟨_, rfl⟩ | exact absurd hv (by simp [HasTy])
  cases m with
  | req r => exact req_ok G r hv hp
  | resp r => exact resp_ok G r hv hp

/-- **C73** What `Send` posts is a document with a message in its body; the message is valid against the WSDL file exactly if the request is
one of those listed. -/
theorem C73_request (G : FloatText) (url msgId sender identity : Text) (hu : url ≠ []) (r : Req) (hv : HasTy r.type.ty r.val)
    (hp : r.val.TimesAll GoTime.Plain) : ∃ body i, posted G url msgId sender identity r = .ok body ∧
      SoapDoc body (requestInfo (cleanText url) (cleanText ('/' :: r.type.action)) (cleanText msgId) (cleanText sender) (cleanText identity) i) ∧
      ((∃ decl, r.type.wsdl = some decl ∧ XValid decl i) ↔ MsgOk G (.req r.type) r.val) := by
  obtain ⟨body, h1, h2, -⟩ := C71_request G url msgId sender identity hu r hv hp
  exact ⟨body, _, h1, h2, C73_iff G (.req r.type) hv hp⟩

/-- **C73** The same for the response of a server. -/
theorem C73_response (G : FloatText) (r : Resp) (err : Option Text) (hv : HasTy r.type.ty r.val) (hp : r.val.TimesAll GoTime.Plain) :
    ∃ body i, encodeReply G (some r) err = .ok body ∧ SoapDoc body (replyInfo [i] (err.map cleanText)) ∧
      ((∃ decl, r.type.wsdl = some decl ∧ XValid decl i) ↔ MsgOk G (.resp r.type) r.val) := by
  obtain ⟨body, h1, h2, -⟩ := C71_response G r err hv hp
  exact ⟨body, _, h1, h2, C73_iff G (.resp r.type) hv hp⟩

/-- **C73** Some messages are valid for no value: a charge point cannot boot, report its status, or start and stop a transaction with a
central system that validates. -/
theorem C73_never (G : FloatText) {m : MsgType} (hm : m ∈ [.req .cpreqBootNotification, .req .cpreqStartTransaction, .req .cpreqStatusNotification,
      .req .cpreqStopTransaction, .resp .cprespStartTransaction, .resp .cprespDataTransfer, .req .csreqSendLocalList, .req .csreqUpdateFirmware])
    {v : Val} (hv : HasTy m.ty v) (hp : v.TimesAll GoTime.Plain) : ∃ decl, m.wsdl = some decl ∧ ¬ XValid decl (rendered G m v) := by
  have h := C73_iff G m hv hp
  have hf : ¬ MsgOk G m v ∧ ∃ decl, m.wsdl = some decl := by
    simp only [List.mem_cons, List.not_mem_nil, or_false] at hm
    rcases hm with rfl | rfl | rfl | rfl | rfl | rfl | rfl | rfl <;>
      (refine ⟨?_, _, rfl⟩; cases v <;> exact id)
  obtain ⟨hf, decl, hd⟩ := hf
  exact ⟨decl, hd, fun hx => hf (h.1 ⟨decl, hd, hx⟩)⟩

/-! ### They apply -/

/-- A request to reserve a connector is valid. -/
def reserve : Val := .struct [.int 2, .time ⟨1600000000, 0, 7200⟩, .str "TAG".toList, .str [], .int 17]

theorem reserve_ok (G : FloatText) : HasTy ReqType.csreqReserveNow.ty reserve ∧ reserve.TimesAll GoTime.Plain ∧ MsgOk G (.req .csreqReserveNow) reserve := by
  refine ⟨?_, ?_, ?_⟩
  · show HasTys [.int 64, .time, .str, .str, .int 64] _
    simp only [HasTys, HasTy]
    decide
  · refine ⟨trivial, ?_, trivial, trivial, trivial, trivial⟩
    exact ⟨by decide, by decide, by decide, by decide⟩
  · show Int32 2 ∧ DateOk _ ∧ _ ∧ _ ∧ Int32 17
    unfold Int32 DateOk
    decide

example (G : FloatText) : ∃ decl, ReqType.csreqReserveNow.wsdl = some decl ∧ XValid decl (rendered G (.req .csreqReserveNow) reserve) :=
  (C73_iff G (.req .csreqReserveNow) (reserve_ok G).1 (reserve_ok G).2.1).2 (reserve_ok G).2.2

/-- A boot notification is not, whatever its fields. -/
example (G : FloatText) : ∃ decl, ReqType.cpreqBootNotification.wsdl = some decl ∧ ¬ XValid decl (rendered G (.req .cpreqBootNotification)
    (.struct [.str [], .str "Model".toList, .str [], .str "Vendor".toList, .str [], .str [], .str [], .str [], .str []])) :=
  C73_never G (m := .req .cpreqBootNotification) (by simp) (by show HasTys [.str, .str, .str, .str, .str, .str, .str, .str, .str] _; simp [HasTys, HasTy])
    (by simp [Val.TimesAll, Val.TimesAlls])

end Verif.Soap
