import Verif.Lemmas.WsdlSent
/-! # What is sent, against the WSDL files, type by type -/
set_option linter.unusedSimpArgs false
set_option linter.unusedVariables false
namespace Verif.Soap
open Xml Json

theorem oneOf_ne (l : List String) (hl : l.all (fun e => decide (e.toList ≠ [])) = true) (s : Text) : OneOf l s → s ≠ [] := by
  rintro h rfl
  obtain ⟨e, he, h⟩ := List.mem_map.1 h
  have := List.all_eq_true.1 hl e he
  simp only [decide_eq_true_eq] at this
  exact this h

theorem lexical_string (t : Text) : XSimple.string.Lexical t ↔ True := Iff.rfl
theorem lexical_uri (t : Text) : XSimple.uri.Lexical t ↔ True := Iff.rfl

/-- A pointer to a struct is left out only if it is nil. -/
theorem ptr_nil (G : FloatText) (D : Text) (t : Ty) {a : Val} (ht : (match t with | .struct _ _ => true | _ => false) = true) (hv : HasTy (.ptr t) a)
    (n : Text) (om : Bool) : render G D (.ptr t) n om a = [] ↔ a = Val.nil := by
  cases t <;> first | cases ht | skip
  cases a with
  | nil => simp [render]
  | ptr v =>
    cases v with
    | struct vs => simp [render]
    | _ => simp [HasTy] at hv
  | _ => simp [HasTy] at hv

theorem slice_str_each (G : FloatText) (D n : Text) (om : Bool) (v : Val) :
    (∀ k ∈ render G D (.slice .str) n om v, OfType D (.simple .string) k.attrs k.data k.kids) ↔ True := by
  simp only [iff_true]
  intro k hk
  cases v <;> simp only [render, List.not_mem_nil, List.mem_flatMap] at hk
  obtain ⟨v, -, hk⟩ := hk
  split at hk
  · cases hk
  · simp only [List.mem_singleton] at hk
    subst hk
    exact ⟨rfl, rfl, trivial⟩

theorem each_single (D : Text) (T : XType) (n : XName) (as : List (XName × Text)) (d : Text) (ks : List Info) :
    (∀ k ∈ [Info.elem n as d ks], OfType D T k.attrs k.data k.kids) ↔ OfType D T as d ks := by
  simp only [List.mem_singleton, forall_eq]
  exact Iff.rfl

set_option maxRecDepth 8000 in
theorem ok_cpreqAuthorize (G : FloatText) {vs : List Val} (hv : HasTys [.str] vs) (hp : Val.TimesAlls GoTime.Plain vs) :
    (∃ decl, (MsgType.req .cpreqAuthorize).wsdl = some decl ∧ XValid decl (rendered G (.req .cpreqAuthorize) (.struct vs))) ↔ ReqOk .cpreqAuthorize vs := by
  obtain ⟨D, nm, h⟩ := rendered_iff G (m := .req .cpreqAuthorize) rfl hv rfl (by decide) (by decide) (by decide) (by decide) (by decide)
    (l := [.some 0, .one 0, .each 0 (.simple (.max 20))]) (by decide) (oms := [true]) (by decide)
  rw [h]; clear h
  match vs, hv, hp with
  | [.str a], hv, hp =>
    change _ ↔ a ≠ [] ∧ a.length ≤ 20
    simp only [blocksAt, List.forall_mem_cons, Need.Holds, pick_zero, pick_succ, render_str, render_int, render_float, render_bool, render_time,
      scalar_nil, scalar_one, scalar_each, Bool.false_eq_true, false_and, true_and, and_true, false_or, or_false, or_true, true_or, scalarText, Blank,
      List.isEmpty_iff, beq_iff_eq, ne_eq, lexical_string, lexical_uri, lexical_max, lexical_intText, List.not_mem_nil, false_imp_iff, implies_true,
      not_false_eq_true, slice_str_each, and_false]
    try tauto

set_option maxRecDepth 8000 in
theorem ok_cpreqBootNotification (G : FloatText) {vs : List Val} (hv : HasTys [.str, .str, .str, .str, .str, .str, .str, .str, .str] vs) (hp : Val.TimesAlls GoTime.Plain vs) :
    (∃ decl, (MsgType.req .cpreqBootNotification).wsdl = some decl ∧ XValid decl (rendered G (.req .cpreqBootNotification) (.struct vs))) ↔ ReqOk .cpreqBootNotification vs := by
  obtain ⟨D, nm, h⟩ := rendered_iff G (m := .req .cpreqBootNotification) rfl hv rfl (by decide) (by decide) (by decide) (by decide) (by decide)
    (l := [.some 3, .one 3, .each 3 (.simple (.max 20)), .either 0 3, .either 1 3, .either 2 3, .some 1, .one 1, .each 1 (.simple (.max 20)), .either 0 1, .one 2, .each 2 (.simple (.max 25)), .either 0 2, .one 0, .each 0 (.simple (.max 25)), .one 4, .each 4 (.simple (.max 50)), .one 5, .each 5 (.simple (.max 20)), .one 6, .each 6 (.simple (.max 20)), .one 8, .each 8 (.simple (.max 25)), .either 7 8, .one 7, .each 7 (.simple (.max 25))]) (by decide) (oms := [true, true, true, true, true, true, true, true, true]) (by decide)
  rw [h]; clear h
  change _ ↔ False
  simp only [List.forall_mem_cons, Need.Holds, iff_false]
  tauto

set_option maxRecDepth 8000 in
theorem ok_cpreqDataTransfer (G : FloatText) {vs : List Val} (hv : HasTys [.str, .str, .str] vs) (hp : Val.TimesAlls GoTime.Plain vs) :
    (∃ decl, (MsgType.req .cpreqDataTransfer).wsdl = some decl ∧ XValid decl (rendered G (.req .cpreqDataTransfer) (.struct vs))) ↔ ReqOk .cpreqDataTransfer vs := by
  obtain ⟨D, nm, h⟩ := rendered_iff G (m := .req .cpreqDataTransfer) rfl hv rfl (by decide) (by decide) (by decide) (by decide) (by decide)
    (l := [.some 2, .one 2, .each 2 (.simple .string), .either 0 2, .either 1 2, .one 1, .each 1 (.simple .string), .either 0 1, .one 0, .each 0 (.simple .string)]) (by decide) (oms := [true, true, true]) (by decide)
  rw [h]; clear h
  match vs, hv, hp with
  | [.str a, .str b, .str c], hv, hp =>
    change _ ↔ a = [] ∧ b = [] ∧ c ≠ []
    simp only [blocksAt, List.forall_mem_cons, Need.Holds, pick_zero, pick_succ, render_str, render_int, render_float, render_bool, render_time,
      scalar_nil, scalar_one, scalar_each, Bool.false_eq_true, false_and, true_and, and_true, false_or, or_false, or_true, true_or, scalarText, Blank,
      List.isEmpty_iff, beq_iff_eq, ne_eq, lexical_string, lexical_uri, lexical_max, lexical_intText, List.not_mem_nil, false_imp_iff, implies_true,
      not_false_eq_true, slice_str_each, and_false]
    try tauto

set_option maxRecDepth 8000 in
theorem ok_cpreqDiagnosticsStatusNotification (G : FloatText) {vs : List Val} (hv : HasTys [.str] vs) (hp : Val.TimesAlls GoTime.Plain vs) :
    (∃ decl, (MsgType.req .cpreqDiagnosticsStatusNotification).wsdl = some decl ∧ XValid decl (rendered G (.req .cpreqDiagnosticsStatusNotification) (.struct vs))) ↔ ReqOk .cpreqDiagnosticsStatusNotification vs := by
  obtain ⟨D, nm, h⟩ := rendered_iff G (m := .req .cpreqDiagnosticsStatusNotification) rfl hv rfl (by decide) (by decide) (by decide) (by decide) (by decide)
    (l := [.some 0, .one 0, .each 0 (.simple (.enum (["Uploaded", "UploadFailed"].map String.toList)))]) (by decide) (oms := [true]) (by decide)
  rw [h]; clear h
  match vs, hv, hp with
  | [.str a], hv, hp =>
    change _ ↔ OneOf ["Uploaded", "UploadFailed"] a
    have := oneOf_ne ["Uploaded", "UploadFailed"] (by decide) a
    simp only [blocksAt, List.forall_mem_cons, Need.Holds, pick_zero, pick_succ, render_str, render_int, render_float, render_bool, render_time,
      scalar_nil, scalar_one, scalar_each, Bool.false_eq_true, false_and, true_and, and_true, false_or, or_false, or_true, true_or, scalarText, Blank,
      List.isEmpty_iff, beq_iff_eq, ne_eq, lexical_string, lexical_uri, lexical_max, lexical_intText, List.not_mem_nil, false_imp_iff, implies_true,
      not_false_eq_true, slice_str_each, and_false, lexical_enum ["Uploaded", "UploadFailed"] (by decide)]
    try tauto

set_option maxRecDepth 8000 in
theorem ok_cpreqFirmwareStatusNotification (G : FloatText) {vs : List Val} (hv : HasTys [.str] vs) (hp : Val.TimesAlls GoTime.Plain vs) :
    (∃ decl, (MsgType.req .cpreqFirmwareStatusNotification).wsdl = some decl ∧ XValid decl (rendered G (.req .cpreqFirmwareStatusNotification) (.struct vs))) ↔ ReqOk .cpreqFirmwareStatusNotification vs := by
  obtain ⟨D, nm, h⟩ := rendered_iff G (m := .req .cpreqFirmwareStatusNotification) rfl hv rfl (by decide) (by decide) (by decide) (by decide) (by decide)
    (l := [.some 0, .one 0, .each 0 (.simple (.enum (["Downloaded", "DownloadFailed", "InstallationFailed", "Installed"].map String.toList)))]) (by decide) (oms := [true]) (by decide)
  rw [h]; clear h
  match vs, hv, hp with
  | [.str a], hv, hp =>
    change _ ↔ OneOf ["Downloaded", "DownloadFailed", "InstallationFailed", "Installed"] a
    have := oneOf_ne ["Downloaded", "DownloadFailed", "InstallationFailed", "Installed"] (by decide) a
    simp only [blocksAt, List.forall_mem_cons, Need.Holds, pick_zero, pick_succ, render_str, render_int, render_float, render_bool, render_time,
      scalar_nil, scalar_one, scalar_each, Bool.false_eq_true, false_and, true_and, and_true, false_or, or_false, or_true, true_or, scalarText, Blank,
      List.isEmpty_iff, beq_iff_eq, ne_eq, lexical_string, lexical_uri, lexical_max, lexical_intText, List.not_mem_nil, false_imp_iff, implies_true,
      not_false_eq_true, slice_str_each, and_false, lexical_enum ["Downloaded", "DownloadFailed", "InstallationFailed", "Installed"] (by decide)]
    try tauto

set_option maxRecDepth 8000 in
theorem ok_cpreqHeartbeat (G : FloatText) {vs : List Val} (hv : HasTys [] vs) (hp : Val.TimesAlls GoTime.Plain vs) :
    (∃ decl, (MsgType.req .cpreqHeartbeat).wsdl = some decl ∧ XValid decl (rendered G (.req .cpreqHeartbeat) (.struct vs))) ↔ ReqOk .cpreqHeartbeat vs := by
  obtain ⟨D, nm, h⟩ := rendered_iff G (m := .req .cpreqHeartbeat) rfl hv rfl (by decide) (by decide) (by decide) (by decide) (by decide)
    (l := []) (by decide) (oms := []) (by decide)
  rw [h]; clear h
  match vs, hv, hp with
  | [], hv, hp =>
    change _ ↔ True
    simp only [blocksAt, List.forall_mem_cons, Need.Holds, pick_zero, pick_succ, render_str, render_int, render_float, render_bool, render_time,
      scalar_nil, scalar_one, scalar_each, Bool.false_eq_true, false_and, true_and, and_true, false_or, or_false, or_true, true_or, scalarText, Blank,
      List.isEmpty_iff, beq_iff_eq, ne_eq, lexical_string, lexical_uri, lexical_max, lexical_intText, List.not_mem_nil, false_imp_iff, implies_true,
      not_false_eq_true, slice_str_each, and_false]
    try tauto

set_option maxRecDepth 8000 in
theorem ok_cpreqStartTransaction (G : FloatText) {vs : List Val} (hv : HasTys [.int 64, .str, .int 64, .int 64, .time] vs) (hp : Val.TimesAlls GoTime.Plain vs) :
    (∃ decl, (MsgType.req .cpreqStartTransaction).wsdl = some decl ∧ XValid decl (rendered G (.req .cpreqStartTransaction) (.struct vs))) ↔ ReqOk .cpreqStartTransaction vs := by
  obtain ⟨D, nm, h⟩ := rendered_iff G (m := .req .cpreqStartTransaction) rfl hv rfl (by decide) (by decide) (by decide) (by decide) (by decide)
    (l := [.some 0, .one 0, .each 0 (.simple .int), .some 1, .one 1, .each 1 (.simple (.max 20)), .some 4, .one 4, .each 4 (.simple .dateTime), .either 2 4, .either 3 4, .some 2, .one 2, .each 2 (.simple .int), .one 3, .each 3 (.simple .int)]) (by decide) (oms := [true, true, true, true, true]) (by decide)
  rw [h]; clear h
  change _ ↔ False
  simp only [List.forall_mem_cons, Need.Holds, iff_false]
  tauto

set_option maxRecDepth 8000 in
theorem ok_cpreqStatusNotification (G : FloatText) {vs : List Val} (hv : HasTys [.int 64, .str, .str, .str, (.ptr .time), .str, .str] vs) (hp : Val.TimesAlls GoTime.Plain vs) :
    (∃ decl, (MsgType.req .cpreqStatusNotification).wsdl = some decl ∧ XValid decl (rendered G (.req .cpreqStatusNotification) (.struct vs))) ↔ ReqOk .cpreqStatusNotification vs := by
  obtain ⟨D, nm, h⟩ := rendered_iff G (m := .req .cpreqStatusNotification) rfl hv rfl (by decide) (by decide) (by decide) (by decide) (by decide)
    (l := [.some 0, .one 0, .each 0 (.simple .int), .some 3, .one 3, .each 3 (.simple (.enum (["Available", "Occupied", "Faulted", "Unavailable", "Reserved"].map String.toList))), .either 1 3, .either 2 3, .some 1, .one 1, .each 1 (.simple (.enum (["ConnectorLockFailure", "HighTemperature", "Mode3Error", "NoError", "PowerMeterFailure", "PowerSwitchFailure", "ReaderFailure", "ResetFailure", "GroundFailure", "OverCurrentFailure", "UnderVoltage", "WeakSignal", "OtherError"].map String.toList))), .one 2, .each 2 (.simple .string), .one 4, .each 4 (.simple .dateTime), .one 6, .each 6 (.simple .string), .either 5 6, .one 5, .each 5 (.simple .string)]) (by decide) (oms := [true, true, true, true, true, true, true]) (by decide)
  rw [h]; clear h
  change _ ↔ False
  simp only [List.forall_mem_cons, Need.Holds, iff_false]
  tauto

set_option maxRecDepth 8000 in
theorem ok_cpreqStopTransaction (G : FloatText) {vs : List Val} (hv : HasTys [.str, .int 64, .str, .time, (.slice (.ptr cpreq.TransactionDataItems)), .int 64] vs) (hp : Val.TimesAlls GoTime.Plain vs) :
    (∃ decl, (MsgType.req .cpreqStopTransaction).wsdl = some decl ∧ XValid decl (rendered G (.req .cpreqStopTransaction) (.struct vs))) ↔ ReqOk .cpreqStopTransaction vs := by
  obtain ⟨D, nm, h⟩ := rendered_iff G (m := .req .cpreqStopTransaction) rfl hv rfl (by decide) (by decide) (by decide) (by decide) (by decide)
    (l := [.some 5, .one 5, .each 5 (.simple .int), .either 0 5, .either 1 5, .either 2 5, .either 3 5, .either 4 5, .one 0, .each 0 (.simple (.max 20)), .some 3, .one 3, .each 3 (.simple .dateTime), .either 1 3, .either 2 3, .some 1, .one 1, .each 1 (.simple .int), .each 4 Wsdl.Cs.transactionData, .either 2 4, .none 2]) (by decide) (oms := [true, true, true, true, true, true]) (by decide)
  rw [h]; clear h
  change _ ↔ False
  simp only [List.forall_mem_cons, Need.Holds, iff_false]
  tauto

set_option maxRecDepth 8000 in
theorem ok_csreqCancelReservation (G : FloatText) {vs : List Val} (hv : HasTys [.int 64] vs) (hp : Val.TimesAlls GoTime.Plain vs) :
    (∃ decl, (MsgType.req .csreqCancelReservation).wsdl = some decl ∧ XValid decl (rendered G (.req .csreqCancelReservation) (.struct vs))) ↔ ReqOk .csreqCancelReservation vs := by
  obtain ⟨D, nm, h⟩ := rendered_iff G (m := .req .csreqCancelReservation) rfl hv rfl (by decide) (by decide) (by decide) (by decide) (by decide)
    (l := [.some 0, .one 0, .each 0 (.simple .int)]) (by decide) (oms := [false]) (by decide)
  rw [h]; clear h
  match vs, hv, hp with
  | [.int a], hv, hp =>
    change _ ↔ Int32 a
    simp only [blocksAt, List.forall_mem_cons, Need.Holds, pick_zero, pick_succ, render_str, render_int, render_float, render_bool, render_time,
      scalar_nil, scalar_one, scalar_each, Bool.false_eq_true, false_and, true_and, and_true, false_or, or_false, or_true, true_or, scalarText, Blank,
      List.isEmpty_iff, beq_iff_eq, ne_eq, lexical_string, lexical_uri, lexical_max, lexical_intText, List.not_mem_nil, false_imp_iff, implies_true,
      not_false_eq_true, slice_str_each, and_false]
    try tauto

set_option maxRecDepth 8000 in
theorem ok_csreqChangeAvailability (G : FloatText) {vs : List Val} (hv : HasTys [.int 64, .str] vs) (hp : Val.TimesAlls GoTime.Plain vs) :
    (∃ decl, (MsgType.req .csreqChangeAvailability).wsdl = some decl ∧ XValid decl (rendered G (.req .csreqChangeAvailability) (.struct vs))) ↔ ReqOk .csreqChangeAvailability vs := by
  obtain ⟨D, nm, h⟩ := rendered_iff G (m := .req .csreqChangeAvailability) rfl hv rfl (by decide) (by decide) (by decide) (by decide) (by decide)
    (l := [.some 0, .one 0, .each 0 (.simple .int), .some 1, .one 1, .each 1 (.simple (.enum (["Inoperative", "Operative"].map String.toList)))]) (by decide) (oms := [false, false]) (by decide)
  rw [h]; clear h
  match vs, hv, hp with
  | [.int a, .str b], hv, hp =>
    change _ ↔ Int32 a ∧ OneOf ["Inoperative", "Operative"] b
    have := oneOf_ne ["Inoperative", "Operative"] (by decide) b
    simp only [blocksAt, List.forall_mem_cons, Need.Holds, pick_zero, pick_succ, render_str, render_int, render_float, render_bool, render_time,
      scalar_nil, scalar_one, scalar_each, Bool.false_eq_true, false_and, true_and, and_true, false_or, or_false, or_true, true_or, scalarText, Blank,
      List.isEmpty_iff, beq_iff_eq, ne_eq, lexical_string, lexical_uri, lexical_max, lexical_intText, List.not_mem_nil, false_imp_iff, implies_true,
      not_false_eq_true, slice_str_each, and_false, lexical_enum ["Inoperative", "Operative"] (by decide)]
    try tauto

set_option maxRecDepth 8000 in
theorem ok_csreqChangeConfiguration (G : FloatText) {vs : List Val} (hv : HasTys [.str, .str] vs) (hp : Val.TimesAlls GoTime.Plain vs) :
    (∃ decl, (MsgType.req .csreqChangeConfiguration).wsdl = some decl ∧ XValid decl (rendered G (.req .csreqChangeConfiguration) (.struct vs))) ↔ ReqOk .csreqChangeConfiguration vs := by
  obtain ⟨D, nm, h⟩ := rendered_iff G (m := .req .csreqChangeConfiguration) rfl hv rfl (by decide) (by decide) (by decide) (by decide) (by decide)
    (l := [.some 0, .one 0, .each 0 (.simple .string), .some 1, .one 1, .each 1 (.simple .string)]) (by decide) (oms := [false, false]) (by decide)
  rw [h]; clear h
  match vs, hv, hp with
  | [.str a, .str b], hv, hp =>
    change _ ↔ True
    simp only [blocksAt, List.forall_mem_cons, Need.Holds, pick_zero, pick_succ, render_str, render_int, render_float, render_bool, render_time,
      scalar_nil, scalar_one, scalar_each, Bool.false_eq_true, false_and, true_and, and_true, false_or, or_false, or_true, true_or, scalarText, Blank,
      List.isEmpty_iff, beq_iff_eq, ne_eq, lexical_string, lexical_uri, lexical_max, lexical_intText, List.not_mem_nil, false_imp_iff, implies_true,
      not_false_eq_true, slice_str_each, and_false]
    try tauto

set_option maxRecDepth 8000 in
theorem ok_csreqClearCache (G : FloatText) {vs : List Val} (hv : HasTys [] vs) (hp : Val.TimesAlls GoTime.Plain vs) :
    (∃ decl, (MsgType.req .csreqClearCache).wsdl = some decl ∧ XValid decl (rendered G (.req .csreqClearCache) (.struct vs))) ↔ ReqOk .csreqClearCache vs := by
  obtain ⟨D, nm, h⟩ := rendered_iff G (m := .req .csreqClearCache) rfl hv rfl (by decide) (by decide) (by decide) (by decide) (by decide)
    (l := []) (by decide) (oms := []) (by decide)
  rw [h]; clear h
  match vs, hv, hp with
  | [], hv, hp =>
    change _ ↔ True
    simp only [blocksAt, List.forall_mem_cons, Need.Holds, pick_zero, pick_succ, render_str, render_int, render_float, render_bool, render_time,
      scalar_nil, scalar_one, scalar_each, Bool.false_eq_true, false_and, true_and, and_true, false_or, or_false, or_true, true_or, scalarText, Blank,
      List.isEmpty_iff, beq_iff_eq, ne_eq, lexical_string, lexical_uri, lexical_max, lexical_intText, List.not_mem_nil, false_imp_iff, implies_true,
      not_false_eq_true, slice_str_each, and_false]
    try tauto

set_option maxRecDepth 8000 in
theorem ok_csreqDataTransfer (G : FloatText) {vs : List Val} (hv : HasTys [.str, .str, .str] vs) (hp : Val.TimesAlls GoTime.Plain vs) :
    (∃ decl, (MsgType.req .csreqDataTransfer).wsdl = some decl ∧ XValid decl (rendered G (.req .csreqDataTransfer) (.struct vs))) ↔ ReqOk .csreqDataTransfer vs := by
  obtain ⟨D, nm, h⟩ := rendered_iff G (m := .req .csreqDataTransfer) rfl hv rfl (by decide) (by decide) (by decide) (by decide) (by decide)
    (l := [.some 2, .one 2, .each 2 (.simple .string), .either 0 2, .either 1 2, .one 1, .each 1 (.simple .string), .either 0 1, .one 0, .each 0 (.simple .string)]) (by decide) (oms := [true, true, false]) (by decide)
  rw [h]; clear h
  match vs, hv, hp with
  | [.str a, .str b, .str c], hv, hp =>
    change _ ↔ a = [] ∧ b = []
    simp only [blocksAt, List.forall_mem_cons, Need.Holds, pick_zero, pick_succ, render_str, render_int, render_float, render_bool, render_time,
      scalar_nil, scalar_one, scalar_each, Bool.false_eq_true, false_and, true_and, and_true, false_or, or_false, or_true, true_or, scalarText, Blank,
      List.isEmpty_iff, beq_iff_eq, ne_eq, lexical_string, lexical_uri, lexical_max, lexical_intText, List.not_mem_nil, false_imp_iff, implies_true,
      not_false_eq_true, slice_str_each, and_false]
    try tauto

set_option maxRecDepth 8000 in
theorem ok_csreqGetConfiguration (G : FloatText) {vs : List Val} (hv : HasTys [(.slice .str)] vs) (hp : Val.TimesAlls GoTime.Plain vs) :
    (∃ decl, (MsgType.req .csreqGetConfiguration).wsdl = some decl ∧ XValid decl (rendered G (.req .csreqGetConfiguration) (.struct vs))) ↔ ReqOk .csreqGetConfiguration vs := by
  obtain ⟨D, nm, h⟩ := rendered_iff G (m := .req .csreqGetConfiguration) rfl hv rfl (by decide) (by decide) (by decide) (by decide) (by decide)
    (l := [.each 0 (.simple .string)]) (by decide) (oms := [true]) (by decide)
  rw [h]; clear h
  match vs, hv, hp with
  | [a], hv, hp =>
    change _ ↔ True
    simp only [blocksAt, List.forall_mem_cons, Need.Holds, pick_zero, pick_succ, render_str, render_int, render_float, render_bool, render_time,
      scalar_nil, scalar_one, scalar_each, Bool.false_eq_true, false_and, true_and, and_true, false_or, or_false, or_true, true_or, scalarText, Blank,
      List.isEmpty_iff, beq_iff_eq, ne_eq, lexical_string, lexical_uri, lexical_max, lexical_intText, List.not_mem_nil, false_imp_iff, implies_true,
      not_false_eq_true, slice_str_each, and_false]
    try tauto

set_option maxRecDepth 8000 in
theorem ok_csreqGetLocalListVersion (G : FloatText) {vs : List Val} (hv : HasTys [] vs) (hp : Val.TimesAlls GoTime.Plain vs) :
    (∃ decl, (MsgType.req .csreqGetLocalListVersion).wsdl = some decl ∧ XValid decl (rendered G (.req .csreqGetLocalListVersion) (.struct vs))) ↔ ReqOk .csreqGetLocalListVersion vs := by
  obtain ⟨D, nm, h⟩ := rendered_iff G (m := .req .csreqGetLocalListVersion) rfl hv rfl (by decide) (by decide) (by decide) (by decide) (by decide)
    (l := []) (by decide) (oms := []) (by decide)
  rw [h]; clear h
  match vs, hv, hp with
  | [], hv, hp =>
    change _ ↔ True
    simp only [blocksAt, List.forall_mem_cons, Need.Holds, pick_zero, pick_succ, render_str, render_int, render_float, render_bool, render_time,
      scalar_nil, scalar_one, scalar_each, Bool.false_eq_true, false_and, true_and, and_true, false_or, or_false, or_true, true_or, scalarText, Blank,
      List.isEmpty_iff, beq_iff_eq, ne_eq, lexical_string, lexical_uri, lexical_max, lexical_intText, List.not_mem_nil, false_imp_iff, implies_true,
      not_false_eq_true, slice_str_each, and_false]
    try tauto

set_option maxRecDepth 8000 in
theorem ok_csreqRemoteStartTransaction (G : FloatText) {vs : List Val} (hv : HasTys [.str, (.ptr csreq.ChargingProfile), .int 32] vs) (hp : Val.TimesAlls GoTime.Plain vs) :
    (∃ decl, (MsgType.req .csreqRemoteStartTransaction).wsdl = some decl ∧ XValid decl (rendered G (.req .csreqRemoteStartTransaction) (.struct vs))) ↔ ReqOk .csreqRemoteStartTransaction vs := by
  obtain ⟨D, nm, h⟩ := rendered_iff G (m := .req .csreqRemoteStartTransaction) rfl hv rfl (by decide) (by decide) (by decide) (by decide) (by decide)
    (l := [.some 0, .one 0, .each 0 (.simple (.max 20)), .one 2, .each 2 (.simple .int), .either 1 2, .none 1]) (by decide) (oms := [false, true, true]) (by decide)
  rw [h]; clear h
  match vs, hv, hp with
  | [.str a, b, .int c], hv, hp =>
    change _ ↔ a.length ≤ 20 ∧ b = Val.nil
    have hnil : ∀ n om, render G D (.ptr csreq.ChargingProfile) n om b = [] ↔ b = Val.nil := ptr_nil _ _ _ rfl hv.2.1
    simp only [blocksAt, List.forall_mem_cons, Need.Holds, pick_zero, pick_succ, render_str, render_int, render_float, render_bool, render_time,
      scalar_nil, scalar_one, scalar_each, Bool.false_eq_true, false_and, true_and, and_true, false_or, or_false, or_true, true_or, scalarText, Blank,
      List.isEmpty_iff, beq_iff_eq, ne_eq, lexical_string, lexical_uri, lexical_max, lexical_intText, List.not_mem_nil, false_imp_iff, implies_true,
      not_false_eq_true, slice_str_each, and_false, hnil]
    have := hv.2.2.1
    have h32 : Int32 c := ⟨this.1, this.2⟩
    simp only [h32]
    tauto

set_option maxRecDepth 8000 in
theorem ok_csreqRemoteStopTransaction (G : FloatText) {vs : List Val} (hv : HasTys [.int 32] vs) (hp : Val.TimesAlls GoTime.Plain vs) :
    (∃ decl, (MsgType.req .csreqRemoteStopTransaction).wsdl = some decl ∧ XValid decl (rendered G (.req .csreqRemoteStopTransaction) (.struct vs))) ↔ ReqOk .csreqRemoteStopTransaction vs := by
  obtain ⟨D, nm, h⟩ := rendered_iff G (m := .req .csreqRemoteStopTransaction) rfl hv rfl (by decide) (by decide) (by decide) (by decide) (by decide)
    (l := [.some 0, .one 0, .each 0 (.simple .int)]) (by decide) (oms := [false]) (by decide)
  rw [h]; clear h
  match vs, hv, hp with
  | [.int a], hv, hp =>
    change _ ↔ True
    simp only [blocksAt, List.forall_mem_cons, Need.Holds, pick_zero, pick_succ, render_str, render_int, render_float, render_bool, render_time,
      scalar_nil, scalar_one, scalar_each, Bool.false_eq_true, false_and, true_and, and_true, false_or, or_false, or_true, true_or, scalarText, Blank,
      List.isEmpty_iff, beq_iff_eq, ne_eq, lexical_string, lexical_uri, lexical_max, lexical_intText, List.not_mem_nil, false_imp_iff, implies_true,
      not_false_eq_true, slice_str_each, and_false]
    exact ⟨fun _ => trivial, fun _ => ⟨hv.1.1, hv.1.2⟩⟩

set_option maxRecDepth 8000 in
theorem ok_csreqReserveNow (G : FloatText) {vs : List Val} (hv : HasTys [.int 64, .time, .str, .str, .int 64] vs) (hp : Val.TimesAlls GoTime.Plain vs) :
    (∃ decl, (MsgType.req .csreqReserveNow).wsdl = some decl ∧ XValid decl (rendered G (.req .csreqReserveNow) (.struct vs))) ↔ ReqOk .csreqReserveNow vs := by
  obtain ⟨D, nm, h⟩ := rendered_iff G (m := .req .csreqReserveNow) rfl hv rfl (by decide) (by decide) (by decide) (by decide) (by decide)
    (l := [.some 0, .one 0, .each 0 (.simple .int), .some 1, .one 1, .each 1 (.simple .dateTime), .some 2, .one 2, .each 2 (.simple (.max 20)), .one 3, .each 3 (.simple (.max 20)), .some 4, .one 4, .each 4 (.simple .int)]) (by decide) (oms := [false, false, false, true, false]) (by decide)
  rw [h]; clear h
  match vs, hv, hp with
  | [.int a, .time b, .str c, .str d, .int e], hv, hp =>
    change _ ↔ Int32 a ∧ DateOk b ∧ c.length ≤ 20 ∧ d.length ≤ 20 ∧ Int32 e
    simp only [blocksAt, List.forall_mem_cons, Need.Holds, pick_zero, pick_succ, render_str, render_int, render_float, render_bool, render_time,
      scalar_nil, scalar_one, scalar_each, Bool.false_eq_true, false_and, true_and, and_true, false_or, or_false, or_true, true_or, scalarText, Blank,
      List.isEmpty_iff, beq_iff_eq, ne_eq, lexical_string, lexical_uri, lexical_max, lexical_intText, List.not_mem_nil, false_imp_iff, implies_true,
      not_false_eq_true, slice_str_each, and_false, lexical_time (t := b) hp.2.1]
    have : d = [] → d.length ≤ 20 := by rintro rfl; simp
    tauto

set_option maxRecDepth 8000 in
theorem ok_csreqReset (G : FloatText) {vs : List Val} (hv : HasTys [.str] vs) (hp : Val.TimesAlls GoTime.Plain vs) :
    (∃ decl, (MsgType.req .csreqReset).wsdl = some decl ∧ XValid decl (rendered G (.req .csreqReset) (.struct vs))) ↔ ReqOk .csreqReset vs := by
  obtain ⟨D, nm, h⟩ := rendered_iff G (m := .req .csreqReset) rfl hv rfl (by decide) (by decide) (by decide) (by decide) (by decide)
    (l := [.some 0, .one 0, .each 0 (.simple (.enum (["Hard", "Soft"].map String.toList)))]) (by decide) (oms := [false]) (by decide)
  rw [h]; clear h
  match vs, hv, hp with
  | [.str a], hv, hp =>
    change _ ↔ OneOf ["Hard", "Soft"] a
    have := oneOf_ne ["Hard", "Soft"] (by decide) a
    simp only [blocksAt, List.forall_mem_cons, Need.Holds, pick_zero, pick_succ, render_str, render_int, render_float, render_bool, render_time,
      scalar_nil, scalar_one, scalar_each, Bool.false_eq_true, false_and, true_and, and_true, false_or, or_false, or_true, true_or, scalarText, Blank,
      List.isEmpty_iff, beq_iff_eq, ne_eq, lexical_string, lexical_uri, lexical_max, lexical_intText, List.not_mem_nil, false_imp_iff, implies_true,
      not_false_eq_true, slice_str_each, and_false, lexical_enum ["Hard", "Soft"] (by decide)]
    try tauto

set_option maxRecDepth 8000 in
theorem ok_csreqSendLocalList (G : FloatText) {vs : List Val} (hv : HasTys [.int 64, (.slice (.ptr csreq.LocalAuthorizationListItems)), .str] vs) (hp : Val.TimesAlls GoTime.Plain vs) :
    (∃ decl, (MsgType.req .csreqSendLocalList).wsdl = some decl ∧ XValid decl (rendered G (.req .csreqSendLocalList) (.struct vs))) ↔ ReqOk .csreqSendLocalList vs := by
  obtain ⟨D, nm, h⟩ := rendered_iff G (m := .req .csreqSendLocalList) rfl hv rfl (by decide) (by decide) (by decide) (by decide) (by decide)
    (l := [.some 2, .one 2, .each 2 (.simple (.enum (["Differential", "Full"].map String.toList))), .either 0 2, .either 1 2, .some 0, .one 0, .each 0 (.simple .int), .none 1]) (by decide) (oms := [false, true, false]) (by decide)
  rw [h]; clear h
  change _ ↔ False
  simp only [List.forall_mem_cons, Need.Holds, iff_false]
  tauto

set_option maxRecDepth 8000 in
theorem ok_csreqUnlockConnector (G : FloatText) {vs : List Val} (hv : HasTys [.int 64] vs) (hp : Val.TimesAlls GoTime.Plain vs) :
    (∃ decl, (MsgType.req .csreqUnlockConnector).wsdl = some decl ∧ XValid decl (rendered G (.req .csreqUnlockConnector) (.struct vs))) ↔ ReqOk .csreqUnlockConnector vs := by
  obtain ⟨D, nm, h⟩ := rendered_iff G (m := .req .csreqUnlockConnector) rfl hv rfl (by decide) (by decide) (by decide) (by decide) (by decide)
    (l := [.some 0, .one 0, .each 0 (.simple .int)]) (by decide) (oms := [false]) (by decide)
  rw [h]; clear h
  match vs, hv, hp with
  | [.int a], hv, hp =>
    change _ ↔ Int32 a
    simp only [blocksAt, List.forall_mem_cons, Need.Holds, pick_zero, pick_succ, render_str, render_int, render_float, render_bool, render_time,
      scalar_nil, scalar_one, scalar_each, Bool.false_eq_true, false_and, true_and, and_true, false_or, or_false, or_true, true_or, scalarText, Blank,
      List.isEmpty_iff, beq_iff_eq, ne_eq, lexical_string, lexical_uri, lexical_max, lexical_intText, List.not_mem_nil, false_imp_iff, implies_true,
      not_false_eq_true, slice_str_each, and_false]
    try tauto

set_option maxRecDepth 8000 in
theorem ok_csreqUpdateFirmware (G : FloatText) {vs : List Val} (hv : HasTys [.str, .float, .time, .float] vs) (hp : Val.TimesAlls GoTime.Plain vs) :
    (∃ decl, (MsgType.req .csreqUpdateFirmware).wsdl = some decl ∧ XValid decl (rendered G (.req .csreqUpdateFirmware) (.struct vs))) ↔ ReqOk .csreqUpdateFirmware vs := by
  obtain ⟨D, nm, h⟩ := rendered_iff G (m := .req .csreqUpdateFirmware) rfl hv rfl (by decide) (by decide) (by decide) (by decide) (by decide)
    (l := [.some 2, .one 2, .each 2 (.simple .dateTime), .either 0 2, .either 1 2, .some 0, .one 0, .each 0 (.simple .uri), .one 1, .each 1 (.simple .int), .one 3, .each 3 (.simple .int)]) (by decide) (oms := [false, true, false, true]) (by decide)
  rw [h]; clear h
  change _ ↔ False
  simp only [List.forall_mem_cons, Need.Holds, iff_false]
  tauto

set_option maxRecDepth 8000 in
theorem ok_cprespDataTransfer (G : FloatText) {vs : List Val} (hv : HasTys [.str, .str] vs) (hp : Val.TimesAlls GoTime.Plain vs) :
    (∃ decl, (MsgType.resp .cprespDataTransfer).wsdl = some decl ∧ XValid decl (rendered G (.resp .cprespDataTransfer) (.struct vs))) ↔ RespOk G .cprespDataTransfer vs := by
  obtain ⟨D, nm, h⟩ := rendered_iff G (m := .resp .cprespDataTransfer) rfl hv rfl (by decide) (by decide) (by decide) (by decide) (by decide)
    (l := [.some 1, .one 1, .each 1 (.simple (.enum (["Accepted", "Rejected", "UnknownMessageId", "UnknownVendorId"].map String.toList))), .either 0 1, .none 0]) (by decide) (oms := [false, true]) (by decide)
  rw [h]; clear h
  match vs, hv, hp with
  | [.str a, .str b], hv, hp =>
    change _ ↔ False
    have := oneOf_ne ["Accepted", "Rejected", "UnknownMessageId", "UnknownVendorId"] (by decide) b
    simp only [blocksAt, List.forall_mem_cons, Need.Holds, pick_zero, pick_succ, render_str, render_int, render_float, render_bool, render_time,
      scalar_nil, scalar_one, scalar_each, Bool.false_eq_true, false_and, true_and, and_true, false_or, or_false, or_true, true_or, scalarText, Blank,
      List.isEmpty_iff, beq_iff_eq, ne_eq, lexical_string, lexical_uri, lexical_max, lexical_intText, List.not_mem_nil, false_imp_iff, implies_true,
      not_false_eq_true, slice_str_each, and_false, lexical_enum ["Accepted", "Rejected", "UnknownMessageId", "UnknownVendorId"] (by decide)]
    try tauto

set_option maxRecDepth 8000 in
theorem ok_cprespDiagnosticsStatusNotification (G : FloatText) {vs : List Val} (hv : HasTys [] vs) (hp : Val.TimesAlls GoTime.Plain vs) :
    (∃ decl, (MsgType.resp .cprespDiagnosticsStatusNotification).wsdl = some decl ∧ XValid decl (rendered G (.resp .cprespDiagnosticsStatusNotification) (.struct vs))) ↔ RespOk G .cprespDiagnosticsStatusNotification vs := by
  obtain ⟨D, nm, h⟩ := rendered_iff G (m := .resp .cprespDiagnosticsStatusNotification) rfl hv rfl (by decide) (by decide) (by decide) (by decide) (by decide)
    (l := []) (by decide) (oms := []) (by decide)
  rw [h]; clear h
  match vs, hv, hp with
  | [], hv, hp =>
    change _ ↔ True
    simp only [blocksAt, List.forall_mem_cons, Need.Holds, pick_zero, pick_succ, render_str, render_int, render_float, render_bool, render_time,
      scalar_nil, scalar_one, scalar_each, Bool.false_eq_true, false_and, true_and, and_true, false_or, or_false, or_true, true_or, scalarText, Blank,
      List.isEmpty_iff, beq_iff_eq, ne_eq, lexical_string, lexical_uri, lexical_max, lexical_intText, List.not_mem_nil, false_imp_iff, implies_true,
      not_false_eq_true, slice_str_each, and_false]
    try tauto

set_option maxRecDepth 8000 in
theorem ok_cprespFirmwareStatusNotification (G : FloatText) {vs : List Val} (hv : HasTys [] vs) (hp : Val.TimesAlls GoTime.Plain vs) :
    (∃ decl, (MsgType.resp .cprespFirmwareStatusNotification).wsdl = some decl ∧ XValid decl (rendered G (.resp .cprespFirmwareStatusNotification) (.struct vs))) ↔ RespOk G .cprespFirmwareStatusNotification vs := by
  obtain ⟨D, nm, h⟩ := rendered_iff G (m := .resp .cprespFirmwareStatusNotification) rfl hv rfl (by decide) (by decide) (by decide) (by decide) (by decide)
    (l := []) (by decide) (oms := []) (by decide)
  rw [h]; clear h
  match vs, hv, hp with
  | [], hv, hp =>
    change _ ↔ True
    simp only [blocksAt, List.forall_mem_cons, Need.Holds, pick_zero, pick_succ, render_str, render_int, render_float, render_bool, render_time,
      scalar_nil, scalar_one, scalar_each, Bool.false_eq_true, false_and, true_and, and_true, false_or, or_false, or_true, true_or, scalarText, Blank,
      List.isEmpty_iff, beq_iff_eq, ne_eq, lexical_string, lexical_uri, lexical_max, lexical_intText, List.not_mem_nil, false_imp_iff, implies_true,
      not_false_eq_true, slice_str_each, and_false]
    try tauto

set_option maxRecDepth 8000 in
theorem ok_cprespHeartbeat (G : FloatText) {vs : List Val} (hv : HasTys [.time] vs) (hp : Val.TimesAlls GoTime.Plain vs) :
    (∃ decl, (MsgType.resp .cprespHeartbeat).wsdl = some decl ∧ XValid decl (rendered G (.resp .cprespHeartbeat) (.struct vs))) ↔ RespOk G .cprespHeartbeat vs := by
  obtain ⟨D, nm, h⟩ := rendered_iff G (m := .resp .cprespHeartbeat) rfl hv rfl (by decide) (by decide) (by decide) (by decide) (by decide)
    (l := [.some 0, .one 0, .each 0 (.simple .dateTime)]) (by decide) (oms := [true]) (by decide)
  rw [h]; clear h
  match vs, hv, hp with
  | [.time a], hv, hp =>
    change _ ↔ DateOk a
    simp only [blocksAt, List.forall_mem_cons, Need.Holds, pick_zero, pick_succ, render_str, render_int, render_float, render_bool, render_time,
      scalar_nil, scalar_one, scalar_each, Bool.false_eq_true, false_and, true_and, and_true, false_or, or_false, or_true, true_or, scalarText, Blank,
      List.isEmpty_iff, beq_iff_eq, ne_eq, lexical_string, lexical_uri, lexical_max, lexical_intText, List.not_mem_nil, false_imp_iff, implies_true,
      not_false_eq_true, slice_str_each, and_false, lexical_time (t := a) hp.1]
    try tauto

set_option maxRecDepth 8000 in
theorem ok_cprespMeterValues (G : FloatText) {vs : List Val} (hv : HasTys [] vs) (hp : Val.TimesAlls GoTime.Plain vs) :
    (∃ decl, (MsgType.resp .cprespMeterValues).wsdl = some decl ∧ XValid decl (rendered G (.resp .cprespMeterValues) (.struct vs))) ↔ RespOk G .cprespMeterValues vs := by
  obtain ⟨D, nm, h⟩ := rendered_iff G (m := .resp .cprespMeterValues) rfl hv rfl (by decide) (by decide) (by decide) (by decide) (by decide)
    (l := []) (by decide) (oms := []) (by decide)
  rw [h]; clear h
  match vs, hv, hp with
  | [], hv, hp =>
    change _ ↔ True
    simp only [blocksAt, List.forall_mem_cons, Need.Holds, pick_zero, pick_succ, render_str, render_int, render_float, render_bool, render_time,
      scalar_nil, scalar_one, scalar_each, Bool.false_eq_true, false_and, true_and, and_true, false_or, or_false, or_true, true_or, scalarText, Blank,
      List.isEmpty_iff, beq_iff_eq, ne_eq, lexical_string, lexical_uri, lexical_max, lexical_intText, List.not_mem_nil, false_imp_iff, implies_true,
      not_false_eq_true, slice_str_each, and_false]
    try tauto

set_option maxRecDepth 8000 in
theorem ok_cprespStartTransaction (G : FloatText) {vs : List Val} (hv : HasTys [(.ptr cpresp.IdTagInfo), .int 32] vs) (hp : Val.TimesAlls GoTime.Plain vs) :
    (∃ decl, (MsgType.resp .cprespStartTransaction).wsdl = some decl ∧ XValid decl (rendered G (.resp .cprespStartTransaction) (.struct vs))) ↔ RespOk G .cprespStartTransaction vs := by
  obtain ⟨D, nm, h⟩ := rendered_iff G (m := .resp .cprespStartTransaction) rfl hv rfl (by decide) (by decide) (by decide) (by decide) (by decide)
    (l := [.some 1, .one 1, .each 1 (.simple .int), .either 0 1, .some 0, .one 0, .each 0 Wsdl.Cs.idTagInfo]) (by decide) (oms := [true, true]) (by decide)
  rw [h]; clear h
  change _ ↔ False
  simp only [List.forall_mem_cons, Need.Holds, iff_false]
  tauto

set_option maxRecDepth 8000 in
theorem ok_cprespStatusNotification (G : FloatText) {vs : List Val} (hv : HasTys [] vs) (hp : Val.TimesAlls GoTime.Plain vs) :
    (∃ decl, (MsgType.resp .cprespStatusNotification).wsdl = some decl ∧ XValid decl (rendered G (.resp .cprespStatusNotification) (.struct vs))) ↔ RespOk G .cprespStatusNotification vs := by
  obtain ⟨D, nm, h⟩ := rendered_iff G (m := .resp .cprespStatusNotification) rfl hv rfl (by decide) (by decide) (by decide) (by decide) (by decide)
    (l := []) (by decide) (oms := []) (by decide)
  rw [h]; clear h
  match vs, hv, hp with
  | [], hv, hp =>
    change _ ↔ True
    simp only [blocksAt, List.forall_mem_cons, Need.Holds, pick_zero, pick_succ, render_str, render_int, render_float, render_bool, render_time,
      scalar_nil, scalar_one, scalar_each, Bool.false_eq_true, false_and, true_and, and_true, false_or, or_false, or_true, true_or, scalarText, Blank,
      List.isEmpty_iff, beq_iff_eq, ne_eq, lexical_string, lexical_uri, lexical_max, lexical_intText, List.not_mem_nil, false_imp_iff, implies_true,
      not_false_eq_true, slice_str_each, and_false]
    try tauto

set_option maxRecDepth 8000 in
theorem ok_cprespStopTransaction (G : FloatText) {vs : List Val} (hv : HasTys [(.ptr cpresp.IdTagInfo)] vs) (hp : Val.TimesAlls GoTime.Plain vs) :
    (∃ decl, (MsgType.resp .cprespStopTransaction).wsdl = some decl ∧ XValid decl (rendered G (.resp .cprespStopTransaction) (.struct vs))) ↔ RespOk G .cprespStopTransaction vs := by
  obtain ⟨D, nm, h⟩ := rendered_iff G (m := .resp .cprespStopTransaction) rfl hv rfl (by decide) (by decide) (by decide) (by decide) (by decide)
    (l := [.none 0]) (by decide) (oms := [false]) (by decide)
  rw [h]; clear h
  match vs, hv, hp with
  | [a], hv, hp =>
    change _ ↔ a = Val.nil
    have hnil : ∀ n om, render G D (.ptr cpresp.IdTagInfo) n om a = [] ↔ a = Val.nil := ptr_nil _ _ _ rfl hv.1
    simp only [blocksAt, List.forall_mem_cons, Need.Holds, pick_zero, pick_succ, render_str, render_int, render_float, render_bool, render_time,
      scalar_nil, scalar_one, scalar_each, Bool.false_eq_true, false_and, true_and, and_true, false_or, or_false, or_true, true_or, scalarText, Blank,
      List.isEmpty_iff, beq_iff_eq, ne_eq, lexical_string, lexical_uri, lexical_max, lexical_intText, List.not_mem_nil, false_imp_iff, implies_true,
      not_false_eq_true, slice_str_each, and_false, hnil]
    try tauto

set_option maxRecDepth 8000 in
theorem ok_csrespCancelReservation (G : FloatText) {vs : List Val} (hv : HasTys [.str] vs) (hp : Val.TimesAlls GoTime.Plain vs) :
    (∃ decl, (MsgType.resp .csrespCancelReservation).wsdl = some decl ∧ XValid decl (rendered G (.resp .csrespCancelReservation) (.struct vs))) ↔ RespOk G .csrespCancelReservation vs := by
  obtain ⟨D, nm, h⟩ := rendered_iff G (m := .resp .csrespCancelReservation) rfl hv rfl (by decide) (by decide) (by decide) (by decide) (by decide)
    (l := [.some 0, .one 0, .each 0 (.simple (.enum (["Accepted", "Rejected"].map String.toList)))]) (by decide) (oms := [false]) (by decide)
  rw [h]; clear h
  match vs, hv, hp with
  | [.str a], hv, hp =>
    change _ ↔ OneOf ["Accepted", "Rejected"] a
    have := oneOf_ne ["Accepted", "Rejected"] (by decide) a
    simp only [blocksAt, List.forall_mem_cons, Need.Holds, pick_zero, pick_succ, render_str, render_int, render_float, render_bool, render_time,
      scalar_nil, scalar_one, scalar_each, Bool.false_eq_true, false_and, true_and, and_true, false_or, or_false, or_true, true_or, scalarText, Blank,
      List.isEmpty_iff, beq_iff_eq, ne_eq, lexical_string, lexical_uri, lexical_max, lexical_intText, List.not_mem_nil, false_imp_iff, implies_true,
      not_false_eq_true, slice_str_each, and_false, lexical_enum ["Accepted", "Rejected"] (by decide)]
    try tauto

set_option maxRecDepth 8000 in
theorem ok_csrespChangeAvailability (G : FloatText) {vs : List Val} (hv : HasTys [.str] vs) (hp : Val.TimesAlls GoTime.Plain vs) :
    (∃ decl, (MsgType.resp .csrespChangeAvailability).wsdl = some decl ∧ XValid decl (rendered G (.resp .csrespChangeAvailability) (.struct vs))) ↔ RespOk G .csrespChangeAvailability vs := by
  obtain ⟨D, nm, h⟩ := rendered_iff G (m := .resp .csrespChangeAvailability) rfl hv rfl (by decide) (by decide) (by decide) (by decide) (by decide)
    (l := [.some 0, .one 0, .each 0 (.simple (.enum (["Accepted", "Rejected", "Scheduled"].map String.toList)))]) (by decide) (oms := [false]) (by decide)
  rw [h]; clear h
  match vs, hv, hp with
  | [.str a], hv, hp =>
    change _ ↔ OneOf ["Accepted", "Rejected", "Scheduled"] a
    have := oneOf_ne ["Accepted", "Rejected", "Scheduled"] (by decide) a
    simp only [blocksAt, List.forall_mem_cons, Need.Holds, pick_zero, pick_succ, render_str, render_int, render_float, render_bool, render_time,
      scalar_nil, scalar_one, scalar_each, Bool.false_eq_true, false_and, true_and, and_true, false_or, or_false, or_true, true_or, scalarText, Blank,
      List.isEmpty_iff, beq_iff_eq, ne_eq, lexical_string, lexical_uri, lexical_max, lexical_intText, List.not_mem_nil, false_imp_iff, implies_true,
      not_false_eq_true, slice_str_each, and_false, lexical_enum ["Accepted", "Rejected", "Scheduled"] (by decide)]
    try tauto

set_option maxRecDepth 8000 in
theorem ok_csrespChangeConfiguration (G : FloatText) {vs : List Val} (hv : HasTys [.str] vs) (hp : Val.TimesAlls GoTime.Plain vs) :
    (∃ decl, (MsgType.resp .csrespChangeConfiguration).wsdl = some decl ∧ XValid decl (rendered G (.resp .csrespChangeConfiguration) (.struct vs))) ↔ RespOk G .csrespChangeConfiguration vs := by
  obtain ⟨D, nm, h⟩ := rendered_iff G (m := .resp .csrespChangeConfiguration) rfl hv rfl (by decide) (by decide) (by decide) (by decide) (by decide)
    (l := [.some 0, .one 0, .each 0 (.simple (.enum (["Accepted", "Rejected", "NotSupported"].map String.toList)))]) (by decide) (oms := [false]) (by decide)
  rw [h]; clear h
  match vs, hv, hp with
  | [.str a], hv, hp =>
    change _ ↔ OneOf ["Accepted", "Rejected", "NotSupported"] a
    have := oneOf_ne ["Accepted", "Rejected", "NotSupported"] (by decide) a
    simp only [blocksAt, List.forall_mem_cons, Need.Holds, pick_zero, pick_succ, render_str, render_int, render_float, render_bool, render_time,
      scalar_nil, scalar_one, scalar_each, Bool.false_eq_true, false_and, true_and, and_true, false_or, or_false, or_true, true_or, scalarText, Blank,
      List.isEmpty_iff, beq_iff_eq, ne_eq, lexical_string, lexical_uri, lexical_max, lexical_intText, List.not_mem_nil, false_imp_iff, implies_true,
      not_false_eq_true, slice_str_each, and_false, lexical_enum ["Accepted", "Rejected", "NotSupported"] (by decide)]
    try tauto

set_option maxRecDepth 8000 in
theorem ok_csrespClearCache (G : FloatText) {vs : List Val} (hv : HasTys [.str] vs) (hp : Val.TimesAlls GoTime.Plain vs) :
    (∃ decl, (MsgType.resp .csrespClearCache).wsdl = some decl ∧ XValid decl (rendered G (.resp .csrespClearCache) (.struct vs))) ↔ RespOk G .csrespClearCache vs := by
  obtain ⟨D, nm, h⟩ := rendered_iff G (m := .resp .csrespClearCache) rfl hv rfl (by decide) (by decide) (by decide) (by decide) (by decide)
    (l := [.some 0, .one 0, .each 0 (.simple (.enum (["Accepted", "Rejected"].map String.toList)))]) (by decide) (oms := [false]) (by decide)
  rw [h]; clear h
  match vs, hv, hp with
  | [.str a], hv, hp =>
    change _ ↔ OneOf ["Accepted", "Rejected"] a
    have := oneOf_ne ["Accepted", "Rejected"] (by decide) a
    simp only [blocksAt, List.forall_mem_cons, Need.Holds, pick_zero, pick_succ, render_str, render_int, render_float, render_bool, render_time,
      scalar_nil, scalar_one, scalar_each, Bool.false_eq_true, false_and, true_and, and_true, false_or, or_false, or_true, true_or, scalarText, Blank,
      List.isEmpty_iff, beq_iff_eq, ne_eq, lexical_string, lexical_uri, lexical_max, lexical_intText, List.not_mem_nil, false_imp_iff, implies_true,
      not_false_eq_true, slice_str_each, and_false, lexical_enum ["Accepted", "Rejected"] (by decide)]
    try tauto

set_option maxRecDepth 8000 in
theorem ok_csrespDataTransfer (G : FloatText) {vs : List Val} (hv : HasTys [.str, .str] vs) (hp : Val.TimesAlls GoTime.Plain vs) :
    (∃ decl, (MsgType.resp .csrespDataTransfer).wsdl = some decl ∧ XValid decl (rendered G (.resp .csrespDataTransfer) (.struct vs))) ↔ RespOk G .csrespDataTransfer vs := by
  obtain ⟨D, nm, h⟩ := rendered_iff G (m := .resp .csrespDataTransfer) rfl hv rfl (by decide) (by decide) (by decide) (by decide) (by decide)
    (l := [.some 1, .one 1, .each 1 (.simple (.enum (["Accepted", "Rejected", "UnknownMessageId", "UnknownVendorId"].map String.toList))), .either 0 1, .one 0, .each 0 (.simple .string)]) (by decide) (oms := [true, false]) (by decide)
  rw [h]; clear h
  match vs, hv, hp with
  | [.str a, .str b], hv, hp =>
    change _ ↔ a = [] ∧ OneOf ["Accepted", "Rejected", "UnknownMessageId", "UnknownVendorId"] b
    have := oneOf_ne ["Accepted", "Rejected", "UnknownMessageId", "UnknownVendorId"] (by decide) b
    simp only [blocksAt, List.forall_mem_cons, Need.Holds, pick_zero, pick_succ, render_str, render_int, render_float, render_bool, render_time,
      scalar_nil, scalar_one, scalar_each, Bool.false_eq_true, false_and, true_and, and_true, false_or, or_false, or_true, true_or, scalarText, Blank,
      List.isEmpty_iff, beq_iff_eq, ne_eq, lexical_string, lexical_uri, lexical_max, lexical_intText, List.not_mem_nil, false_imp_iff, implies_true,
      not_false_eq_true, slice_str_each, and_false, lexical_enum ["Accepted", "Rejected", "UnknownMessageId", "UnknownVendorId"] (by decide)]
    try tauto

set_option maxRecDepth 8000 in
theorem ok_csrespGetDiagnostics (G : FloatText) {vs : List Val} (hv : HasTys [.str] vs) (hp : Val.TimesAlls GoTime.Plain vs) :
    (∃ decl, (MsgType.resp .csrespGetDiagnostics).wsdl = some decl ∧ XValid decl (rendered G (.resp .csrespGetDiagnostics) (.struct vs))) ↔ RespOk G .csrespGetDiagnostics vs := by
  obtain ⟨D, nm, h⟩ := rendered_iff G (m := .resp .csrespGetDiagnostics) rfl hv rfl (by decide) (by decide) (by decide) (by decide) (by decide)
    (l := [.one 0, .each 0 (.simple .string)]) (by decide) (oms := [true]) (by decide)
  rw [h]; clear h
  match vs, hv, hp with
  | [.str a], hv, hp =>
    change _ ↔ True
    simp only [blocksAt, List.forall_mem_cons, Need.Holds, pick_zero, pick_succ, render_str, render_int, render_float, render_bool, render_time,
      scalar_nil, scalar_one, scalar_each, Bool.false_eq_true, false_and, true_and, and_true, false_or, or_false, or_true, true_or, scalarText, Blank,
      List.isEmpty_iff, beq_iff_eq, ne_eq, lexical_string, lexical_uri, lexical_max, lexical_intText, List.not_mem_nil, false_imp_iff, implies_true,
      not_false_eq_true, slice_str_each, and_false]
    try tauto

set_option maxRecDepth 8000 in
theorem ok_csrespGetLocalListVersion (G : FloatText) {vs : List Val} (hv : HasTys [.int 64] vs) (hp : Val.TimesAlls GoTime.Plain vs) :
    (∃ decl, (MsgType.resp .csrespGetLocalListVersion).wsdl = some decl ∧ XValid decl (rendered G (.resp .csrespGetLocalListVersion) (.struct vs))) ↔ RespOk G .csrespGetLocalListVersion vs := by
  obtain ⟨D, nm, h⟩ := rendered_iff G (m := .resp .csrespGetLocalListVersion) rfl hv rfl (by decide) (by decide) (by decide) (by decide) (by decide)
    (l := [.some 0, .one 0, .each 0 (.simple .int)]) (by decide) (oms := [false]) (by decide)
  rw [h]; clear h
  match vs, hv, hp with
  | [.int a], hv, hp =>
    change _ ↔ Int32 a
    simp only [blocksAt, List.forall_mem_cons, Need.Holds, pick_zero, pick_succ, render_str, render_int, render_float, render_bool, render_time,
      scalar_nil, scalar_one, scalar_each, Bool.false_eq_true, false_and, true_and, and_true, false_or, or_false, or_true, true_or, scalarText, Blank,
      List.isEmpty_iff, beq_iff_eq, ne_eq, lexical_string, lexical_uri, lexical_max, lexical_intText, List.not_mem_nil, false_imp_iff, implies_true,
      not_false_eq_true, slice_str_each, and_false]
    try tauto

set_option maxRecDepth 8000 in
theorem ok_csrespRemoteStartTransaction (G : FloatText) {vs : List Val} (hv : HasTys [.str] vs) (hp : Val.TimesAlls GoTime.Plain vs) :
    (∃ decl, (MsgType.resp .csrespRemoteStartTransaction).wsdl = some decl ∧ XValid decl (rendered G (.resp .csrespRemoteStartTransaction) (.struct vs))) ↔ RespOk G .csrespRemoteStartTransaction vs := by
  obtain ⟨D, nm, h⟩ := rendered_iff G (m := .resp .csrespRemoteStartTransaction) rfl hv rfl (by decide) (by decide) (by decide) (by decide) (by decide)
    (l := [.some 0, .one 0, .each 0 (.simple (.enum (["Accepted", "Rejected"].map String.toList)))]) (by decide) (oms := [false]) (by decide)
  rw [h]; clear h
  match vs, hv, hp with
  | [.str a], hv, hp =>
    change _ ↔ OneOf ["Accepted", "Rejected"] a
    have := oneOf_ne ["Accepted", "Rejected"] (by decide) a
    simp only [blocksAt, List.forall_mem_cons, Need.Holds, pick_zero, pick_succ, render_str, render_int, render_float, render_bool, render_time,
      scalar_nil, scalar_one, scalar_each, Bool.false_eq_true, false_and, true_and, and_true, false_or, or_false, or_true, true_or, scalarText, Blank,
      List.isEmpty_iff, beq_iff_eq, ne_eq, lexical_string, lexical_uri, lexical_max, lexical_intText, List.not_mem_nil, false_imp_iff, implies_true,
      not_false_eq_true, slice_str_each, and_false, lexical_enum ["Accepted", "Rejected"] (by decide)]
    try tauto

set_option maxRecDepth 8000 in
theorem ok_csrespRemoteStopTransaction (G : FloatText) {vs : List Val} (hv : HasTys [.str] vs) (hp : Val.TimesAlls GoTime.Plain vs) :
    (∃ decl, (MsgType.resp .csrespRemoteStopTransaction).wsdl = some decl ∧ XValid decl (rendered G (.resp .csrespRemoteStopTransaction) (.struct vs))) ↔ RespOk G .csrespRemoteStopTransaction vs := by
  obtain ⟨D, nm, h⟩ := rendered_iff G (m := .resp .csrespRemoteStopTransaction) rfl hv rfl (by decide) (by decide) (by decide) (by decide) (by decide)
    (l := [.some 0, .one 0, .each 0 (.simple (.enum (["Accepted", "Rejected"].map String.toList)))]) (by decide) (oms := [false]) (by decide)
  rw [h]; clear h
  match vs, hv, hp with
  | [.str a], hv, hp =>
    change _ ↔ OneOf ["Accepted", "Rejected"] a
    have := oneOf_ne ["Accepted", "Rejected"] (by decide) a
    simp only [blocksAt, List.forall_mem_cons, Need.Holds, pick_zero, pick_succ, render_str, render_int, render_float, render_bool, render_time,
      scalar_nil, scalar_one, scalar_each, Bool.false_eq_true, false_and, true_and, and_true, false_or, or_false, or_true, true_or, scalarText, Blank,
      List.isEmpty_iff, beq_iff_eq, ne_eq, lexical_string, lexical_uri, lexical_max, lexical_intText, List.not_mem_nil, false_imp_iff, implies_true,
      not_false_eq_true, slice_str_each, and_false, lexical_enum ["Accepted", "Rejected"] (by decide)]
    try tauto

set_option maxRecDepth 8000 in
theorem ok_csrespReserveNow (G : FloatText) {vs : List Val} (hv : HasTys [.str] vs) (hp : Val.TimesAlls GoTime.Plain vs) :
    (∃ decl, (MsgType.resp .csrespReserveNow).wsdl = some decl ∧ XValid decl (rendered G (.resp .csrespReserveNow) (.struct vs))) ↔ RespOk G .csrespReserveNow vs := by
  obtain ⟨D, nm, h⟩ := rendered_iff G (m := .resp .csrespReserveNow) rfl hv rfl (by decide) (by decide) (by decide) (by decide) (by decide)
    (l := [.some 0, .one 0, .each 0 (.simple (.enum (["Accepted", "Faulted", "Occupied", "Rejected", "Unavailable"].map String.toList)))]) (by decide) (oms := [false]) (by decide)
  rw [h]; clear h
  match vs, hv, hp with
  | [.str a], hv, hp =>
    change _ ↔ OneOf ["Accepted", "Faulted", "Occupied", "Rejected", "Unavailable"] a
    have := oneOf_ne ["Accepted", "Faulted", "Occupied", "Rejected", "Unavailable"] (by decide) a
    simp only [blocksAt, List.forall_mem_cons, Need.Holds, pick_zero, pick_succ, render_str, render_int, render_float, render_bool, render_time,
      scalar_nil, scalar_one, scalar_each, Bool.false_eq_true, false_and, true_and, and_true, false_or, or_false, or_true, true_or, scalarText, Blank,
      List.isEmpty_iff, beq_iff_eq, ne_eq, lexical_string, lexical_uri, lexical_max, lexical_intText, List.not_mem_nil, false_imp_iff, implies_true,
      not_false_eq_true, slice_str_each, and_false, lexical_enum ["Accepted", "Faulted", "Occupied", "Rejected", "Unavailable"] (by decide)]
    try tauto

set_option maxRecDepth 8000 in
theorem ok_csrespReset (G : FloatText) {vs : List Val} (hv : HasTys [.str] vs) (hp : Val.TimesAlls GoTime.Plain vs) :
    (∃ decl, (MsgType.resp .csrespReset).wsdl = some decl ∧ XValid decl (rendered G (.resp .csrespReset) (.struct vs))) ↔ RespOk G .csrespReset vs := by
  obtain ⟨D, nm, h⟩ := rendered_iff G (m := .resp .csrespReset) rfl hv rfl (by decide) (by decide) (by decide) (by decide) (by decide)
    (l := [.some 0, .one 0, .each 0 (.simple (.enum (["Accepted", "Rejected"].map String.toList)))]) (by decide) (oms := [false]) (by decide)
  rw [h]; clear h
  match vs, hv, hp with
  | [.str a], hv, hp =>
    change _ ↔ OneOf ["Accepted", "Rejected"] a
    have := oneOf_ne ["Accepted", "Rejected"] (by decide) a
    simp only [blocksAt, List.forall_mem_cons, Need.Holds, pick_zero, pick_succ, render_str, render_int, render_float, render_bool, render_time,
      scalar_nil, scalar_one, scalar_each, Bool.false_eq_true, false_and, true_and, and_true, false_or, or_false, or_true, true_or, scalarText, Blank,
      List.isEmpty_iff, beq_iff_eq, ne_eq, lexical_string, lexical_uri, lexical_max, lexical_intText, List.not_mem_nil, false_imp_iff, implies_true,
      not_false_eq_true, slice_str_each, and_false, lexical_enum ["Accepted", "Rejected"] (by decide)]
    try tauto

set_option maxRecDepth 8000 in
theorem ok_csrespSendLocalList (G : FloatText) {vs : List Val} (hv : HasTys [.str] vs) (hp : Val.TimesAlls GoTime.Plain vs) :
    (∃ decl, (MsgType.resp .csrespSendLocalList).wsdl = some decl ∧ XValid decl (rendered G (.resp .csrespSendLocalList) (.struct vs))) ↔ RespOk G .csrespSendLocalList vs := by
  obtain ⟨D, nm, h⟩ := rendered_iff G (m := .resp .csrespSendLocalList) rfl hv rfl (by decide) (by decide) (by decide) (by decide) (by decide)
    (l := [.some 0, .one 0, .each 0 (.simple (.enum (["Accepted", "Failed", "HashError", "NotSupported", "VersionMismatch"].map String.toList)))]) (by decide) (oms := [false]) (by decide)
  rw [h]; clear h
  match vs, hv, hp with
  | [.str a], hv, hp =>
    change _ ↔ OneOf ["Accepted", "Failed", "HashError", "NotSupported", "VersionMismatch"] a
    have := oneOf_ne ["Accepted", "Failed", "HashError", "NotSupported", "VersionMismatch"] (by decide) a
    simp only [blocksAt, List.forall_mem_cons, Need.Holds, pick_zero, pick_succ, render_str, render_int, render_float, render_bool, render_time,
      scalar_nil, scalar_one, scalar_each, Bool.false_eq_true, false_and, true_and, and_true, false_or, or_false, or_true, true_or, scalarText, Blank,
      List.isEmpty_iff, beq_iff_eq, ne_eq, lexical_string, lexical_uri, lexical_max, lexical_intText, List.not_mem_nil, false_imp_iff, implies_true,
      not_false_eq_true, slice_str_each, and_false, lexical_enum ["Accepted", "Failed", "HashError", "NotSupported", "VersionMismatch"] (by decide)]
    try tauto

set_option maxRecDepth 8000 in
theorem ok_csrespUnlockConnector (G : FloatText) {vs : List Val} (hv : HasTys [.str] vs) (hp : Val.TimesAlls GoTime.Plain vs) :
    (∃ decl, (MsgType.resp .csrespUnlockConnector).wsdl = some decl ∧ XValid decl (rendered G (.resp .csrespUnlockConnector) (.struct vs))) ↔ RespOk G .csrespUnlockConnector vs := by
  obtain ⟨D, nm, h⟩ := rendered_iff G (m := .resp .csrespUnlockConnector) rfl hv rfl (by decide) (by decide) (by decide) (by decide) (by decide)
    (l := [.some 0, .one 0, .each 0 (.simple (.enum (["Accepted", "Rejected"].map String.toList)))]) (by decide) (oms := [false]) (by decide)
  rw [h]; clear h
  match vs, hv, hp with
  | [.str a], hv, hp =>
    change _ ↔ OneOf ["Accepted", "Rejected"] a
    have := oneOf_ne ["Accepted", "Rejected"] (by decide) a
    simp only [blocksAt, List.forall_mem_cons, Need.Holds, pick_zero, pick_succ, render_str, render_int, render_float, render_bool, render_time,
      scalar_nil, scalar_one, scalar_each, Bool.false_eq_true, false_and, true_and, and_true, false_or, or_false, or_true, true_or, scalarText, Blank,
      List.isEmpty_iff, beq_iff_eq, ne_eq, lexical_string, lexical_uri, lexical_max, lexical_intText, List.not_mem_nil, false_imp_iff, implies_true,
      not_false_eq_true, slice_str_each, and_false, lexical_enum ["Accepted", "Rejected"] (by decide)]
    try tauto

set_option maxRecDepth 8000 in
theorem ok_csrespUpdateFirmware (G : FloatText) {vs : List Val} (hv : HasTys [] vs) (hp : Val.TimesAlls GoTime.Plain vs) :
    (∃ decl, (MsgType.resp .csrespUpdateFirmware).wsdl = some decl ∧ XValid decl (rendered G (.resp .csrespUpdateFirmware) (.struct vs))) ↔ RespOk G .csrespUpdateFirmware vs := by
  obtain ⟨D, nm, h⟩ := rendered_iff G (m := .resp .csrespUpdateFirmware) rfl hv rfl (by decide) (by decide) (by decide) (by decide) (by decide)
    (l := []) (by decide) (oms := []) (by decide)
  rw [h]; clear h
  match vs, hv, hp with
  | [], hv, hp =>
    change _ ↔ True
    simp only [blocksAt, List.forall_mem_cons, Need.Holds, pick_zero, pick_succ, render_str, render_int, render_float, render_bool, render_time,
      scalar_nil, scalar_one, scalar_each, Bool.false_eq_true, false_and, true_and, and_true, false_or, or_false, or_true, true_or, scalarText, Blank,
      List.isEmpty_iff, beq_iff_eq, ne_eq, lexical_string, lexical_uri, lexical_max, lexical_intText, List.not_mem_nil, false_imp_iff, implies_true,
      not_false_eq_true, slice_str_each, and_false]
    try tauto

/-! ### The others -/

set_option maxRecDepth 8000 in
theorem ok_csreqGetDiagnostics (G : FloatText) {vs : List Val} (hv : HasTys [.str, .int 64, .int 64, (.ptr .time), (.ptr .time)] vs)
    (hp : Val.TimesAlls GoTime.Plain vs) :
    (∃ decl, (MsgType.req .csreqGetDiagnostics).wsdl = some decl ∧ XValid decl (rendered G (.req .csreqGetDiagnostics) (.struct vs))) ↔
      ReqOk .csreqGetDiagnostics vs := by
  obtain ⟨D, nm, h⟩ := rendered_iff G (m := .req .csreqGetDiagnostics) rfl hv rfl (by decide) (by decide) (by decide) (by decide) (by decide)
    (l := [.some 0, .one 0, .each 0 (.simple .uri), .one 3, .each 3 (.simple .dateTime), .either 1 3, .either 2 3, .one 4,
      .each 4 (.simple .dateTime), .either 1 4, .either 2 4, .one 1, .each 1 (.simple .int), .one 2, .each 2 (.simple .int)]) (by decide)
    (oms := [false, true, true, true, true]) (by decide)
  rw [h]; clear h
  have h0 : Int32 0 := by unfold Int32; decide
  have key : ∀ n om (v : Val), HasTy (.ptr .time) v → v.TimesAll GoTime.Plain →
      (render G D (.ptr .time) n om v = [] ↔ v = Val.nil) ∧ (render G D (.ptr .time) n om v).length ≤ 1 ∧
      ((∀ k ∈ render G D (.ptr .time) n om v, OfType D (.simple .dateTime) k.attrs k.data k.kids) ↔ DateOk? v) := by
    intro n om v hv hp
    cases v with
    | nil => simp [render, DateOk?]
    | ptr v =>
      cases v with
      | time t =>
        have e : render G D (.ptr .time) n om (.ptr (.time t)) = scalar G D n false (.time t) := rfl
        rw [e, scalar_nil, scalar_each]
        refine ⟨by simp, scalar_one _ _ _ _ _, ?_⟩
        simp only [Bool.false_eq_true, false_and, false_or, scalarText, DateOk?]
        exact lexical_time hp
      | _ => simp [HasTy] at hv
    | _ => simp [HasTy] at hv
  match vs, hv, hp with
  | [.str a, .int b, .int c, d, e], hv, hp =>
    change _ ↔ Int32 b ∧ Int32 c ∧ DateOk? d ∧ DateOk? e ∧ ((b = 0 ∧ c = 0) ∨ (d = Val.nil ∧ e = Val.nil))
    have kd := fun n om => key n om d hv.2.2.2.1 hp.2.2.2.1
    have ke := fun n om => key n om e hv.2.2.2.2.1 hp.2.2.2.2.1
    have hb : b = 0 → Int32 b := by rintro rfl; exact h0
    have hc : c = 0 → Int32 c := by rintro rfl; exact h0
    simp only [blocksAt, List.forall_mem_cons, Need.Holds, pick_zero, pick_succ, render_str, render_int, render_float, render_bool, render_time,
      scalar_nil, scalar_one, scalar_each, Bool.false_eq_true, false_and, true_and, and_true, false_or, or_false, or_true, true_or, scalarText, Blank,
      List.isEmpty_iff, beq_iff_eq, ne_eq, lexical_string, lexical_uri, lexical_max, lexical_intText, List.not_mem_nil, false_imp_iff, implies_true,
      not_false_eq_true, slice_str_each, and_false, (kd _ _).1, (kd _ _).2.1, (kd _ _).2.2, (ke _ _).1, (ke _ _).2.1, (ke _ _).2.2]
    tauto

set_option maxRecDepth 8000 in
theorem ok_cprespBootNotification (G : FloatText) {vs : List Val} (hv : HasTys [.str, .time, .float] vs) (hp : Val.TimesAlls GoTime.Plain vs) :
    (∃ decl, (MsgType.resp .cprespBootNotification).wsdl = some decl ∧ XValid decl (rendered G (.resp .cprespBootNotification) (.struct vs))) ↔
      RespOk G .cprespBootNotification vs := by
  obtain ⟨D, nm, h⟩ := rendered_iff G (m := .resp .cprespBootNotification) rfl hv rfl (by decide) (by decide) (by decide) (by decide) (by decide)
    (l := [.some 0, .one 0, .each 0 (.simple (.enum (["Accepted", "Rejected"].map String.toList))), .some 1, .one 1, .each 1 (.simple .dateTime),
      .some 2, .one 2, .each 2 (.simple .int)]) (by decide) (oms := [true, true, true]) (by decide)
  rw [h]; clear h
  match vs, hv, hp with
  | [.str a, .time b, .float c], hv, hp =>
    change _ ↔ OneOf ["Accepted", "Rejected"] a ∧ DateOk b ∧ ∃ q n, c = .fin q ∧ q ≠ 0 ∧ IntText (G.fmt q) n ∧ Int32 n
    have := oneOf_ne ["Accepted", "Rejected"] (by decide) a
    have hword : ∀ (x y : Char) (w : Text), charDigit y = none → (x = '+' ∨ x = '-' ∨ charDigit x = none) → cleanText (x :: y :: w) = x :: y :: w →
        x ≠ ' ' → x ≠ '\t' → x ≠ '\n' → x ≠ '\r' → (∀ c ∈ y :: w, c ≠ ' ' ∧ c ≠ '\t' ∧ c ≠ '\n' ∧ c ≠ '\r') →
        ¬ XSimple.int.Lexical (cleanText (x :: y :: w)) := by
      rintro x y w hy hx hc h1 h2 h3 h4 h5 ⟨a', u, b', n, h6, ⟨neg, ds, hne, hs, -⟩, -, -⟩
      rw [hc] at h6
      obtain ⟨-, -, rfl⟩ := space_not_mem h6 (by
        intro c hc
        rcases List.mem_cons.1 hc with rfl | hc
        · exact ⟨h1, h2, h3, h4⟩
        · exact h5 c hc)
      obtain ⟨d, ds, rfl⟩ := List.exists_cons_of_ne_nil hne
      have hdig : ∀ (d : Fin 10), charDigit (digitChar d) = some d := by decide
      rcases hs with ⟨-, h | h⟩ | ⟨-, h⟩
      · simp only [List.map_cons, List.cons.injEq] at h
        rcases hx with rfl | rfl | hx
        · exact digitChar_ne '+' (by decide) d h.1.symm
        · exact digitChar_ne '-' (by decide) d h.1.symm
        · rw [h.1, hdig] at hx; cases hx
      · simp only [List.map_cons, List.cons.injEq] at h
        rw [h.2.1, hdig] at hy; cases hy
      · simp only [List.map_cons, List.cons.injEq] at h
        rw [h.2.1, hdig] at hy; cases hy
    have hf : (scalar G D (nm 2) true (.float c) ≠ [] ∧ ∀ k ∈ scalar G D (nm 2) true (.float c), OfType D (.simple .int) k.attrs k.data k.kids) ↔
        ∃ q n, c = .fin q ∧ q ≠ 0 ∧ IntText (G.fmt q) n ∧ Int32 n := by
      rw [scalar_each, ne_eq, scalar_nil]
      cases c with
      | fin q =>
        simp only [Blank, scalarText, beq_iff_eq, true_and, GoFloat.fin.injEq, lexical_int _ (G.chars q)]
        constructor
        · rintro ⟨h1, h2 | ⟨n, h2⟩⟩
          · exact absurd h2 h1
          · exact ⟨q, n, rfl, h1, h2⟩
        · rintro ⟨_, n, rfl, h1, h2⟩
          exact ⟨h1, Or.inr ⟨n, h2⟩⟩
      | nan =>
        have hn := hword 'N' 'a' ['N'] (by decide) (by decide) (by decide) (by decide) (by decide) (by decide) (by decide) (by decide)
        simp only [Blank, scalarText, Bool.false_eq_true, and_false, not_false_eq_true, true_and, false_or, reduceCtorEq, false_and, exists_false, iff_false]
        exact hn
      | inf neg =>
        have hn := hword '-' 'I' ['n', 'f'] (by decide) (by decide) (by decide) (by decide) (by decide) (by decide) (by decide) (by decide)
        have hn' := hword '+' 'I' ['n', 'f'] (by decide) (by decide) (by decide) (by decide) (by decide) (by decide) (by decide) (by decide)
        simp only [Blank, scalarText, Bool.false_eq_true, and_false, not_false_eq_true, true_and, false_or, reduceCtorEq, false_and, exists_false, iff_false]
        cases neg
        · exact hn'
        · exact hn
    rw [← hf, scalar_each, ne_eq, scalar_nil]
    simp only [blocksAt, List.forall_mem_cons, Need.Holds, pick_zero, pick_succ, render_str, render_int, render_float, render_bool, render_time,
      scalar_nil, scalar_one, scalar_each, Bool.false_eq_true, false_and, true_and, and_true, false_or, or_false, or_true, true_or, scalarText, Blank,
      List.isEmpty_iff, beq_iff_eq, ne_eq, lexical_string, lexical_uri, lexical_max, lexical_intText, List.not_mem_nil, false_imp_iff, implies_true,
      not_false_eq_true, slice_str_each, and_false, lexical_enum ["Accepted", "Rejected"] (by decide), lexical_time (t := b) hp.2.1]
    tauto

set_option maxRecDepth 8000 in
theorem ok_cprespAuthorize (G : FloatText) {vs : List Val} (hv : HasTys [(.ptr cpresp.IdTagInfo)] vs) (hp : Val.TimesAlls GoTime.Plain vs) :
    (∃ decl, (MsgType.resp .cprespAuthorize).wsdl = some decl ∧ XValid decl (rendered G (.resp .cprespAuthorize) (.struct vs))) ↔
      RespOk G .cprespAuthorize vs := by
  obtain ⟨D, nm, h⟩ := rendered_iff G (m := .resp .cprespAuthorize) rfl hv rfl (by decide) (by decide) (by decide) (by decide) (by decide)
    (l := [.some 0, .one 0, .each 0 Wsdl.Cs.idTagInfo]) (by decide) (oms := [true]) (by decide)
  rw [h]; clear h
  match vs, hv, hp with
  | [a], hv, hp =>
    change _ ↔ ∃ status, a = .ptr (.struct [.nil, .str [], .str status]) ∧ OneOf ["Accepted", "Blocked", "Expired", "Invalid", "ConcurrentTx"] status
    simp only [blocksAt, List.forall_mem_cons, Need.Holds, pick_zero, ptr_nil G D cpresp.IdTagInfo rfl hv.1, ne_eq, List.not_mem_nil, false_imp_iff,
      implies_true, and_true]
    cases a with
    | nil => simp
    | ptr v =>
      cases v with
      | struct ws =>
        have e : render G D (.ptr cpresp.IdTagInfo) (nm 0) true (.ptr (.struct ws)) =
          [.elem ⟨D, nm 0⟩ (renderAttrs G cpresp.IdTagInfo.info.fields ws) (renderData G cpresp.IdTagInfo.info.fields ws)
            (renderFields G D cpresp.IdTagInfo.info.fields [.ptr .time, .str, .str] ws)] := rfl
        rw [e]
        have hw : HasTys [.ptr .time, .str, .str] ws := hv.1
        obtain ⟨nm', h⟩ := inner_iff G D (info := cpresp.IdTagInfo.info) (T := Wsdl.Cs.idTagInfo) hw (by decide) (by decide) (by decide) (by decide)
          (l := [.some 2, .one 2, .each 2 (.simple (.enum (["Accepted", "Blocked", "Expired", "Invalid", "ConcurrentTx"].map String.toList))),
            .either 0 2, .either 1 2, .one 0, .each 0 (.simple .dateTime), .one 1, .each 1 (.simple (.max 20))]) (by decide) (oms := [true, true, true]) (by decide)
        rw [each_single, h]
        simp only [List.length_singleton, Nat.le_refl, true_and, reduceCtorEq, not_false_eq_true, Val.ptr.injEq, Val.struct.injEq]
        clear h e
        match ws, hw with
        | [x, .str p, .str s], hw =>
          have := oneOf_ne ["Accepted", "Blocked", "Expired", "Invalid", "ConcurrentTx"] (by decide) s
          have hx : ∀ n, render G D (.ptr .time) n true x = [] ↔ x = Val.nil := by
            intro n
            have hx := hw.1
            cases x with
            | nil => simp [render]
            | ptr v => simp [render, Blank]
            | _ => simp [HasTy] at hx
          simp only [blocksAt, List.forall_mem_cons, Need.Holds, pick_zero, pick_succ, render_str, render_int, render_float, render_bool, render_time,
      scalar_nil, scalar_one, scalar_each, Bool.false_eq_true, false_and, true_and, and_true, false_or, or_false, or_true, true_or, scalarText, Blank,
      List.isEmpty_iff, beq_iff_eq, ne_eq, lexical_string, lexical_uri, lexical_max, lexical_intText, List.not_mem_nil, false_imp_iff, implies_true,
      not_false_eq_true, slice_str_each, and_false, hx, lexical_enum ["Accepted", "Blocked", "Expired", "Invalid", "ConcurrentTx"] (by decide), List.cons.injEq, Val.str.injEq]
          constructor
          · rintro ⟨h1, h2, h3, h4, -⟩
            exact ⟨s, ⟨h3.resolve_right h1, h4.resolve_right h1, rfl⟩, h2.resolve_left h1⟩
          · rintro ⟨_, ⟨rfl, rfl, rfl⟩, h⟩
            simp [render, h, this h]
      | _ => exact absurd hv.1 (by simp [HasTy, cpresp.IdTagInfo])
    | _ => exact absurd hv.1 (by simp [HasTy])

/-- Of the entries of a list of pointers to structs, those that are not nil are written. -/
theorem mem_render_list {G : FloatText} {D n : Text} {om : Bool} {info : StructInfo} {ts : List Ty} {us : List Val} (hv : HasTy (.slice (.ptr (.struct info ts))) (.slice us))
    (k : Info) : k ∈ render G D (.slice (.ptr (.struct info ts))) n om (.slice us) ↔ ∃ ws, .ptr (.struct ws) ∈ us ∧ HasTys ts ws ∧
      k = .elem ⟨D, n⟩ (renderAttrs G info.fields ws) (renderData G info.fields ws) (renderFields G D info.fields ts ws) := by
  have e : render G D (.slice (.ptr (.struct info ts))) n om (.slice us) = us.flatMap (render G D (.ptr (.struct info ts)) n om) := rfl
  rw [e, List.mem_flatMap]
  have hv' : ∀ u ∈ us, HasTy (.ptr (.struct info ts)) u := hv
  constructor
  · rintro ⟨u, hu, hk⟩
    have ht := hv' u hu
    cases u with
    | ptr v =>
      cases v with
      | struct ws =>
        have : k ∈ [Info.elem ⟨D, n⟩ (renderAttrs G info.fields ws) (renderData G info.fields ws) (renderFields G D info.fields ts ws)] := hk
        exact ⟨ws, hu, ht, by simpa using this⟩
      | _ => simp [HasTy] at ht
    | nil => cases hk
    | _ => simp [HasTy] at ht
  · rintro ⟨ws, hu, -, rfl⟩
    exact ⟨_, hu, List.mem_singleton.2 rfl⟩

set_option maxRecDepth 8000 in
theorem ok_csrespGetConfiguration (G : FloatText) {vs : List Val} (hv : HasTys [.slice (.ptr csresp.ConfigurationKeyItems), .slice .str] vs)
    (hp : Val.TimesAlls GoTime.Plain vs) :
    (∃ decl, (MsgType.resp .csrespGetConfiguration).wsdl = some decl ∧ XValid decl (rendered G (.resp .csrespGetConfiguration) (.struct vs))) ↔
      RespOk G .csrespGetConfiguration vs := by
  obtain ⟨D, nm, h⟩ := rendered_iff G (m := .resp .csrespGetConfiguration) rfl hv rfl (by decide) (by decide) (by decide) (by decide) (by decide)
    (l := [.each 0 Wsdl.Cp.keyValue, .each 1 (.simple .string)]) (by decide) (oms := [true, true]) (by decide)
  rw [h]; clear h
  change _ ↔ True
  match vs, hv with
  | [a, b], hv =>
    simp only [blocksAt, List.forall_mem_cons, Need.Holds, pick_zero, pick_succ, render_str, render_int, render_float, render_bool, render_time,
      scalar_nil, scalar_one, scalar_each, Bool.false_eq_true, false_and, true_and, and_true, false_or, or_false, or_true, true_or, scalarText, Blank,
      List.isEmpty_iff, beq_iff_eq, ne_eq, lexical_string, lexical_uri, lexical_max, lexical_intText, List.not_mem_nil, false_imp_iff, implies_true,
      not_false_eq_true, slice_str_each, and_false, iff_true]
    intro k hk
    have ha := hv.1
    cases a with
    | slice us =>
      obtain ⟨ws, -, hw, rfl⟩ := (mem_render_list (info := csresp.ConfigurationKeyItems.info) (ts := [.str, .bool, .str]) ha k).1 hk
      obtain ⟨nm', h⟩ := inner_iff G D (info := csresp.ConfigurationKeyItems.info) (T := Wsdl.Cp.keyValue) hw (by decide) (by decide) (by decide) (by decide)
        (l := [.some 0, .one 0, .each 0 (.simple .string), .some 1, .one 1, .each 1 (.simple .boolean), .one 2, .each 2 (.simple .string)]) (by decide)
        (oms := [false, false, true]) (by decide)
      refine h.2 ?_
      clear h
      match ws, hw with
      | [.str x, .bool y, .str z], _ =>
        simp only [blocksAt, List.forall_mem_cons, Need.Holds, pick_zero, pick_succ, render_str, render_int, render_float, render_bool, render_time,
      scalar_nil, scalar_one, scalar_each, Bool.false_eq_true, false_and, true_and, and_true, false_or, or_false, or_true, true_or, scalarText, Blank,
      List.isEmpty_iff, beq_iff_eq, ne_eq, lexical_string, lexical_uri, lexical_max, lexical_intText, List.not_mem_nil, false_imp_iff, implies_true,
      not_false_eq_true, slice_str_each, and_false]
        have hsp : Space [] := fun c hc => by cases hc
        refine ⟨[], if y then "true".toList else "false".toList, [], ⟨hsp, hsp, ?_⟩, ?_⟩
        · cases y <;> decide
        · cases y <;> decide
    | nil => cases hk
    | _ => simp [HasTy] at ha

set_option maxRecDepth 8000 in
theorem ok_cpreqMeterValues (G : FloatText) {vs : List Val} (hv : HasTys [.int 64, .slice (.ptr cpreq.MeterValueItems), .int 32] vs)
    (hp : Val.TimesAlls GoTime.Plain vs) :
    (∃ decl, (MsgType.req .cpreqMeterValues).wsdl = some decl ∧ XValid decl (rendered G (.req .cpreqMeterValues) (.struct vs))) ↔
      ReqOk .cpreqMeterValues vs := by
  obtain ⟨D, nm, h⟩ := rendered_iff G (m := .req .cpreqMeterValues) rfl hv rfl (by decide) (by decide) (by decide) (by decide) (by decide)
    (l := [.some 0, .one 0, .each 0 (.simple .int), .one 2, .each 2 (.simple .int), .either 1 2, .each 1 Wsdl.Cs.meterValue]) (by decide)
    (oms := [true, true, true]) (by decide)
  rw [h]; clear h
  match vs, hv with
  | [.int a, b, .int c], hv =>
    change _ ↔ a ≠ 0 ∧ Int32 a ∧ (b = Val.nil ∨ ∃ us, b = Val.slice us ∧ ∀ v ∈ us, v = Val.nil)
    have hc : Int32 c := ⟨hv.2.2.1.1, hv.2.2.1.2⟩
    simp only [blocksAt, List.forall_mem_cons, Need.Holds, pick_zero, pick_succ, render_str, render_int, render_float, render_bool, render_time,
      scalar_nil, scalar_one, scalar_each, Bool.false_eq_true, false_and, true_and, and_true, false_or, or_false, or_true, true_or, scalarText, Blank,
      List.isEmpty_iff, beq_iff_eq, ne_eq, lexical_string, lexical_uri, lexical_max, lexical_intText, List.not_mem_nil, false_imp_iff, implies_true,
      not_false_eq_true, slice_str_each, and_false, hc]
    -- an entry is never valid
    have hbad : ∀ ws, HasTys [.slice (.ptr cpreq.SampledValue), .time] ws →
        ¬ OfType D Wsdl.Cs.meterValue (renderAttrs G cpreq.MeterValueItems.info.fields ws) (renderData G cpreq.MeterValueItems.info.fields ws)
          (renderFields G D cpreq.MeterValueItems.info.fields [.slice (.ptr cpreq.SampledValue), .time] ws) := by
      intro ws hw
      obtain ⟨nm', h⟩ := inner_iff G D (info := cpreq.MeterValueItems.info) (T := Wsdl.Cs.meterValue) hw (by decide) (by decide) (by decide) (by decide)
        (l := [.some 1, .one 1, .each 1 (.simple .dateTime), .either 0 1, .some 0, .each 0 (.attributed [("context".toList, Wsdl.Cs.readingContext),
          ("format".toList, Wsdl.Cs.valueFormat), ("measurand".toList, Wsdl.Cs.measurand), ("location".toList, Wsdl.Cs.location), ("unit".toList, Wsdl.Cs.unitOfMeasure)])])
        (by decide) (oms := [true, true]) (by decide)
      rw [h]
      simp only [List.forall_mem_cons, Need.Holds]
      tauto
    have hb := hv.2.1
    have key : ((∀ k ∈ render G D (.slice (.ptr cpreq.MeterValueItems)) (nm (0 + 1)) true b, OfType D Wsdl.Cs.meterValue k.attrs k.data k.kids) ↔
        (b = Val.nil ∨ ∃ us, b = Val.slice us ∧ ∀ v ∈ us, v = Val.nil)) ∧
        ((∀ k ∈ render G D (.slice (.ptr cpreq.MeterValueItems)) (nm (0 + 1)) true b, OfType D Wsdl.Cs.meterValue k.attrs k.data k.kids) →
          render G D (.slice (.ptr cpreq.MeterValueItems)) (nm (0 + 1)) true b = []) := by
      cases b with
      | nil => exact ⟨⟨fun _ => Or.inl rfl, fun _ k hk => by cases hk⟩, fun _ => rfl⟩
      | slice us =>
        have hm := mem_render_list (G := G) (D := D) (n := nm (0 + 1)) (om := true) (info := cpreq.MeterValueItems.info) (ts := [.slice (.ptr cpreq.SampledValue), .time]) hb
        have hempty : (∀ k ∈ render G D (.slice (.ptr cpreq.MeterValueItems)) (nm (0 + 1)) true (.slice us), OfType D Wsdl.Cs.meterValue k.attrs k.data k.kids) →
            ∀ k, k ∉ render G D (.slice (.ptr cpreq.MeterValueItems)) (nm (0 + 1)) true (.slice us) := by
          intro h k hk
          obtain ⟨ws, -, hw, rfl⟩ := (hm k).1 hk
          exact hbad ws hw (h _ hk)
        refine ⟨⟨fun h => Or.inr ⟨us, rfl, fun u hu => ?_⟩, fun h k hk => ?_⟩, fun h => List.eq_nil_iff_forall_not_mem.2 (hempty h)⟩
        · have ht : HasTy (.ptr cpreq.MeterValueItems) u := hb u hu
          cases u with
          | nil => rfl
          | ptr v =>
            cases v with
            | struct ws => exact absurd ((hm _).2 ⟨ws, hu, ht, rfl⟩) (hempty h _)
            | _ => exact absurd ht (by simp [HasTy, cpreq.MeterValueItems])
          | _ => simp [HasTy] at ht
        · rcases h with h | ⟨_, h, h'⟩
          · cases h
          · cases h
            obtain ⟨ws, hu, -⟩ := (hm k).1 hk
            exact absurd (h' _ hu) (by simp)
      | _ => simp [HasTy] at hb
    obtain ⟨k1, k2⟩ := key
    rw [k1] at k2 ⊢
    generalize (b = Val.nil ∨ ∃ us, b = Val.slice us ∧ ∀ v ∈ us, v = Val.nil) = P at k2 ⊢
    generalize render G D (.slice (.ptr cpreq.MeterValueItems)) (nm (0 + 1)) true b = r at k2 ⊢
    tauto

end Verif.Soap
