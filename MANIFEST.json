{
 "claims": [
  {
   "property": "C01",
   "status": "proved",
   "theorems": [
    "Verif.C01_wellformed",
    "Verif.C01_readable",
    "Verif.C01_member"
   ],
   "note": ""
  },
  {
   "property": "C02",
   "status": "proved",
   "theorems": [
    "Verif.C02_roundTrip",
    "Verif.C02_lossless"
   ],
   "note": ""
  },
  {
   "property": "C03",
   "status": "proved",
   "theorems": [
    "Verif.C03_order"
   ],
   "note": ""
  },
  {
   "property": "C04",
   "status": "proved",
   "theorems": [
    "Verif.C04_decode",
    "Verif.C04_closed",
    "Verif.C04_field"
   ],
   "note": ""
  },
  {
   "property": "C05",
   "status": "proved",
   "theorems": [
    "Verif.C05_null",
    "Verif.C05_allNull"
   ],
   "note": ""
  },
  {
   "property": "C06",
   "status": "proved",
   "theorems": [
    "Verif.C06_missing",
    "Verif.C06_unknown",
    "Verif.C06_case"
   ],
   "note": ""
  },
  {
   "property": "C07",
   "status": "proved",
   "theorems": [
    "Verif.C07_lost",
    "Verif.C07_received"
   ],
   "note": ""
  },
  {
   "property": "C08",
   "status": "proved",
   "theorems": [
    "Verif.C08_panic_iff",
    "Verif.C08_response_noPanic"
   ],
   "note": ""
  },
  {
   "property": "C09",
   "status": "proved",
   "theorems": [
    "Verif.C09_refused",
    "Verif.C09_messages"
   ],
   "note": ""
  },
  {
   "property": "C10",
   "status": "proved",
   "theorems": [
    "Verif.Ocppj.C10_call",
    "Verif.Ocppj.C10_error",
    "Verif.Ocppj.C10_refusal",
    "Verif.Ocppj.C10_handlerError",
    "Verif.Ocppj.C10_result",
    "Verif.Ocppj.C10_request",
    "Verif.Ocppj.C10_unsendable"
   ],
   "note": ""
  },
  {
   "property": "C11",
   "status": "proved",
   "theorems": [
    "Verif.Ocppj.C11_classified",
    "Verif.Ocppj.C11_everyText"
   ],
   "note": ""
  },
  {
   "property": "C12",
   "status": "proved",
   "theorems": [
    "Verif.Ocppj.C12_crash",
    "Verif.Ocppj.C12_crash_only",
    "Verif.Ocppj.C12_crash_iff"
   ],
   "note": ""
  },
  {
   "property": "C13",
   "status": "proved",
   "theorems": [
    "Verif.Ocppj.C13_normalise",
    "Verif.Ocppj.C13_lenient"
   ],
   "note": ""
  },
  {
   "property": "C14",
   "status": "proved",
   "theorems": [
    "Verif.Ocppj.C14_request",
    "Verif.Ocppj.C14_response"
   ],
   "note": ""
  },
  {
   "property": "C15",
   "status": "proved",
   "theorems": [
    "Verif.Ocppj.C15_corrupted",
    "Verif.Ocppj.C15_request",
    "Verif.Ocppj.C15_response"
   ],
   "note": ""
  },
  {
   "property": "C16",
   "status": "proved",
   "theorems": [
    "Verif.Ocppj.C16_noAnswer",
    "Verif.Ocppj.C16_stranded"
   ],
   "note": ""
  },
  {
   "property": "C17",
   "status": "proved",
   "theorems": [
    "Verif.Ocppj.C17_actions",
    "Verif.Ocppj.C17_responses"
   ],
   "note": ""
  },
  {
   "property": "C18",
   "status": "proved",
   "theorems": [
    "Verif.Ocppj.C18_json",
    "Verif.Soap.C18_soap"
   ],
   "note": ""
  },
  {
   "property": "C19",
   "status": "proved",
   "theorems": [
    "Verif.Ocppj.C19_crash",
    "Verif.Ocppj.C19_dataTransfer"
   ],
   "note": ""
  },
  {
   "property": "C20",
   "status": "proved",
   "theorems": [
    "Verif.Ocppj.C20_calls",
    "Verif.Ocppj.C20_frame",
    "Verif.Ocppj.C20_progress"
   ],
   "note": ""
  },
  {
   "property": "C21",
   "status": "proved",
   "theorems": [
    "Verif.Conn.C21_responses_never_crossed",
    "Verif.Conn.C21_ids_distinct"
   ],
   "note": ""
  },
  {
   "property": "C22",
   "status": "proved",
   "theorems": [
    "Verif.Conn.C22_one_reader"
   ],
   "note": ""
  },
  {
   "property": "C23",
   "status": "proved",
   "theorems": [
    "Verif.Conn.C23_requests_in_order"
   ],
   "note": ""
  },
  {
   "property": "C24",
   "status": "proved",
   "theorems": [
    "Verif.Conn.C24_one_reply_per_request"
   ],
   "note": ""
  },
  {
   "property": "C25",
   "status": "proved",
   "theorems": [
    "Verif.Conn.C25_unsolicited_ignored"
   ],
   "note": ""
  },
  {
   "property": "C26",
   "status": "proved",
   "theorems": [
    "Verif.Conn.C26_late_response_wedges"
   ],
   "note": ""
  },
  {
   "property": "C27",
   "status": "proved",
   "theorems": [
    "Verif.Conn.C27_no_reads_while_handling"
   ],
   "note": ""
  },
  {
   "property": "C28",
   "status": "proved",
   "theorems": [
    "Verif.Conn.C28_leak_per_request"
   ],
   "note": ""
  },
  {
   "property": "C29",
   "status": "proved",
   "theorems": [
    "Verif.Conn.C29_pending_entries",
    "Verif.Conn.C29_leak"
   ],
   "note": ""
  },
  {
   "property": "C30",
   "status": "proved",
   "theorems": [
    "Verif.Conn.C30_close_is_final",
    "Verif.Conn.C30_closed_iff",
    "Verif.Conn.C30_nothing_written"
   ],
   "note": ""
  },
  {
   "property": "C31",
   "status": "proved",
   "theorems": [
    "Verif.Mutex.C31_writes_do_not_interleave",
    "Verif.Mutex.C31_own_frame"
   ],
   "note": ""
  },
  {
   "property": "C32",
   "status": "proved",
   "theorems": [
    "Verif.Conn.C32_data_race"
   ],
   "note": ""
  },
  {
   "property": "C33",
   "status": "proved",
   "theorems": [
    "Verif.Registry.C33_registry_consistent"
   ],
   "note": ""
  },
  {
   "property": "C34",
   "status": "proved",
   "theorems": [
    "Verif.Registry.C34_getServiceOf"
   ],
   "note": ""
  },
  {
   "property": "C35",
   "status": "proved",
   "theorems": [
    "Verif.Registry.C35_live_found_in_order",
    "Verif.Registry.C35_dead_if_newest_closed",
    "Verif.Registry.C35_dead_connection_returned"
   ],
   "note": ""
  },
  {
   "property": "C36",
   "status": "proved",
   "theorems": [
    "Verif.Registry.C36_waitConnect",
    "Verif.Registry.C36_waitConnect_returns"
   ],
   "note": ""
  },
  {
   "property": "C37",
   "status": "proved",
   "theorems": [
    "Verif.Registry.C37_waitDisconnect"
   ],
   "note": ""
  },
  {
   "property": "C38",
   "status": "proved",
   "theorems": [
    "Verif.Registry.C38_listeners_at_most_once",
    "Verif.Registry.C38_listeners_exactly_once",
    "Verif.Registry.C38_disconnect_reported_first"
   ],
   "note": ""
  },
  {
   "property": "C39",
   "status": "proved",
   "theorems": [
    "Verif.Registry.C39_isolation"
   ],
   "note": ""
  },
  {
   "property": "C40",
   "status": "proved",
   "theorems": [
    "Verif.Registry.C40_landing_page"
   ],
   "note": ""
  },
  {
   "property": "C41",
   "status": "proved",
   "theorems": [
    "Verif.Http.C41_identity",
    "Verif.Http.C41_identities_distinct",
    "Verif.Http.C41_identity_cut",
    "Verif.Http.C41_exact"
   ],
   "note": ""
  },
  {
   "property": "C42",
   "status": "proved",
   "theorems": [
    "Verif.Http.C42_dispatch",
    "Verif.Http.C42_second_run_panics",
    "Verif.Http.C42_serve"
   ],
   "note": ""
  },
  {
   "property": "C43",
   "status": "proved",
   "theorems": [
    "Verif.ChargePoint.C43_no_double_close",
    "Verif.ChargePoint.C43_uses_new_connection",
    "Verif.ChargePoint.C43_keeps_dialling"
   ],
   "note": ""
  },
  {
   "property": "C44",
   "status": "proved",
   "theorems": [
    "Verif.ChargePoint.C44_waitConnect",
    "Verif.ChargePoint.C44_stale_connected",
    "Verif.ChargePoint.C44_stopped_reports_connected"
   ],
   "note": ""
  },
  {
   "property": "C45",
   "status": "proved",
   "theorems": [
    "Verif.ChargePoint.C45_cancel_stops",
    "Verif.ChargePoint.C45_stopped_is_final",
    "Verif.ChargePoint.C45_cancel_ignored_while_reconnecting",
    "Verif.ChargePoint.C45_soap_serves_on"
   ],
   "note": ""
  },
  {
   "property": "C46",
   "status": "proved",
   "theorems": [
    "Verif.ChargePoint.C46_construction"
   ],
   "note": ""
  },
  {
   "property": "C47",
   "status": "proved",
   "theorems": [
    "Verif.Ocppj.C47_cs",
    "Verif.Ocppj.C47_cp",
    "Verif.Soap.C47_soap"
   ],
   "note": ""
  },
  {
   "property": "C48",
   "status": "proved",
   "theorems": [
    "Verif.Soap.C48_request",
    "Verif.Soap.C48_response",
    "Verif.Soap.C48_intact"
   ],
   "note": ""
  },
  {
   "property": "C49",
   "status": "proved",
   "theorems": [
    "Verif.Soap.C49_body",
    "Verif.Soap.C49_unique"
   ],
   "note": ""
  },
  {
   "property": "C50",
   "status": "proved",
   "theorems": [
    "Verif.Soap.C50_request",
    "Verif.Soap.C50_response"
   ],
   "note": ""
  },
  {
   "property": "C51",
   "status": "proved",
   "theorems": [
    "Verif.Soap.C51_ok",
    "Verif.Soap.C51_panic",
    "Verif.Soap.C51_err"
   ],
   "note": ""
  },
  {
   "property": "C52",
   "status": "proved",
   "theorems": [
    "Verif.Soap.C52_error"
   ],
   "note": ""
  },
  {
   "property": "C53",
   "status": "proved",
   "theorems": [
    "Verif.Soap.C53_called",
    "Verif.Soap.C53_once",
    "Verif.Soap.C53_panic",
    "Verif.Soap.C53_reply"
   ],
   "note": ""
  },
  {
   "property": "C54",
   "status": "proved",
   "theorems": [
    "Verif.Soap.C54_identity"
   ],
   "note": ""
  },
  {
   "property": "C55",
   "status": "proved",
   "theorems": [
    "Verif.Soap.C55_plain"
   ],
   "note": ""
  },
  {
   "property": "C56",
   "status": "proved",
   "theorems": [
    "Verif.Soap.C56_stop_written",
    "Verif.Soap.C56_stop_dropped",
    "Verif.Soap.C56_data_written",
    "Verif.Soap.C56_data_dropped"
   ],
   "note": ""
  },
  {
   "property": "C57",
   "status": "proved",
   "theorems": [
    "Verif.Ocppj.C57_possible_centralSystem",
    "Verif.Ocppj.C57_chargePoint",
    "Verif.Ocppj.C57_centralSystem",
    "Verif.Ocppj.C57_error",
    "Verif.Ocppj.C57_misfit",
    "Verif.Ocppj.C57_atMostOnce",
    "Verif.Ocppj.C57_possible"
   ],
   "note": ""
  },
  {
   "property": "C58",
   "status": "proved",
   "theorems": [
    "Verif.Conn.C58_answer_reaches_send"
   ],
   "note": ""
  },
  {
   "property": "C59",
   "status": "proved",
   "theorems": [
    "Verif.Soap.C59_response",
    "Verif.Soap.C59_crash"
   ],
   "note": ""
  },
  {
   "property": "C60",
   "status": "proved",
   "theorems": [
    "Verif.Soap.C60_decode",
    "Verif.Soap.C60_encode",
    "Verif.Soap.C60_encodeReply"
   ],
   "note": ""
  },
  {
   "property": "C61",
   "status": "proved",
   "theorems": [
    "Verif.Soap.C61_request",
    "Verif.Soap.C61_response",
    "Verif.Soap.C61_send"
   ],
   "note": ""
  },
  {
   "property": "C62",
   "status": "proved",
   "theorems": [
    "Verif.C62_field",
    "Verif.C62_accepted",
    "Verif.C62_written"
   ],
   "note": ""
  },
  {
   "property": "C63",
   "status": "proved",
   "theorems": [
    "Verif.Ocppj.C63_request",
    "Verif.Ocppj.C63_response",
    "Verif.Ocppj.C63_fraction",
    "Verif.Ocppj.C63_lenient",
    "Verif.Ocppj.C63_lenientRefused"
   ],
   "note": ""
  },
  {
   "property": "C64",
   "status": "proved",
   "theorems": [
    "Verif.Conf.C64_conforms",
    "Verif.Conf.C64_bad_string",
    "Verif.Conf.C64_unset_reason",
    "Verif.Conf.C64_tag_length"
   ],
   "note": ""
  },
  {
   "property": "C65",
   "status": "proved",
   "theorems": [
    "Verif.Conn.C65_centralSystem",
    "Verif.Conn.C65_chargePoint",
    "Verif.Ocppj.C65_unanswered",
    "Verif.Ocppj.C65_possible"
   ],
   "note": ""
  },
  {
   "property": "C66",
   "status": "proved",
   "theorems": [
    "Verif.Ocppj.C66_unanswered"
   ],
   "note": ""
  },
  {
   "property": "C67",
   "status": "proved",
   "theorems": [
    "Verif.World.C67_numbered",
    "Verif.World.C67_service",
    "Verif.World.C67_identity",
    "Verif.World.C67_addressed",
    "Verif.World.C67_caller",
    "Verif.World.C67_response",
    "Verif.World.C67_possible"
   ],
   "note": ""
  },
  {
   "property": "C68",
   "status": "proved",
   "theorems": [
    "Verif.World.C68_independent",
    "Verif.World.C68_chargePoint_crash",
    "Verif.World.C68_crash_is_final",
    "Verif.World.C68_crash_cause",
    "Verif.World.C68_possible"
   ],
   "note": ""
  },
  {
   "property": "C69",
   "status": "proved",
   "theorems": [
    "Verif.World.C69_waitDisconnect",
    "Verif.World.C69_waitConnect",
    "Verif.World.C69_rest",
    "Verif.World.C69_serving",
    "Verif.World.C69_rest_reached"
   ],
   "note": ""
  },
  {
   "property": "C70",
   "status": "proved",
   "theorems": [
    "Verif.Soap.C70_serve",
    "Verif.Soap.C70_send",
    "Verif.Soap.C70_clash"
   ],
   "note": ""
  },
  {
   "property": "C71",
   "status": "proved",
   "theorems": [
    "Verif.Soap.C71_request",
    "Verif.Soap.C71_response",
    "Verif.Soap.C71_error"
   ],
   "note": ""
  },
  {
   "property": "C72",
   "status": "proved",
   "theorems": [
    "Verif.Soap.C72_called",
    "Verif.Soap.C72_ok",
    "Verif.Soap.C72_panic",
    "Verif.Soap.C72_fault",
    "Verif.Soap.C72_unreadable"
   ],
   "note": ""
  },
  {
   "property": "C73",
   "status": "proved",
   "theorems": [
    "Verif.Soap.C73_iff",
    "Verif.Soap.C73_request",
    "Verif.Soap.C73_response",
    "Verif.Soap.C73_never"
   ],
   "note": ""
  },
  {
   "property": "C74",
   "status": "proved",
   "theorems": [
    "Verif.Soap.C74_read",
    "Verif.Soap.C74_time",
    "Verif.Soap.C74_called",
    "Verif.Soap.C74_returned",
    "Verif.Soap.C74_never",
    "Verif.Soap.C74_lost",
    "Verif.Soap.C74_ignored",
    "Verif.Soap.C74_zone"
   ],
   "note": ""
  },
  {
   "property": "C75",
   "status": "proved",
   "theorems": [
    "Verif.Ocppj.C75_call",
    "Verif.Ocppj.C75_result",
    "Verif.Ocppj.C75_due",
    "Verif.Ocppj.C75_integers"
   ],
   "note": ""
  },
  {
   "property": "C76",
   "status": "proved",
   "theorems": [
    "Verif.Ocppj.C76_call",
    "Verif.Ocppj.C76_result",
    "Verif.Ocppj.C76_lenient"
   ],
   "note": ""
  },
  {
   "property": "C77",
   "status": "proved",
   "theorems": [
    "Verif.Conn.C77_invisible",
    "Verif.Conn.C77_written",
    "Verif.Conn.C77_goesOn",
    "Verif.Ocppj.C77_texts"
   ],
   "note": ""
  },
  {
   "property": "C78",
   "status": "proved",
   "theorems": [
    "Verif.Http.C78_handshake",
    "Verif.Http.C78_centralSystem",
    "Verif.Http.C78_anyVersion",
    "Verif.Http.C78_strictClient"
   ],
   "note": ""
  },
  {
   "property": "C79",
   "status": "proved",
   "theorems": [
    "Verif.Fleet.C79_parts",
    "Verif.Fleet.C79_send",
    "Verif.Fleet.C79_reach",
    "Verif.Fleet.C79_one_at_a_time",
    "Verif.Fleet.C79_latest",
    "Verif.Fleet.C79_possible"
   ],
   "note": ""
  },
  {
   "property": "C80",
   "status": "proved",
   "theorems": [
    "Verif.Fleet.C80_current"
   ],
   "note": ""
  },
  {
   "property": "C81",
   "status": "proved",
   "theorems": [
    "Verif.Fleet.C81_overtaken",
    "Verif.Fleet.C81_stays",
    "Verif.Fleet.C81_stale_possible"
   ],
   "note": ""
  },
  {
   "property": "C82",
   "status": "proved",
   "theorems": [
    "Verif.Fleet.C82_comes_back"
   ],
   "note": ""
  },
  {
   "property": "C83",
   "status": "proved",
   "theorems": [
    "Verif.Ocppj.C83_settles",
    "Verif.Ocppj.C83_rest",
    "Verif.Ocppj.C83_returned",
    "Verif.Ocppj.C83_alive",
    "Verif.Ocppj.C83_possible"
   ],
   "note": ""
  },
  {
   "property": "C84",
   "status": "proved",
   "theorems": [
    "Verif.Soap.C84_notServed",
    "Verif.Soap.C84_notReturned",
    "Verif.Soap.C84_served",
    "Verif.Soap.C84_returned",
    "Verif.Soap.C84_same",
    "Verif.Soap.C84_unique",
    "Verif.Soap.C84_strict",
    "Verif.Soap.C84_mismatch"
   ],
   "note": ""
  },
  {
   "property": "C85",
   "status": "proved",
   "theorems": [
    "Verif.Soap.C85_served",
    "Verif.Soap.C85_returned",
    "Verif.Soap.C85_where",
    "Verif.Soap.C85_cut"
   ],
   "note": ""
  },
  {
   "property": "C86",
   "status": "proved",
   "theorems": [
    "Verif.Soap.C86_once",
    "Verif.Soap.C86_returns_once",
    "Verif.Soap.C86_request",
    "Verif.Soap.C86_response",
    "Verif.Soap.C86_panic",
    "Verif.Soap.C86_error_ambiguous"
   ],
   "note": ""
  },
  {
   "property": "C87",
   "status": "proved",
   "theorems": [
    "Verif.Soap.C87_progress",
    "Verif.Soap.C87_concurrent",
    "Verif.Soap.C87_independent",
    "Verif.Soap.C87_server",
    "Verif.Soap.C87_crash"
   ],
   "note": ""
  },
  {
   "property": "C88",
   "status": "proved",
   "theorems": [
    "Verif.Soap.C88_url",
    "Verif.Soap.C88_lost",
    "Verif.Soap.C88_exact"
   ],
   "note": ""
  },
  {
   "property": "C89",
   "status": "proved",
   "theorems": [
    "Verif.Ocppj.C89_possible",
    "Verif.Ocppj.C89_replyPossible",
    "Verif.Conn.C89_refines",
    "Verif.Conn.C89_noWrite",
    "Verif.Conn.C89_noReturn",
    "Verif.Conn.C89_oneMore",
    "Verif.Conn.C89_reply"
   ],
   "note": ""
  },
  {
   "property": "C90",
   "status": "proved",
   "theorems": [
    "Verif.Ocppj.C90_refines",
    "Verif.Ocppj.C90_enough",
    "Verif.Ocppj.C90_deadlock"
   ],
   "note": ""
  },
  {
   "property": "C91",
   "status": "proved",
   "theorems": [
    "Verif.Race.Cs.C91_centralSystem",
    "Verif.Race.Cp.C91_chargePoint",
    "Verif.Race.Ws.C91_connection",
    "Verif.Race.Log.C91_loggers"
   ],
   "note": ""
  },
  {
   "property": "C92",
   "status": "proved",
   "theorems": [
    "Verif.Conn.C92_notBefore",
    "Verif.Conn.C92_limit",
    "Verif.Conn.C92_answer",
    "Verif.Conn.C92_timeout"
   ],
   "note": ""
  },
  {
   "property": "C93",
   "status": "proved",
   "theorems": [
    "Verif.Fleet.C93_answered",
    "Verif.Fleet.C93_rounds",
    "Verif.World.C93_dead",
    "Verif.World.C93_window",
    "Verif.World.C93_waitConnect",
    "Verif.World.C93_connected",
    "Verif.World.C93_disconnected",
    "Verif.World.C93_reached",
    "Verif.World.C93_waitConnect_reached",
    "Verif.Fleet.C93_missed"
   ],
   "note": ""
  },
  {
   "property": "C94",
   "status": "proved",
   "theorems": [
    "Verif.ChargePoint.C94_pause",
    "Verif.ChargePoint.C94_rate",
    "Verif.ChargePoint.C94_retry",
    "Verif.ChargePoint.C94_atOnce",
    "Verif.ChargePoint.C94_storm",
    "Verif.ChargePoint.C94_possible"
   ],
   "note": ""
  },
  {
   "property": "C95",
   "status": "proved",
   "theorems": [
    "Verif.Fleet.C95_settles",
    "Verif.Fleet.C95_progress",
    "Verif.Fleet.C95_chargePoint",
    "Verif.Fleet.C95_centralSystem",
    "Verif.Fleet.C95_after_comeback"
   ],
   "note": ""
  },
  {
   "property": "C96",
   "status": "proved",
   "theorems": [
    "Verif.Ocppj.C96_details",
    "Verif.Ocppj.C96_send",
    "Verif.Ocppj.C96_tells",
    "Verif.Ocppj.C96_handlerError",
    "Verif.Ocppj.C96_ordinary",
    "Verif.Ocppj.C96_received",
    "Verif.Ocppj.C96_anyPeer",
    "Verif.Ocppj.C96_ambiguous",
    "Verif.Ocppj.C96_kinds",
    "Verif.Ocppj.C96_possible",
    "Verif.Ocppj.C96_dataTransfer"
   ],
   "note": ""
  },
  {
   "property": "C97",
   "status": "proved",
   "theorems": [
    "Verif.Bytes.C97_decodes",
    "Verif.Bytes.C97_utf8",
    "Verif.Bytes.C97_receive",
    "Verif.Bytes.C97_lenient",
    "Verif.Bytes.C97_string",
    "Verif.Bytes.C97_writing",
    "Verif.Bytes.C97_ids"
   ],
   "note": ""
  },
  {
   "property": "C98",
   "status": "proved",
   "theorems": [
    "Verif.Ocppj.C98_send",
    "Verif.Ocppj.C98_served",
    "Verif.Ocppj.C98_noPanic",
    "Verif.Ocppj.C98_example_cs",
    "Verif.Ocppj.C98_example_cp",
    "Verif.Ocppj.C98_examples",
    "Verif.Ocppj.C98_possible"
   ],
   "note": ""
  },
  {
   "property": "C99",
   "status": "proved",
   "theorems": [
    "Verif.Soap.C99_fromChargePoint",
    "Verif.Soap.C99_fromCentralSystem",
    "Verif.Soap.C99_errorText",
    "Verif.Soap.C99_carried",
    "Verif.Soap.C99_possible"
   ],
   "note": ""
  },
  {
   "property": "C100",
   "status": "proved",
   "theorems": [
    "Verif.Conf.C100_iff",
    "Verif.Conf.C100_reading",
    "Verif.Conf.C100_errorCode",
    "Verif.Conf.C100_cpstatus",
    "Verif.Conf.C100_missing",
    "Verif.Conf.C100_sampled",
    "Verif.Conf.C100_zero",
    "Verif.Conf.C100_possible"
   ],
   "note": ""
  },
  {
   "property": "C101",
   "status": "proved",
   "theorems": [
    "Verif.Ocppj.C101_wrapped",
    "Verif.Ocppj.C101_plain",
    "Verif.Ocppj.C101_ambiguous",
    "Verif.Ocppj.C101_lines",
    "Verif.Ocppj.C101_unanswered",
    "Verif.Ocppj.C101_possible",
    "Verif.Soap.C101_soapError",
    "Verif.Soap.C101_soapSilent"
   ],
   "note": ""
  },
  {
   "property": "C102",
   "status": "proved",
   "theorems": [
    "Verif.Restart.C102_parts",
    "Verif.Restart.C102_ended",
    "Verif.Restart.C102_send",
    "Verif.Restart.C102_caller",
    "Verif.Restart.C102_forgets",
    "Verif.Restart.C102_again",
    "Verif.Restart.C102_reach",
    "Verif.Restart.C102_comes_back",
    "Verif.Restart.C102_possible"
   ],
   "note": ""
  },
  {
   "property": "C103",
   "status": "proved",
   "theorems": [
    "Verif.Reread.C103_connection",
    "Verif.Reread.C103_silent",
    "Verif.Reread.C103_choice",
    "Verif.Reread.C103_reads",
    "Verif.Reread.C103_death",
    "Verif.Reread.C103_last",
    "Verif.Reread.C103_closeFrame",
    "Verif.Reread.C103_possible"
   ],
   "note": ""
  },
  {
   "property": "C104",
   "status": "proved",
   "theorems": [
    "Verif.Restart.C104_starts",
    "Verif.Restart.C104_apart",
    "Verif.Restart.C104_answers",
    "Verif.Restart.C104_replaced",
    "Verif.Restart.C104_possible"
   ],
   "note": ""
  },
  {
   "property": "C105",
   "status": "proved",
   "theorems": [
    "Verif.Ocppj.C105_chargePoint",
    "Verif.Ocppj.C105_centralSystem",
    "Verif.Ocppj.C105_afterChargePoint",
    "Verif.Ocppj.C105_afterCentralSystem",
    "Verif.Ocppj.C105_possible",
    "Verif.World.C105_world"
   ],
   "note": ""
  },
  {
   "property": "C106",
   "status": "proved",
   "theorems": [
    "Verif.Mixed.C106_parts",
    "Verif.Mixed.C106_handler",
    "Verif.Mixed.C106_soapSend",
    "Verif.Mixed.C106_crash_cause",
    "Verif.Mixed.C106_soap_harmless",
    "Verif.Mixed.C106_crash_is_final",
    "Verif.Mixed.C106_independent",
    "Verif.Mixed.C106_json_goes_on",
    "Verif.Mixed.C106_soap_in",
    "Verif.Mixed.C106_soap_out",
    "Verif.Mixed.C106_one_ends_all",
    "Verif.Mixed.C106_possible"
   ],
   "note": ""
  },
  {
   "property": "C107",
   "status": "proved",
   "theorems": [
    "Verif.Debug.C107_connection",
    "Verif.Debug.C107_received",
    "Verif.Debug.C107_lastWords",
    "Verif.Debug.C107_sent",
    "Verif.Debug.C107_written",
    "Verif.Debug.C107_possible",
    "Verif.Debug.C107_oneLine",
    "Verif.Debug.C107_forged"
   ],
   "note": ""
  },
  {
   "property": "C108",
   "status": "proved",
   "theorems": [
    "Verif.Hub.C108_connection",
    "Verif.Hub.C108_free",
    "Verif.Hub.C108_handlerCall",
    "Verif.Hub.C108_answered",
    "Verif.Hub.C108_service",
    "Verif.Hub.C108_takeover",
    "Verif.Hub.C108_lost",
    "Verif.Hub.C108_ended",
    "Verif.Hub.C108_chargePoints",
    "Verif.Hub.C108_possible",
    "Verif.Hub.C108_landing",
    "Verif.Hub.C108_inflated",
    "Verif.Hub.C108_rest",
    "Verif.Hub.C108_rest_reached",
    "Verif.Hub.C108_waitDisconnect",
    "Verif.Hub.C108_waitConnect",
    "Verif.Hub.C108_waitFooled",
    "Verif.Hub.C108_listeners"
   ],
   "note": ""
  },
  {
   "property": "C109",
   "status": "proved",
   "theorems": [
    "Verif.Company.C109_views",
    "Verif.Company.C109_response",
    "Verif.Company.C109_caller",
    "Verif.Company.C109_addressed",
    "Verif.Company.C109_free",
    "Verif.Company.C109_served",
    "Verif.Company.C109_takenOver"
   ],
   "note": ""
  },
  {
   "property": "C110",
   "status": "proved",
   "theorems": [
    "Verif.Debug.C110_core",
    "Verif.Debug.C110_toCs",
    "Verif.Debug.C110_toCp",
    "Verif.Debug.C110_quiet",
    "Verif.Debug.C110_settled",
    "Verif.Debug.C110_file_core",
    "Verif.Debug.C110_files",
    "Verif.Debug.C110_possible",
    "Verif.Debug.C110_example"
   ],
   "note": ""
  },
  {
   "property": "C111",
   "status": "proved",
   "theorems": [
    "Verif.Hub.C111_endedCut",
    "Verif.Hub.C111_stranger",
    "Verif.Hub.C111_squatter",
    "Verif.Conn.C111_open",
    "Verif.Conn.C111_unanswered",
    "Verif.Conn.C111_any_number",
    "Verif.World.C111_unnoticed",
    "Verif.World.C111_dead_kept"
   ],
   "note": ""
  },
  {
   "property": "C112",
   "status": "proved",
   "theorems": [
    "Verif.Registry.C112_entries",
    "Verif.Registry.C112_apart",
    "Verif.Registry.C112_kept",
    "Verif.Registry.C112_growth",
    "Verif.Hub.C112_service",
    "Verif.Hub.C112_chosen"
   ],
   "note": ""
  }
 ]
}