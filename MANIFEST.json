{
 "claims": [
  {
   "property": "C01",
   "status": "proved",
   "theorems": [
    "SL.C01_make_message",
    "SL.C01_message_roundtrip"
   ],
   "note": ""
  },
  {
   "property": "C02",
   "status": "proved",
   "theorems": [
    "SL.C02_take_message_iff",
    "SL.C02_take_message_rejects"
   ],
   "note": ""
  },
  {
   "property": "C03",
   "status": "proved",
   "theorems": [
    "SL.C03_take_messages_iff",
    "SL.C03_take_messages_error"
   ],
   "note": ""
  },
  {
   "property": "C04",
   "status": "proved",
   "theorems": [
    "SL.C04_text_layout",
    "SL.C04_text_roundtrip",
    "SL.C04_utf8_standard"
   ],
   "note": ""
  },
  {
   "property": "C05",
   "status": "proved",
   "theorems": [
    "SL.C05_get_string",
    "SL.C05_get_string_plain"
   ],
   "note": ""
  },
  {
   "property": "C06",
   "status": "proved",
   "theorems": [
    "SL.C06_encode_time",
    "SL.C06_time_roundtrip",
    "SL.C06_decode_time",
    "SL.C06_decode_time_length",
    "SL.C06_blocks_cover",
    "SL.C06_get_time",
    "SL.C06_weekday",
    "SL.C06_weekday_anchor"
   ],
   "note": ""
  },
  {
   "property": "C07",
   "status": "proved",
   "theorems": [
    "SL.C07_get_array",
    "SL.C07_get_array_ok"
   ],
   "note": ""
  },
  {
   "property": "C08",
   "status": "proved",
   "theorems": [
    "SL.C08_read_exact",
    "SL.C08_read_bounds",
    "SL.C08_raw_exact",
    "SL.C08_raw_bounds"
   ],
   "note": ""
  },
  {
   "property": "C09",
   "status": "proved",
   "theorems": [
    "SL.C09_chunking"
   ],
   "note": ""
  },
  {
   "property": "C10",
   "status": "proved",
   "theorems": [
    "SL.C10_reassembly"
   ],
   "note": ""
  },
  {
   "property": "C11",
   "status": "proved",
   "theorems": [
    "SL.C11_never_raises"
   ],
   "note": ""
  },
  {
   "property": "C12",
   "status": "proved",
   "theorems": [
    "SL.C12_wire",
    "SL.C12_ids",
    "SL.C12_written_at_once"
   ],
   "note": ""
  },
  {
   "property": "C13",
   "status": "proved",
   "theorems": [
    "SL.C13_reply_matches",
    "SL.C13_final",
    "SL.C13_reply_arrives"
   ],
   "note": ""
  },
  {
   "property": "C14",
   "status": "proved",
   "theorems": [
    "SL.C14_used_once",
    "SL.C14_one_effect"
   ],
   "note": ""
  },
  {
   "property": "C15",
   "status": "proved",
   "theorems": [
    "SL.C15_unsolicited"
   ],
   "note": ""
  },
  {
   "property": "C16",
   "status": "proved",
   "theorems": [
    "SL.C16_late_reply",
    "SL.C16_late_reply_wire"
   ],
   "note": ""
  },
  {
   "property": "C17",
   "status": "partial",
   "theorems": [
    "SL.C17_refuted_replies_ignored",
    "SL.C17_refuted_example",
    "SL.C17_close_waits_partial"
   ],
   "note": "The documented claim is false of the code: refuted by C17_refuted_replies_ignored (for every history: once closing, no pending request is ever answered) and C17_refuted_example. C17_close_waits_partial is the true part: the close does wait until its outstanding requests are resolved."
  },
  {
   "property": "C18",
   "status": "proved",
   "theorems": [
    "SL.C18_quiet",
    "SL.C18_close_closes",
    "SL.C18_new_cancelled"
   ],
   "note": ""
  },
  {
   "property": "C19",
   "status": "proved",
   "theorems": [
    "SL.C19_forced_close",
    "SL.C19_connection_lost"
   ],
   "note": ""
  },
  {
   "property": "C20",
   "status": "proved",
   "theorems": [
    "SL.C20_at_most_one",
    "SL.C20_disable",
    "SL.C20_send_restarts",
    "SL.C20_lost"
   ],
   "note": ""
  },
  {
   "property": "C21",
   "status": "partial",
   "theorems": [
    "SL.C21_refuted_stuck",
    "SL.C21_close_proceeds_partial",
    "SL.C21_close_finishes",
    "SL.C21_finishes_witness"
   ],
   "note": "False in general: C21_refuted_stuck exhibits a history after which, for every continuation without cancellation or loss, the graceful close never proceeds. C21_close_proceeds_partial / C21_close_finishes: it does proceed whenever the outstanding requests are resolved."
  },
  {
   "property": "C22",
   "status": "proved",
   "theorems": [
    "SL.C22_bounded",
    "SL.C22_only_calls_write",
    "SL.C22_terminates"
   ],
   "note": ""
  },
  {
   "property": "C23",
   "status": "proved",
   "theorems": [
    "SL.C23_genuine"
   ],
   "note": ""
  },
  {
   "property": "C24",
   "status": "proved",
   "theorems": [
    "SL.C24_classification",
    "SL.C24_login_at_once",
    "SL.C24_final"
   ],
   "note": ""
  },
  {
   "property": "C25",
   "status": "proved",
   "theorems": [
    "SL.C25_disconnected"
   ],
   "note": ""
  },
  {
   "property": "C26",
   "status": "partial",
   "theorems": [
    "SL.C26_refuted",
    "SL.C26_none_partial"
   ],
   "note": "False in general: C26_refuted (a cancellation while connected returns None). C26_none_partial: None is returned only in that case (or for max_retries < 0)."
  },
  {
   "property": "C27",
   "status": "proved",
   "theorems": [
    "SL.C27_request",
    "SL.C27_setter",
    "SL.C27_witness"
   ],
   "note": ""
  },
  {
   "property": "C28",
   "status": "proved",
   "theorems": [
    "SL.C28_always",
    "SL.C28_refused",
    "SL.C28_taken",
    "SL.C28_only"
   ],
   "note": ""
  },
  {
   "property": "C29",
   "status": "proved",
   "theorems": [
    "SL.C29_float",
    "SL.C29_sends",
    "SL.C29_refuses",
    "SL.C29_no_table",
    "SL.C29_only"
   ],
   "note": ""
  },
  {
   "property": "C30",
   "status": "proved",
   "theorems": [
    "SL.C30_mode_float",
    "SL.C30_temp_sends",
    "SL.C30_temp_refuses",
    "SL.C30_body_refuses",
    "SL.C30_no_table",
    "SL.C30_temp_only",
    "SL.C30_mode_sends",
    "SL.C30_mode_refuses",
    "SL.C30_mode_only",
    "SL.C30_lights_sends",
    "SL.C30_lights_refuses",
    "SL.C30_lights_only"
   ],
   "note": ""
  },
  {
   "property": "C31",
   "status": "proved",
   "theorems": [
    "SL.C31_sends",
    "SL.C31_missing",
    "SL.C31_refuses",
    "SL.C31_only"
   ],
   "note": ""
  },
  {
   "property": "C32",
   "status": "partial",
   "theorems": [
    "SL.C32_refuted",
    "SL.C32_partial"
   ],
   "note": "False of the code: C32_refuted (for every history, with the other values valid, any number other than 0 and 1 is not refused but sent as 0). C32_partial: what is sent is always 0 or 1, and the given state if it is one."
  },
  {
   "property": "C33",
   "status": "proved",
   "theorems": [
    "SL.C33_range",
    "SL.C33_sends",
    "SL.C33_missing",
    "SL.C33_refuses",
    "SL.C33_only"
   ],
   "note": ""
  },
  {
   "property": "C34",
   "status": "partial",
   "theorems": [
    "SL.C34_needs_one",
    "SL.C34_time_sends",
    "SL.C34_sync",
    "SL.C34_missing",
    "SL.C34_flag_sends",
    "SL.C34_clock_partial",
    "SL.C34_only",
    "SL.C34_clock_refuted"
   ],
   "note": "The clock half is false on hosts outside UTC: C34_clock_refuted. C34_clock_partial: it holds when the host renders the cached time stamp as the controller's own fields; C34_flag_sends/C34_time_sends/C34_only give the exact message in every case. The seconds are always sent as 0."
  },
  {
   "property": "C35",
   "status": "proved",
   "theorems": [
    "SL.C35_unique",
    "SL.C35_found",
    "SL.C35_missing",
    "SL.C35_value",
    "SL.C35_name",
    "SL.C35_witness"
   ],
   "note": ""
  },
  {
   "property": "C36",
   "status": "proved",
   "theorems": [
    "SL.C36_pumps",
    "SL.C36_order",
    "SL.C36_unknown",
    "SL.C36_witness"
   ],
   "note": ""
  },
  {
   "property": "C37",
   "status": "proved",
   "theorems": [
    "SL.C37_connected",
    "SL.C37_witness"
   ],
   "note": ""
  },
  {
   "property": "C38",
   "status": "proved",
   "theorems": [
    "SL.C38_setter",
    "SL.C38_getter",
    "SL.C38_send",
    "SL.C38_witness"
   ],
   "note": ""
  },
  {
   "property": "C39",
   "status": "partial",
   "theorems": [
    "SL.C39_refuted",
    "SL.C39_partial",
    "SL.C39_refuted_unbounded"
   ],
   "note": "False of the code: C39_refuted exhibits one async_get_status call that has reconnected three times and still runs; C39_refuted_unbounded: for every n, one such call against an adapter that accepts every login and refuses every configuration request has opened n + 1 connections and still runs. C39_partial: for every history, a TCP connection is only ever started while the gateway is not connected."
  },
  {
   "property": "C40",
   "status": "partial",
   "theorems": [
    "SL.C40_refuted",
    "SL.C40_partial",
    "SL.C40_witness"
   ],
   "note": "False of the code: C40_refuted (a gateway whose first connect failed: AttributeError). C40_partial: every request the gateway ever makes ends with an answer, a ScreenLogic communication error, cancellation, or struct.error."
  },
  {
   "property": "C41",
   "status": "partial",
   "theorems": [
    "SL.C41_partial",
    "SL.C41_refuted",
    "SL.C41_refuted_empty",
    "SL.C41_witness"
   ],
   "note": "False of the code: C41_refuted (connect after a half-failed connect returns True; configuration never asked for) and C41_refuted_empty (answered without data). C41_partial: a connect call that starts unconnected returns True only after the configuration request it made was answered."
  },
  {
   "property": "C42",
   "status": "partial",
   "theorems": [
    "SL.C42_refuted",
    "SL.C42_partial"
   ],
   "note": "False of the code: C42_refuted (login refused: connection stays open and is forgotten). C42_partial: failure to open the TCP connection, or cancellation meanwhile, raises and leaves the connections unchanged."
  },
  {
   "property": "C43",
   "status": "proved",
   "theorems": [
    "SL.C43_given",
    "SL.C43_kept",
    "SL.C43_initial",
    "SL.C43_opens",
    "SL.C43_no_ip",
    "SL.C43_witness"
   ],
   "note": ""
  },
  {
   "property": "C44",
   "status": "partial",
   "theorems": [
    "SL.C44_changes_partial",
    "SL.C44_kept_partial",
    "SL.C44_witness",
    "SL.C44_version_refuted",
    "SL.C44_genuine"
   ],
   "note": "False for one entry: C44_version_refuted (an empty answer to the version request overwrites the version by None). C44_changes_partial / C44_kept_partial: every other 'last raw' entry changes only to a non-empty answer of its own request, and what a polling call kept is what it was answered."
  },
  {
   "property": "C45",
   "status": "partial",
   "theorems": [
    "SL.C45_subscribe",
    "SL.C45_never_other",
    "SL.C45_unsubscribe_partial",
    "SL.C45_stale_partial",
    "SL.C45_only",
    "SL.C45_initial",
    "SL.C45_again_partial",
    "SL.C45_witness",
    "SL.C45_refuted"
   ],
   "note": "The clause 'calling an unsubscribe function again has no effect' is false in one case: C45_refuted (the pair was re-subscribed in between; the stale function removes the new subscription). Everything else is proved for every honest history (only functions got from the library are called): C45_subscribe, C45_never_other, C45_unsubscribe_partial, C45_stale_partial, C45_again_partial, C45_only, C45_initial."
  },
  {
   "property": "C46",
   "status": "proved",
   "theorems": [
    "SL.C46_known",
    "SL.C46_unknown",
    "SL.C46_malformed",
    "SL.C46_only",
    "SL.C46_witness"
   ],
   "note": ""
  },
  {
   "property": "C47",
   "status": "partial",
   "theorems": [
    "SL.C47_returned_partial",
    "SL.C47_registers_partial",
    "SL.C47_refuted",
    "SL.C47_witness"
   ],
   "note": "False of the code: C47_refuted (unsubscribing the last listener and subscribing another before the scheduled background task runs silences the new one for good). C47_returned_partial: on return of a subscription the gateway is a client; C47_registers_partial: the handler is registered at once."
  },
  {
   "property": "C48",
   "status": "proved",
   "theorems": [
    "SL.C48_handlers",
    "SL.C48_client",
    "SL.C48_witness"
   ],
   "note": "C48_handlers: at the step where the client manager attaches to another connection, for every reachable state; C48_client: when the connect call returns True."
  },
  {
   "property": "C49",
   "status": "partial",
   "theorems": [
    "SL.C49_refuted",
    "SL.C49_holder",
    "SL.C49_self_partial",
    "SL.C49_unopened_partial",
    "SL.C49_queue_partial",
    "SL.C49_witness"
   ],
   "note": "False of the code: C49_refuted (for every continuation without cancelling the call it never returns: it waits for the lock it holds). Positive part, over every history: a locked lock is always held by a task that is still running (C49_holder); a task can wait for its own lock only after it asked for a TCP connection while holding it (C49_self_partial, C49_unopened_partial), and otherwise the queue is served (C49_queue_partial). Missing: progress when a reconnection happens inside the critical section, which is false."
  },
  {
   "property": "C50",
   "status": "proved",
   "theorems": [
    "SL.C50_one",
    "SL.C50_add",
    "SL.C50_remove",
    "SL.C50_witness",
    "SL.C50_tasks",
    "SL.C50_tasks_witness"
   ],
   "note": ""
  },
  {
   "property": "C51",
   "status": "proved",
   "theorems": [
    "SL.C51_status",
    "SL.C51_limits_ok"
   ],
   "note": ""
  },
  {
   "property": "C52",
   "status": "proved",
   "theorems": [
    "SL.C52_config"
   ],
   "note": ""
  },
  {
   "property": "C53",
   "status": "proved",
   "theorems": [
    "SL.C53_chemistry"
   ],
   "note": ""
  },
  {
   "property": "C54",
   "status": "proved",
   "theorems": [
    "SL.C54_scg"
   ],
   "note": ""
  },
  {
   "property": "C55",
   "status": "proved",
   "theorems": [
    "SL.C55_pump",
    "SL.C55_refuted_unconfigured"
   ],
   "note": "C55_refuted_unconfigured shows the precondition is needed: with a circuit known only from a status message (no name yet) decoding fails with KeyError."
  },
  {
   "property": "C56",
   "status": "proved",
   "theorems": [
    "SL.C56_color_update",
    "SL.C56_date_time",
    "SL.C56_version"
   ],
   "note": ""
  },
  {
   "property": "C57",
   "status": "proved",
   "theorems": [
    "SL.C57_trailing",
    "SL.C57_trailing_failing"
   ],
   "note": ""
  },
  {
   "property": "C58",
   "status": "proved",
   "theorems": [
    "SL.C58_frame",
    "SL.C58_frame_below"
   ],
   "note": ""
  },
  {
   "property": "C59",
   "status": "partial",
   "theorems": [
    "SL.C59_refuted",
    "SL.C59_partial"
   ],
   "note": "False of the code: C59_refuted (every chlorinator message cut after its first number fails, yet that number has been stored). C59_partial is the true part: nothing outside the message's own branches changes and nothing disappears."
  },
  {
   "property": "C60",
   "status": "proved",
   "theorems": [
    "SL.C60_config",
    "SL.C60_status",
    "SL.C60_scg",
    "SL.C60_chemistry",
    "SL.C60_date_time",
    "SL.C60_pump"
   ],
   "note": ""
  },
  {
   "property": "C61",
   "status": "proved",
   "theorems": [
    "SL.C61_equipment"
   ],
   "note": ""
  },
  {
   "property": "C62",
   "status": "proved",
   "theorems": [
    "SL.C62_idempotent"
   ],
   "note": ""
  },
  {
   "property": "C63",
   "status": "partial",
   "theorems": [
    "SL.C63_partial",
    "SL.C63_pumps",
    "SL.C63_decoded",
    "SL.C63_refuted"
   ],
   "note": "False of the code: C63_refuted (only pump 1 configured: its payload comes back as pump 0's). C63_partial states exactly what comes back for every raw dict for which a collection can be built, C63_pumps when the pumps are unchanged. The JSON/dict order of raw is not compared."
  },
  {
   "property": "C64",
   "status": "partial",
   "theorems": [
    "SL.C64_partial",
    "SL.C64_refuted",
    "SL.C64_collection_partial"
   ],
   "note": "False of the code for negative circuit numbers: C64_refuted. C64_partial is an exact characterisation (the round trip works iff no dict key is negative; keys over 4300 digits excluded); C64_collection_partial extends it to exported collections. The JSON text itself is CPython's: documents are trees in the model."
  },
  {
   "property": "C65",
   "status": "proved",
   "theorems": [
    "SL.C65_decoded",
    "SL.C65_refused"
   ],
   "note": ""
  },
  {
   "property": "C66",
   "status": "proved",
   "theorems": [
    "SL.C66_hosts",
    "SL.C66_step",
    "SL.C66_witness"
   ],
   "note": ""
  },
  {
   "property": "C67",
   "status": "proved",
   "theorems": [
    "SL.C67_number",
    "SL.C67_numeral",
    "SL.C67_name",
    "SL.C67_other",
    "SL.C67_title",
    "SL.C67_total",
    "SL.C67_default",
    "SL.C67_parsable",
    "SL.C67_witness"
   ],
   "note": ""
  },
  {
   "property": "C68",
   "status": "proved",
   "theorems": [
    "SL.C68_classes",
    "SL.C68_reported",
    "SL.C68_witness"
   ],
   "note": ""
  },
  {
   "property": "C69",
   "status": "proved",
   "theorems": [
    "SL.C69_model_name"
   ],
   "note": ""
  },
  {
   "property": "C70",
   "status": "partial",
   "theorems": [
    "SL.C70_refuted_get",
    "SL.C70_partial",
    "SL.C70_refuted_dashboard"
   ],
   "note": "False of the code: C70_refuted_get (states Heater and Both: 'get heat-state' leaves with ValueError, on every gateway) and C70_refuted_dashboard (shown as Solar Preferred / Heater). C70_partial: without --verbose states 0 and 1 are printed as such."
  },
  {
   "property": "C71",
   "status": "partial",
   "theorems": [
    "SL.C71_refuted",
    "SL.C71_partial"
   ],
   "note": "False of the code: C71_refuted (for every text given, the setter call gets the text, and no gateway in any state sends anything for it). C71_partial: without the option the time is sent with the cached flag."
  },
  {
   "property": "C72",
   "status": "proved",
   "theorems": [
    "SL.C72_update",
    "SL.C72_order",
    "SL.C72_empty",
    "SL.C72_witness"
   ],
   "note": ""
  },
  {
   "property": "C73",
   "status": "proved",
   "theorems": [
    "SL.C73_text_only",
    "SL.C73_witness"
   ],
   "note": ""
  },
  {
   "property": "C74",
   "status": "proved",
   "theorems": [
    "SL.C74_nearest",
    "SL.C74_ordered",
    "SL.C74_witness"
   ],
   "note": ""
  },
  {
   "property": "C75",
   "status": "proved",
   "theorems": [
    "SL.C75_sets",
    "SL.C75_reads"
   ],
   "note": ""
  },
  {
   "property": "C76",
   "status": "proved",
   "theorems": [
    "SL.C76_discover_given",
    "SL.C76_idle",
    "SL.C76_failure",
    "SL.C76_status",
    "SL.C76_success"
   ],
   "note": ""
  },
  {
   "property": "C77",
   "status": "partial",
   "theorems": [
    "SL.C77_refuted_export",
    "SL.C77_refuted_failure",
    "SL.C77_refuted_empty",
    "SL.C77_partial"
   ],
   "note": "False of the code: C77_refuted_export, C77_refuted_failure, C77_refuted_empty. C77_partial: a command or the dashboard ending with a status other than -1 and 1 has disconnected last."
  },
  {
   "property": "C78",
   "status": "proved",
   "theorems": [
    "SL.C78_timer",
    "SL.C78_only",
    "SL.C78_ping",
    "SL.C78_sends",
    "SL.C78_witness"
   ],
   "note": ""
  },
  {
   "property": "C79",
   "status": "proved",
   "theorems": [
    "SL.C79_equipment"
   ],
   "note": ""
  },
  {
   "property": "C80",
   "status": "partial",
   "theorems": [
    "SL.C80_called",
    "SL.C80_only",
    "SL.C80_once",
    "SL.C80_set",
    "SL.C80_forgets",
    "SL.C80_callback_partial",
    "SL.C80_witness",
    "SL.C80_refuted"
   ],
   "note": "False of the code: C80_refuted (after an automatic reconnection the callback is forgotten, because async_connect() is called without arguments). Proved for every history: called once per loss of an open connection unless a call closing it was cancelled (C80_called; see C91_collateral), and never otherwise (C80_only, C80_once), set only by async_connect (C80_set), forgotten only when a task starts a TCP connection (C80_forgets), hence in force until then (C80_callback_partial)."
  },
  {
   "property": "C81",
   "status": "proved",
   "theorems": [
    "SL.C81_greetings",
    "SL.C81_hello",
    "SL.C81_used",
    "SL.C81_connect",
    "SL.C81_version"
   ],
   "note": "All histories: C81_greetings, C81_hello, C81_used; the connect call itself: C81_connect (Begins in Spec/Handshake lists every possible history and result) and C81_version."
  },
  {
   "property": "C82",
   "status": "proved",
   "theorems": [
    "SL.C82_sends",
    "SL.C82_returns",
    "SL.C82_answered",
    "SL.C82_leak",
    "SL.C82_witness",
    "SL.C82_fails",
    "SL.C82_errors",
    "SL.C82_errors_witness",
    "SL.C82_lost",
    "SL.C82_lost_witness"
   ],
   "note": "C82_sends, C82_returns, C82_answered. Side finding C82_leak: when the challenge fails, the call raises and leaves its connection open."
  },
  {
   "property": "C83",
   "status": "proved",
   "theorems": [
    "SL.C83_provenance",
    "SL.C83_answers",
    "SL.C83_reachable",
    "SL.C83_silent",
    "SL.C83_sections",
    "SL.C83_witness"
   ],
   "note": ""
  },
  {
   "property": "C84",
   "status": "proved",
   "theorems": [
    "SL.C84_identity",
    "SL.C84_connected",
    "SL.C84_before",
    "SL.C84_witness"
   ],
   "note": ""
  },
  {
   "property": "C85",
   "status": "partial",
   "theorems": [
    "SL.C85_grows",
    "SL.C85_values_partial",
    "SL.C85_refuted",
    "SL.C85_witness"
   ],
   "note": "C85_grows: entries stay, for every history. C85_values_partial: values of all readings outside the pumps (and the pump states) stay. False for watts/rpm/gpm of a pump: C85_refuted (a second pump answer cut after 16 bytes removes the known value)."
  },
  {
   "property": "C86",
   "status": "proved",
   "theorems": [
    "SL.C86_documented",
    "SL.C86_witness"
   ],
   "note": ""
  },
  {
   "property": "C87",
   "status": "proved",
   "theorems": [
    "SL.C87_requests",
    "SL.C87_wire",
    "SL.C87_witness"
   ],
   "note": ""
  },
  {
   "property": "C88",
   "status": "proved",
   "theorems": [
    "SL.C88_over",
    "SL.C88_before_next",
    "SL.C88_returns",
    "SL.C88_silent",
    "SL.C88_at_once",
    "SL.C88_never",
    "SL.C88_witness"
   ],
   "note": "CancelledError is excepted: a call cancelled inside async_close ends before the connection is down (C90_closing_partial)."
  },
  {
   "property": "C89",
   "status": "proved",
   "theorems": [
    "SL.C89_shows",
    "SL.C89_odd",
    "SL.C89_unknown",
    "SL.C89_color",
    "SL.C89_clock",
    "SL.C89_chlorinator",
    "SL.C89_chemistry",
    "SL.C89_json",
    "SL.C89_dashboard",
    "SL.C89_witness",
    "SL.C89_witness_chlorinator",
    "SL.C89_witness_dashboard"
   ],
   "note": ""
  },
  {
   "property": "C90",
   "status": "partial",
   "theorems": [
    "SL.C90_gives_up_partial",
    "SL.C90_closing_partial",
    "SL.C90_backoff_partial",
    "SL.C90_swallowed",
    "SL.C90_refuted",
    "SL.C90_witness",
    "SL.C90_witness_closing",
    "SL.C90_witness_backoff",
    "SL.C90_witness_swallowed"
   ],
   "note": "False of the code while a call waits for an answer on a live connection: C90_swallowed (for every history), C90_refuted (async_update goes on). Proved for every other waiting point and every history: TCP connection, pause, lock (C90_gives_up_partial), end of a connection (C90_closing_partial), pause inside a request (C90_backoff_partial)."
  },
  {
   "property": "C91",
   "status": "partial",
   "theorems": [
    "SL.C91_own_partial",
    "SL.C91_refuted",
    "SL.C91_collateral",
    "SL.C91_late_partial",
    "SL.C91_late_witness",
    "SL.C91_witness"
   ],
   "note": "False of the code: C91_refuted (a task that was never cancelled gets CancelledError from a connection somebody else was cancelled closing), C91_collateral (callback not called; another call's request comes back empty). C91_own_partial: true of every history without a cancellation inside async_close. C91_late_partial: once the connection is down, a cancellation inside async_close changes nothing for the other closers."
  },
  {
   "property": "C92",
   "status": "proved",
   "theorems": [
    "SL.C92_exceptions",
    "SL.C92_witness"
   ],
   "note": ""
  },
  {
   "property": "C93",
   "status": "proved",
   "theorems": [
    "SL.C93_builds",
    "SL.C93_shows",
    "SL.C93_returns",
    "SL.C93_witness",
    "SL.C93_returns_witness"
   ],
   "note": ""
  },
  {
   "property": "C94",
   "status": "partial",
   "theorems": [
    "SL.C94_everybody_partial",
    "SL.C94_raises",
    "SL.C94_silences",
    "SL.C94_agrees",
    "SL.C94_everybody_witness",
    "SL.C94_refuted",
    "SL.C94_silences_witness"
   ],
   "note": "False of the code: C94_silences (for every history: a listener that unsubscribes itself or another listener of the code ends the notification with RuntimeError; nobody after it is called), C94_raises, C94_refuted. C94_everybody_partial: if all listeners return normally and unsubscribe nobody from this code, each is called exactly once with the new data. C94_agrees links this model of the notification to the one in the histories."
  },
  {
   "property": "C95",
   "status": "proved",
   "theorems": [
    "SL.C95_reads",
    "SL.C95_sets",
    "SL.C95_wire",
    "SL.C95_done",
    "SL.C95_witness"
   ],
   "note": ""
  },
  {
   "property": "C96",
   "status": "partial",
   "theorems": [
    "SL.C96_partial",
    "SL.C96_live_partial",
    "SL.C96_refuted"
   ],
   "note": "The property is false of the code: C96_refuted is a run that presses a button and then ends with a KeyError. C96_partial and C96_live_partial say which exceptions can leave the program."
  },
  {
   "property": "C97",
   "status": "proved",
   "theorems": [
    "SL.C97_writes",
    "SL.C97_refuses",
    "SL.C97_name",
    "SL.C97_returns",
    "SL.C97_only",
    "SL.C97_end",
    "SL.C97_always",
    "SL.C97_witness",
    "SL.C97_nameless"
   ],
   "note": ""
  },
  {
   "property": "C98",
   "status": "proved",
   "theorems": [
    "SL.C98_flags",
    "SL.C98_version",
    "SL.C98_by_hand",
    "SL.C98_witness"
   ],
   "note": ""
  },
  {
   "property": "C99",
   "status": "proved",
   "theorems": [
    "SL.C99_answered",
    "SL.C99_setter",
    "SL.C99_poll",
    "SL.C99_send",
    "SL.C99_acknowledged",
    "SL.C99_prompt",
    "SL.C99_polled",
    "SL.C99_witness"
   ],
   "note": ""
  },
  {
   "property": "C100",
   "status": "proved",
   "theorems": [
    "SL.C100_calls",
    "SL.C100_origin",
    "SL.C100_delivered",
    "SL.C100_replaces",
    "SL.C100_removed",
    "SL.C100_unconnected",
    "SL.C100_witness"
   ],
   "note": ""
  },
  {
   "property": "C101",
   "status": "proved",
   "theorems": [
    "SL.C101_own",
    "SL.C101_ends",
    "SL.C101_all",
    "SL.C101_stuck",
    "SL.C101_witness"
   ],
   "note": "C101_own: per call; C101_ends: with the adapter unreachable; C101_all: no exception left if no call asked for a connection while holding the lock; C101_stuck: the exception is real. The witness gives a concrete fair history."
  },
  {
   "property": "C102",
   "status": "partial",
   "theorems": [
    "SL.C102_forced",
    "SL.C102_graceful_partial",
    "SL.C102_calls",
    "SL.C102_background",
    "SL.C102_refuted",
    "SL.C102_witness",
    "SL.C102_background_witness"
   ],
   "note": "The clause on graceful disconnections is false of the code: C102_refuted is a fair history in which async_disconnect(force=False) of a healthy connection never ends after a message that could not be packed. C102_graceful_partial proves the clause when every message sent by hand fits a frame; the other clauses are proved in full (C102_forced, C102_background, C102_calls)."
  },
  {
   "property": "C103",
   "status": "proved",
   "theorems": [
    "SL.C103_opens",
    "SL.C103_asks",
    "SL.C103_closes",
    "SL.C103_unanswered",
    "SL.C103_background",
    "SL.C103_disconnect",
    "SL.C103_witness",
    "SL.C103_background_witness"
   ],
   "note": ""
  },
  {
   "property": "C104",
   "status": "proved",
   "theorems": [
    "SL.C104_running",
    "SL.C104_ended",
    "SL.C104_unanswered",
    "SL.C104_background",
    "SL.C104_witness"
   ],
   "note": ""
  },
  {
   "property": "C105",
   "status": "proved",
   "theorems": [
    "SL.C105_unit",
    "SL.C105_version",
    "SL.C105_model",
    "SL.C105_flags",
    "SL.C105_before",
    "SL.C105_stay",
    "SL.C105_witness",
    "SL.C105_version_said",
    "SL.C105_model_said"
   ],
   "note": ""
  },
  {
   "property": "C106",
   "status": "partial",
   "theorems": [
    "SL.C106_replaced_partial",
    "SL.C106_partial",
    "SL.C106_refuted",
    "SL.C106_reconnect_refuted",
    "SL.C106_partial_witness"
   ],
   "note": "False of the code: async_connect has no lock, so two concurrent connects (C106_refuted), or two requests made on a lost connection (C106_reconnect_refuted), open two TCP connections, and the first stays open, unknown to the gateway, even after async_disconnect has returned. C106_replaced_partial and C106_partial prove the property for every history in which at no moment two calls are under way that have both asked for a connection; C106_partial_witness shows such a history with a reconnection and overlapping calls."
  },
  {
   "property": "C107",
   "status": "proved",
   "theorems": [
    "SL.C107_backoff",
    "SL.C107_unanswered",
    "SL.C107_waits",
    "SL.C107_answered",
    "SL.C107_witness",
    "SL.C107_answered_witness"
   ],
   "note": ""
  },
  {
   "property": "C108",
   "status": "proved",
   "theorems": [
    "SL.C108_reading",
    "SL.C108_circuit",
    "SL.C108_places",
    "SL.C108_number_unique",
    "SL.C108_witness"
   ],
   "note": ""
  },
  {
   "property": "C109",
   "status": "proved",
   "theorems": [
    "SL.C109_poll",
    "SL.C109_push",
    "SL.C109_unique",
    "SL.C109_witness"
   ],
   "note": ""
  },
  {
   "property": "C110",
   "status": "proved",
   "theorems": [
    "SL.C110_data",
    "SL.C110_reading",
    "SL.C110_circuit",
    "SL.C110_same",
    "SL.C110_witness"
   ],
   "note": ""
  },
  {
   "property": "C111",
   "status": "proved",
   "theorems": [
    "SL.C111_when",
    "SL.C111_read",
    "SL.C111_shown",
    "SL.C111_returns",
    "SL.C111_kept",
    "SL.C111_witness",
    "SL.C111_witness_connect",
    "SL.C111_witness_short"
   ],
   "note": ""
  },
  {
   "property": "C112",
   "status": "proved",
   "theorems": [
    "SL.C112_answered",
    "SL.C112_shown",
    "SL.C112_witness"
   ],
   "note": ""
  },
  {
   "property": "C113",
   "status": "proved",
   "theorems": [
    "SL.C113_answered",
    "SL.C113_shown",
    "SL.C113_witness"
   ],
   "note": ""
  }
 ]
}