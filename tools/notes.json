{
 "C17": {
  "status": "partial",
  "note": "The documented claim is false of the code: refuted by C17_refuted_replies_ignored (for every history: once closing, no pending request is ever answered) and C17_refuted_example. C17_close_waits_partial is the true part: the close does wait until its outstanding requests are resolved."
 },
 "C21": {
  "status": "partial",
  "note": "False in general: C21_refuted_stuck exhibits a history after which, for every continuation without cancellation or loss, the graceful close never proceeds. C21_close_proceeds_partial / C21_close_finishes: it does proceed whenever the outstanding requests are resolved."
 },
 "C26": {
  "status": "partial",
  "note": "False in general: C26_refuted (a cancellation while connected returns None). C26_none_partial: None is returned only in that case (or for max_retries < 0)."
 },
 "C59": {
  "status": "partial",
  "note": "False of the code: C59_refuted (every chlorinator message cut after its first number fails, yet that number has been stored). C59_partial is the true part: nothing outside the message's own branches changes and nothing disappears."
 },
 "C55": {
  "note": "C55_refuted_unconfigured shows the precondition is needed: with a circuit known only from a status message (no name yet) decoding fails with KeyError."
 },
 "C32": {
  "status": "partial",
  "note": "False of the code: C32_refuted (for every history, with the other values valid, any number other than 0 and 1 is not refused but sent as 0). C32_partial: what is sent is always 0 or 1, and the given state if it is one."
 },
 "C34": {
  "status": "partial",
  "note": "The clock half is false on hosts outside UTC: C34_clock_refuted. C34_clock_partial: it holds when the host renders the cached time stamp as the controller's own fields; C34_flag_sends/C34_time_sends/C34_only give the exact message in every case. The seconds are always sent as 0."
 },
 "C39": {
  "status": "partial",
  "note": "False of the code: C39_refuted exhibits one async_get_status call that has reconnected three times and still runs; C39_refuted_unbounded: for every n, one such call against an adapter that accepts every login and refuses every configuration request has opened n + 1 connections and still runs. C39_partial: for every history, a TCP connection is only ever started while the gateway is not connected."
 },
 "C40": {
  "status": "partial",
  "note": "False of the code: C40_refuted (a gateway whose first connect failed: AttributeError). C40_partial: every request the gateway ever makes ends with an answer, a ScreenLogic communication error, cancellation, or struct.error."
 },
 "C41": {
  "status": "partial",
  "note": "False of the code: C41_refuted (connect after a half-failed connect returns True; configuration never asked for) and C41_refuted_empty (answered without data). C41_partial: a connect call that starts unconnected returns True only after the configuration request it made was answered."
 },
 "C42": {
  "status": "partial",
  "note": "False of the code: C42_refuted (login refused: connection stays open and is forgotten). C42_partial: failure to open the TCP connection, or cancellation meanwhile, raises and leaves the connections unchanged."
 },
 "C49": {
  "status": "partial",
  "note": "False of the code: C49_refuted (for every continuation without cancelling the call it never returns: it waits for the lock it holds). Positive part, over every history: a locked lock is always held by a task that is still running (C49_holder); a task can wait for its own lock only after it asked for a TCP connection while holding it (C49_self_partial, C49_unopened_partial), and otherwise the queue is served (C49_queue_partial). Missing: progress when a reconnection happens inside the critical section, which is false."
 },
 "C44": {
  "status": "partial",
  "note": "False for one entry: C44_version_refuted (an empty answer to the version request overwrites the version by None). C44_changes_partial / C44_kept_partial: every other 'last raw' entry changes only to a non-empty answer of its own request, and what a polling call kept is what it was answered."
 },
 "C45": {
  "status": "partial",
  "note": "The clause 'calling an unsubscribe function again has no effect' is false in one case: C45_refuted (the pair was re-subscribed in between; the stale function removes the new subscription). Everything else is proved for every honest history (only functions got from the library are called): C45_subscribe, C45_never_other, C45_unsubscribe_partial, C45_stale_partial, C45_again_partial, C45_only, C45_initial."
 },
 "C47": {
  "status": "partial",
  "note": "False of the code: C47_refuted (unsubscribing the last listener and subscribing another before the scheduled background task runs silences the new one for good). C47_returned_partial: on return of a subscription the gateway is a client; C47_registers_partial: the handler is registered at once."
 },
 "C48": {
  "note": "C48_handlers: at the step where the client manager attaches to another connection, for every reachable state; C48_client: when the connect call returns True."
 },
 "C70": {
  "status": "partial",
  "note": "False of the code: C70_refuted_get (states Heater and Both: 'get heat-state' leaves with ValueError, on every gateway) and C70_refuted_dashboard (shown as Solar Preferred / Heater). C70_partial: without --verbose states 0 and 1 are printed as such."
 },
 "C71": {
  "status": "partial",
  "note": "False of the code: C71_refuted (for every text given, the setter call gets the text, and no gateway in any state sends anything for it). C71_partial: without the option the time is sent with the cached flag."
 },
 "C77": {
  "status": "partial",
  "note": "False of the code: C77_refuted_export, C77_refuted_failure, C77_refuted_empty. C77_partial: a command or the dashboard ending with a status other than -1 and 1 has disconnected last."
 },
 "C63": {
  "status": "partial",
  "note": "False of the code: C63_refuted (only pump 1 configured: its payload comes back as pump 0's). C63_partial states exactly what comes back for every raw dict for which a collection can be built, C63_pumps when the pumps are unchanged. The JSON/dict order of raw is not compared."
 },
 "C64": {
  "status": "partial",
  "note": "False of the code for negative circuit numbers: C64_refuted. C64_partial is an exact characterisation (the round trip works iff no dict key is negative; keys over 4300 digits excluded); C64_collection_partial extends it to exported collections. The JSON text itself is CPython's: documents are trees in the model."
 },
 "C80": {
  "status": "partial",
  "note": "False of the code: C80_refuted (after an automatic reconnection the callback is forgotten, because async_connect() is called without arguments). Proved for every history: called once per loss of an open connection unless a call closing it was cancelled (C80_called; see C91_collateral), and never otherwise (C80_only, C80_once), set only by async_connect (C80_set), forgotten only when a task starts a TCP connection (C80_forgets), hence in force until then (C80_callback_partial)."
 },
 "C81": {
  "note": "All histories: C81_greetings, C81_hello, C81_used; the connect call itself: C81_connect (Begins in Spec/Handshake lists every possible history and result) and C81_version."
 },
 "C82": {
  "note": "C82_sends, C82_returns, C82_answered. Side finding C82_leak: when the challenge fails, the call raises and leaves its connection open."
 },
 "C85": {
  "status": "partial",
  "note": "C85_grows: entries stay, for every history. C85_values_partial: values of all readings outside the pumps (and the pump states) stay. False for watts/rpm/gpm of a pump: C85_refuted (a second pump answer cut after 16 bytes removes the known value)."
 },
 "C90": {
  "status": "partial",
  "note": "False of the code while a call waits for an answer on a live connection: C90_swallowed (for every history), C90_refuted (async_update goes on). Proved for every other waiting point and every history: TCP connection, pause, lock (C90_gives_up_partial), end of a connection (C90_closing_partial), pause inside a request (C90_backoff_partial)."
 },
 "C91": {
  "status": "partial",
  "note": "False of the code: C91_refuted (a task that was never cancelled gets CancelledError from a connection somebody else was cancelled closing), C91_collateral (callback not called; another call's request comes back empty). C91_own_partial: true of every history without a cancellation inside async_close. C91_late_partial: once the connection is down, a cancellation inside async_close changes nothing for the other closers."
 },
 "C88": {
  "note": "CancelledError is excepted: a call cancelled inside async_close ends before the connection is down (C90_closing_partial)."
 },
 "C94": {
  "status": "partial",
  "note": "False of the code: C94_silences (for every history: a listener that unsubscribes itself or another listener of the code ends the notification with RuntimeError; nobody after it is called), C94_raises, C94_refuted. C94_everybody_partial: if all listeners return normally and unsubscribe nobody from this code, each is called exactly once with the new data. C94_agrees links this model of the notification to the one in the histories."
 },
 "C96": {
  "status": "partial",
  "note": "The property is false of the code: C96_refuted is a run that presses a button and then ends with a KeyError. C96_partial and C96_live_partial say which exceptions can leave the program."
 },
 "C102": {
  "status": "partial",
  "note": "The clause on graceful disconnections is false of the code: C102_refuted is a fair history in which async_disconnect(force=False) of a healthy connection never ends after a message that could not be packed. C102_graceful_partial proves the clause when every message sent by hand fits a frame; the other clauses are proved in full (C102_forced, C102_background, C102_calls)."
 },
 "C101": {
  "status": "proved",
  "note": "C101_own: per call; C101_ends: with the adapter unreachable; C101_all: no exception left if no call asked for a connection while holding the lock; C101_stuck: the exception is real. The witness gives a concrete fair history."
 },
 "C106": {
  "status": "partial",
  "note": "False of the code: async_connect has no lock, so two concurrent connects (C106_refuted), or two requests made on a lost connection (C106_reconnect_refuted), open two TCP connections, and the first stays open, unknown to the gateway, even after async_disconnect has returned. C106_replaced_partial and C106_partial prove the property for every history in which at no moment two calls are under way that have both asked for a connection; C106_partial_witness shows such a history with a reconnection and overlapping calls."
 }
}