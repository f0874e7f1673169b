{"id": "C01", "title": "Message framing round-trip", "statement": "Packing a message and taking it apart again gives back the same message id, code and payload, and the packed message is exactly 8 bytes longer than its payload; ids or codes outside 0..65535 (or payloads of 2^32 bytes or more) are refused with struct.error and nothing is produced.", "quantifier": "every message id, message code and payload", "why_tests_cant": "ids, codes and payloads are unbounded in combination; tests use a handful", "anchors": ["screenlogicpy/requests/utility.py:makeMessage", "screenlogicpy/requests/utility.py:takeMessage"]}
{"id": "C02", "title": "takeMessage accepts only well-formed messages", "statement": "takeMessage returns (id, code, payload) only for bytes that are exactly what makeMessage produces for that triple; any other byte string is rejected with an error, never mis-parsed.", "quantifier": "every byte string", "why_tests_cant": "needs all byte strings, including truncated and over-long ones", "anchors": ["screenlogicpy/requests/utility.py:takeMessage"]}
{"id": "C03", "title": "takeMessages splits a concatenation exactly", "statement": "takeMessages of the concatenation of any list of packed messages is that list, in order; and whenever it returns normally the input is exactly such a concatenation; otherwise it raises ScreenLogicError and never another error.", "quantifier": "every list of messages; every byte string", "why_tests_cant": "unbounded number and sizes of messages", "anchors": ["screenlogicpy/requests/utility.py:takeMessages"]}
{"id": "C04", "title": "Text encode/decode round-trip", "statement": "decodeMessageString of encodeMessageString of a text is the same text, for UTF-8 and UTF-16, including texts with NULs or astral characters, whatever bytes follow; the encoding is a 4-byte length followed by a multiple of 4 bytes.", "quantifier": "every Unicode text, both encodings, any trailing bytes", "why_tests_cant": "all Unicode texts", "anchors": ["screenlogicpy/requests/utility.py:encodeMessageString", "screenlogicpy/requests/utility.py:decodeMessageString"]}
{"id": "C05", "title": "Embedded strings are read in place and skipped exactly", "statement": "Reading a string field at an offset of a larger buffer returns the text that was encoded there (without leading/trailing NULs) and an offset pointing at the first byte of the next field.", "quantifier": "every buffer prefix, text, encoding and buffer suffix", "why_tests_cant": "all offsets, lengths modulo 4 and texts", "anchors": ["screenlogicpy/requests/utility.py:getString"]}
{"id": "C06", "title": "Date/time encode/decode", "statement": "Decoding an encoded date/time gives back the same year, month, day, hour, minute and millisecond with seconds forced to 0 and timezone UTC; day-of-week is Monday=0 of the encoded date and is ignored on decoding; decoding rejects 16-byte blocks that are not a valid calendar date/time.", "quantifier": "every valid datetime; every 16-byte block", "why_tests_cant": "all dates incl. leap years, all sub-second values", "anchors": ["screenlogicpy/requests/utility.py:encodeMessageTime", "screenlogicpy/requests/utility.py:decodeMessageTime", "screenlogicpy/requests/utility.py:getTime"]}
{"id": "C07", "title": "Byte arrays are read in place and skipped exactly", "statement": "Reading an array field returns the encoded items and an offset just past the array and its padding to a multiple of 4.", "quantifier": "every buffer prefix, item list, padding and suffix", "why_tests_cant": "all lengths modulo 4", "anchors": ["screenlogicpy/requests/utility.py:getArray"]}
{"id": "C08", "title": "Fixed-width reads are exact and in bounds", "statement": "A fixed-width read at an offset returns the little- (or, for '>' formats, big-) endian value of precisely the bytes at that offset, depends on no other byte of the buffer, and raises struct.error exactly when the field does not fit in the buffer.", "quantifier": "every buffer, offset and format used by the library", "why_tests_cant": "all buffers and offsets", "anchors": ["screenlogicpy/requests/utility.py:getSome"]}
{"id": "C09", "title": "Received messages do not depend on TCP chunking", "statement": "For any byte stream and any two ways of cutting it into data_received chunks, the same messages are dispatched in the same order and the same bytes stay buffered.", "quantifier": "every byte stream and every chunking of it", "why_tests_cant": "exponentially many chunkings of unbounded streams", "anchors": ["screenlogicpy/requests/protocol.py:ScreenLogicProtocol.data_received"]}
{"id": "C10", "title": "Exact, ordered, complete reassembly", "statement": "If the adapter sends any sequence of messages followed by an incomplete tail, then however it is chunked, exactly those messages are delivered, each once, in order, as soon as their last byte has arrived, and only the incomplete tail stays buffered.", "quantifier": "every message sequence, tail and chunking", "why_tests_cant": "unbounded sequences and chunkings", "anchors": ["screenlogicpy/requests/protocol.py:ScreenLogicProtocol.data_received"]}
{"id": "C11", "title": "Arbitrary input never breaks the receiver", "statement": "Whatever bytes arrive, in whatever connection history, data_received never raises (in particular a reply never hits an already answered request).", "quantifier": "every history of requests, time-outs, cancellations, closes and every byte stream", "why_tests_cant": "needs an invariant over all histories", "anchors": ["screenlogicpy/requests/protocol.py:ScreenLogicProtocol.data_received", "screenlogicpy/requests/protocol.py:FutureManager.mark_done"]}
{"id": "C12", "title": "Message ids are in the client half and not reused early", "statement": "The n-th request of a connection is sent with id n mod 32767, so ids are in 0..32766 and any 32767 consecutive requests carry pairwise different ids.", "quantifier": "every history of a connection", "why_tests_cant": "needs wrap-around after 32767 requests and arbitrary interleaving", "anchors": ["screenlogicpy/requests/protocol.py:ScreenLogicProtocol.await_send_message"]}
{"id": "C13", "title": "Replies reach the request they answer", "statement": "If a request is answered with a message, that message carries the id the request was sent with and was received after the request was issued; the answer never changes afterwards.", "quantifier": "every interleaving of requests, replies, time-outs, cancels, closes", "why_tests_cant": "all interleavings", "anchors": ["screenlogicpy/requests/protocol.py:FutureManager.create", "screenlogicpy/requests/protocol.py:FutureManager.mark_done"]}
{"id": "C14", "title": "Each received message is used once", "statement": "Each message received on an open connection does exactly one of: answers exactly one outstanding request; starts exactly one handler task for its code with its payload; or is dropped. It never does two of these and never answers two requests.", "quantifier": "every reachable state and message", "why_tests_cant": "all states", "anchors": ["screenlogicpy/requests/protocol.py:ScreenLogicProtocol.data_received"]}
{"id": "C15", "title": "Unsolicited messages go to the handler registered last", "statement": "A message whose id matches no outstanding request is handed to the handler most recently registered (and not removed) for its code, with its payload and the registered arguments; codes with no handler are ignored.", "quantifier": "every history of register/remove calls and messages", "why_tests_cant": "all histories", "anchors": ["screenlogicpy/requests/protocol.py:ScreenLogicProtocol.register_async_message_callback", "screenlogicpy/requests/protocol.py:ScreenLogicProtocol.remove_async_message_callback", "screenlogicpy/requests/protocol.py:ScreenLogicProtocol.data_received"]}
{"id": "C16", "title": "A late reply answers nobody else", "statement": "The reply to a request that already timed out or was cancelled does not answer any other request as long as fewer than 32767 requests were issued since.", "quantifier": "every history and every delay", "why_tests_cant": "timing and wrap-around", "anchors": ["screenlogicpy/requests/protocol.py:FutureManager.try_get"]}
{"id": "C17", "title": "Graceful close lets outstanding requests be answered", "statement": "Documented: async_close() waits for outstanding requests to be resolved. Claim: a reply that arrives while a graceful close is waiting still answers its request. (Expected false: data_received discards everything once closing.)", "quantifier": "every reachable state with an outstanding request", "why_tests_cant": "a schedule-dependent property", "anchors": ["screenlogicpy/requests/protocol.py:ScreenLogicProtocol.async_close", "screenlogicpy/requests/protocol.py:ScreenLogicProtocol.data_received"]}
{"id": "C18", "title": "Nothing is sent once closing", "statement": "After async_close has started or the transport is closing, no request is written to the transport; new requests come back cancelled.", "quantifier": "every history after a close", "why_tests_cant": "all histories", "anchors": ["screenlogicpy/requests/protocol.py:ScreenLogicProtocol.await_send_message", "screenlogicpy/requests/protocol.py:ScreenLogicProtocol.send_message"]}
{"id": "C19", "title": "Forced close and connection loss release every waiter", "statement": "After async_close(force=True), or after the connection is lost and its clean-up task has run, no registered request is left pending.", "quantifier": "every history", "why_tests_cant": "all histories", "anchors": ["screenlogicpy/requests/protocol.py:FutureManager.all_done", "screenlogicpy/requests/protocol.py:ScreenLogicProtocol.connection_lost"]}
{"id": "C20", "title": "At most one keepalive timer", "statement": "At any time at most one keepalive timer is live; after disabling keepalive or losing the connection none is; every message sent while keepalive is enabled restarts it.", "quantifier": "every history of sends, enables, disables, timer fires, connection loss", "why_tests_cant": "all histories", "anchors": ["screenlogicpy/requests/protocol.py:ScreenLogicProtocol._set_keepalive", "screenlogicpy/requests/protocol.py:ScreenLogicProtocol.enable_keepalive", "screenlogicpy/requests/protocol.py:ScreenLogicProtocol.disable_keepalive"]}
{"id": "C21", "title": "Graceful close terminates once the outstanding requests end", "statement": "Once every outstanding request has timed out, been answered or cancelled, a graceful close proceeds to close the transport. (Fails if a request was refused at packing, e.g. message code above 65535: its waiter stays registered forever.)", "quantifier": "every history", "why_tests_cant": "liveness over all histories", "anchors": ["screenlogicpy/requests/protocol.py:ScreenLogicProtocol.async_close", "screenlogicpy/requests/protocol.py:ScreenLogicProtocol.await_send_message"]}
{"id": "C22", "title": "Bounded retries", "statement": "A request call writes at most max_retries+1 messages, all with the same code and payload and different ids, and waits 1, 2, ..., max_retries seconds between them, so it ends within a fixed time bound.", "quantifier": "every adapter behaviour, code, payload, max_retries and schedule", "why_tests_cant": "all adapter behaviours", "anchors": ["screenlogicpy/requests/request.py:async_make_request"]}
{"id": "C23", "title": "A returned payload is a genuine answer", "statement": "If a request call returns bytes, those bytes are the payload of a message with code = request code + 1 that carried the id of one of this call's own attempts.", "quantifier": "every interleaving of concurrent calls and adapter behaviour", "why_tests_cant": "all interleavings", "anchors": ["screenlogicpy/requests/request.py:async_make_request"]}
{"id": "C24", "title": "Error classification", "statement": "A rejected login raises ScreenLogicLoginError at once without retry; otherwise, after the last attempt, the error raised is the one that describes the last attempt (timeout: connection error; codes 30/31: request error; other codes: response error); no other exception escapes.", "quantifier": "every adapter behaviour", "why_tests_cant": "all outcome sequences", "anchors": ["screenlogicpy/requests/request.py:async_make_request"]}
{"id": "C25", "title": "No connection, no traffic", "statement": "A request call on a protocol that is not connected raises ScreenLogicConnectionError and writes nothing.", "quantifier": "every disconnected state", "why_tests_cant": "all states", "anchors": ["screenlogicpy/requests/request.py:async_make_request"]}
{"id": "C26", "title": "A request call returns data or raises", "statement": "A request call never returns None: it returns the reply payload or raises. (Expected false: a cancellation while connected makes it return None, and swallows the cancellation of the calling task.)", "quantifier": "every schedule", "why_tests_cant": "schedule dependent", "anchors": ["screenlogicpy/requests/request.py:async_make_request"]}
{"id": "C27", "title": "Commands succeed only on an empty acknowledgement", "statement": "Every set/add/remove/ping request returns normally exactly when the adapter answered with an empty payload, and raises ScreenLogicResponseError for any other reply (also when the call was cancelled).", "quantifier": "every adapter behaviour", "why_tests_cant": "all outcomes", "anchors": ["screenlogicpy/requests/button.py", "screenlogicpy/requests/heat.py", "screenlogicpy/requests/lights.py", "screenlogicpy/requests/scg.py", "screenlogicpy/requests/chemistry.py", "screenlogicpy/requests/client.py", "screenlogicpy/requests/datetime.py", "screenlogicpy/requests/ping.py"]}
{"id": "C28", "title": "max_retries stays within 1..5", "statement": "A gateway's max_retries is always between 1 and 5; out-of-range values raise ValueError and leave the old value.", "quantifier": "every sequence of constructor/set_max_retries calls", "why_tests_cant": "all sequences", "anchors": ["screenlogicpy/gateway.py:ScreenLogicGateway.set_max_retries"]}
{"id": "C29", "title": "Setting a circuit", "statement": "async_set_circuit sends exactly the button-press message for that circuit and state if the circuit is known and the state is 0 or 1, and otherwise raises ValueError without sending anything.", "quantifier": "every cached data, circuit id and state", "why_tests_cant": "all ids/states", "anchors": ["screenlogicpy/gateway.py:ScreenLogicGateway.async_set_circuit", "screenlogicpy/requests/button.py:async_request_pool_button_press"]}
{"id": "C30", "title": "Setting heat mode, heat temperature and colour lights", "statement": "Each of these sends exactly its message with the caller's values when the values are valid for the cached configuration (body known; temperature within that body's limits; mode 0..4; light command 0..21) and otherwise raises ValueError without sending anything.", "quantifier": "every cached data and argument", "why_tests_cant": "all arguments", "anchors": ["screenlogicpy/gateway.py:ScreenLogicGateway.async_set_heat_temp", "screenlogicpy/gateway.py:ScreenLogicGateway.async_set_heat_mode", "screenlogicpy/gateway.py:ScreenLogicGateway.async_set_color_lights"]}
{"id": "C31", "title": "Chlorinator settings: unspecified values are retained", "statement": "async_set_scg_config sends each specified value and, for each unspecified one, the cached value; if any value is out of range or missing from the cache it raises ScreenLogicError and sends nothing.", "quantifier": "every cached data and combination of arguments", "why_tests_cant": "all combinations", "anchors": ["screenlogicpy/gateway.py:ScreenLogicGateway.async_set_scg_config"]}
{"id": "C32", "title": "Invalid super-chlorinate states are refused", "statement": "A super_chlorinate value other than OFF/ON is refused like the other invalid values. (Expected false: it is silently sent as OFF.)", "quantifier": "every argument value", "why_tests_cant": "all values", "anchors": ["screenlogicpy/gateway.py:ScreenLogicGateway.async_set_scg_config", "screenlogicpy/const/common.py:SLIntEnum.parse"]}
{"id": "C33", "title": "Chemistry settings: unspecified values are retained exactly", "statement": "async_set_chem_data sends each specified value and the cached value of each other one; in particular the cached pH set point goes back as exactly the same number of hundredths although it is held as a float; out-of-range or missing values raise ScreenLogicError and nothing is sent.", "quantifier": "every cached data and argument combination", "why_tests_cant": "float rounding over the whole range, all combinations", "anchors": ["screenlogicpy/gateway.py:ScreenLogicGateway.async_set_chem_data"]}
{"id": "C34", "title": "Date/time settings: unspecified values are retained", "statement": "async_set_date_time needs at least one argument; setting only the DST flag keeps the controller's clock, setting only the clock keeps the DST flag. (Expected false for the clock when the host is not in UTC.)", "quantifier": "every cached data, datetime, host timezone offset", "why_tests_cant": "all time zones and times", "anchors": ["screenlogicpy/gateway.py:ScreenLogicGateway.async_set_date_time"]}
{"id": "C35", "title": "Data lookup by path", "statement": "get_data(path) returns the value reached by following the keys through dicts and lists, or None (KeyError when strict) if some key is missing; get_value/get_name return the 'value'/'name' entry of the dict found there under the same rules.", "quantifier": "every data tree and path", "why_tests_cant": "all trees and paths", "anchors": ["screenlogicpy/gateway.py:ScreenLogicGateway.get_data", "screenlogicpy/gateway.py:ScreenLogicGateway.get_value", "screenlogicpy/gateway.py:ScreenLogicGateway.get_name"]}
{"id": "C36", "title": "Pump polling", "statement": "async_get_pumps requests the status of exactly the pumps whose equipment flag is set, in increasing order, each once.", "quantifier": "every equipment flag word", "why_tests_cant": "2^32 flag words", "anchors": ["screenlogicpy/gateway.py:ScreenLogicGateway.async_get_pumps"]}
{"id": "C37", "title": "Connecting when connected is a no-op", "statement": "async_connect on a connected gateway returns True, contacts nobody and changes nothing, whatever arguments are passed.", "quantifier": "every gateway state and arguments", "why_tests_cant": "all states", "anchors": ["screenlogicpy/gateway.py:ScreenLogicGateway.async_connect"]}
{"id": "C38", "title": "A user request is issued at most twice", "statement": "One setter call, status/chemistry/chlorinator/clock getter call or raw send issues its request at most twice (once, and once more after a reconnect), and every issued copy carries the same code and payload, whatever the adapter does (not counting the login and configuration requests of the connection sequences it may run in between).", "quantifier": "every adapter behaviour", "why_tests_cant": "all outcome sequences incl. nested reconnects", "anchors": ["screenlogicpy/gateway.py:ScreenLogicGateway._async_connected_request"]}
{"id": "C39", "title": "Only one reconnect per request", "statement": "Documented: a connected request attempts to reconnect once. (Expected false: an adapter that accepts logins but always fails the configuration request makes one call reconnect without bound.)", "quantifier": "every adapter behaviour", "why_tests_cant": "unbounded executions", "anchors": ["screenlogicpy/gateway.py:ScreenLogicGateway._async_connected_request", "screenlogicpy/gateway.py:ScreenLogicGateway.async_connect"]}
{"id": "C40", "title": "Communication failures surface as ScreenLogic errors", "statement": "If a request fails for communication reasons, the exception is a ScreenLogic communication error. (Expected false: on a gateway that never connected the clean-up raises AttributeError instead; likewise when connect returns False.)", "quantifier": "every adapter behaviour and gateway state", "why_tests_cant": "all states", "anchors": ["screenlogicpy/gateway.py:ScreenLogicGateway._async_connected_request", "screenlogicpy/gateway.py:ScreenLogicGateway.async_disconnect"]}
{"id": "C41", "title": "Successful connect means configuration loaded", "statement": "If async_connect returns True then the configuration has been received on this connection. (Expected false after a connect that failed half way.)", "quantifier": "every history of connects", "why_tests_cant": "all histories", "anchors": ["screenlogicpy/gateway.py:ScreenLogicGateway.async_connect"]}
{"id": "C42", "title": "A failed connect leaves no connection open", "statement": "If the login sequence fails, the TCP connection it opened is closed. (Expected false.)", "quantifier": "every failing login sequence", "why_tests_cant": "all failure points", "anchors": ["screenlogicpy/requests/login.py:async_connect_to_gateway", "screenlogicpy/requests/login.py:async_get_mac_address"]}
{"id": "C43", "title": "Reconnect reuses the previous connection info", "statement": "async_connect without arguments uses the ip, port, type, subtype and name of the last connect; each given argument replaces only its own field; without any ip ever given it raises ScreenLogicError and contacts nobody.", "quantifier": "every sequence of connects and argument subsets", "why_tests_cant": "all subsets and histories", "anchors": ["screenlogicpy/gateway.py:ScreenLogicGateway.async_connect"]}
{"id": "C44", "title": "Failed polls keep the last good raw data", "statement": "The raw response kept for diagnostics changes only when the corresponding request succeeds, and then equals the bytes that were decoded.", "quantifier": "every adapter behaviour", "why_tests_cant": "all outcomes", "anchors": ["screenlogicpy/gateway.py:ScreenLogicGateway.async_get_status", "screenlogicpy/gateway.py:ScreenLogicGateway.get_debug"]}
{"id": "C45", "title": "Subscriptions behave as a set of (code, callback) pairs", "statement": "After any sequence of subscribe/unsubscribe calls, the registered listeners are exactly the pairs subscribed and not since removed through an unsubscribe function; calling an unsubscribe function again has no effect, and it never removes another callback.", "quantifier": "every sequence of subscribe/unsubscribe calls", "why_tests_cant": "all histories, incl. re-subscription and stale unsubscribe functions", "anchors": ["screenlogicpy/client.py:ClientManager.async_subscribe"]}
{"id": "C46", "title": "Push messages update data before listeners are called", "statement": "When a pushed message is processed, the gateway data is updated by the decoder for its code first, then every listener of that code is called exactly once and no listener of another code is called.", "quantifier": "every message, data and listener table", "why_tests_cant": "all states", "anchors": ["screenlogicpy/client.py:ClientManager._async_common_callback", "screenlogicpy/client.py:ClientManager._notify_listeners"]}
{"id": "C47", "title": "Listeners are served whenever there are any", "statement": "While attached and idle, having a listener implies being a client with a handler registered for its code. (Expected false: unsubscribing the last listener and subscribing another before the scheduled unsubscribe runs silences the new listener.)", "quantifier": "every schedule of subscribe, unsubscribe and background tasks", "why_tests_cant": "race; all schedules", "anchors": ["screenlogicpy/client.py:ClientManager.async_subscribe", "screenlogicpy/client.py:ClientManager.async_unsubscribe_gateway"]}
{"id": "C48", "title": "Subscriptions survive reconnection", "statement": "After a reconnect the handlers registered on the new connection are exactly the codes that have listeners, and the gateway is registered as a client iff there are any (if the registration succeeds).", "quantifier": "every listener table", "why_tests_cant": "all tables", "anchors": ["screenlogicpy/client.py:ClientManager.attach"]}
{"id": "C49", "title": "Subscribing cannot hang", "statement": "Subscribing always terminates. (Expected false: if the add-client request fails and the managed request reconnects, attach waits for the lock its own caller holds.)", "quantifier": "every adapter behaviour", "why_tests_cant": "deadlock, adapter dependent", "anchors": ["screenlogicpy/client.py:ClientManager.async_subscribe_gateway", "screenlogicpy/client.py:ClientManager.attach"]}
{"id": "C50", "title": "Client registration is serialised", "statement": "Add-client and remove-client requests never overlap, and an add-client is sent only when not a client, a remove-client only when one.", "quantifier": "every schedule", "why_tests_cant": "all schedules", "anchors": ["screenlogicpy/client.py:ClientManager.async_subscribe_gateway", "screenlogicpy/client.py:ClientManager.async_unsubscribe_gateway"]}
{"id": "C51", "title": "Status decoding", "statement": "Decoding a pool status message in the documented layout, with any number of circuits and up to two bodies, makes every reading available under its documented path with the value in the message (scaled as documented).", "quantifier": "every status content, circuit list and previous data", "why_tests_cant": "unbounded circuit lists, all field values", "anchors": ["screenlogicpy/requests/status.py:decode_pool_status"]}
{"id": "C52", "title": "Configuration decoding", "statement": "Decoding a configuration message, with any number of circuits and colours and any names, makes every setting available under its documented path.", "quantifier": "every configuration content and previous data", "why_tests_cant": "unbounded lists, all names", "anchors": ["screenlogicpy/requests/config.py:decode_pool_config"]}
{"id": "C53", "title": "Chemistry decoding", "statement": "Decoding an IntelliChem message makes every reading, set point, alarm and alert available under its documented path with the value in the message.", "quantifier": "every chemistry content and previous data", "why_tests_cant": "all field values", "anchors": ["screenlogicpy/requests/chemistry.py:decode_chemistry"]}
{"id": "C54", "title": "Chlorinator decoding", "statement": "Decoding a chlorinator message makes every setting available under its documented path.", "quantifier": "every content and previous data", "why_tests_cant": "all field values", "anchors": ["screenlogicpy/requests/scg.py:decode_scg_config"]}
{"id": "C55", "title": "Pump decoding", "statement": "Decoding a pump status message makes type, state, watts, rpm, gpm and the 8 presets available under pump/<index>; a state with the top bit set leaves the previous state; the pump is named after the first circuit matching a preset, else 'Default'. Precondition: every circuit the data knows came from a configuration message (has a device id and a name); a circuit known only from a status message makes the decoder fail with KeyError.", "quantifier": "every content, previous data and pump index", "why_tests_cant": "all field values", "anchors": ["screenlogicpy/requests/pump.py:decode_pump_status"]}
{"id": "C56", "title": "Colour update, version and date/time decoding", "statement": "Decoding these messages makes their fields available under the documented paths.", "quantifier": "every content and previous data", "why_tests_cant": "all field values", "anchors": ["screenlogicpy/requests/lights.py:decode_color_update", "screenlogicpy/requests/gateway.py:decode_version", "screenlogicpy/requests/datetime.py:decode_date_time"]}
{"id": "C57", "title": "Decoders ignore trailing bytes", "statement": "Extra bytes after a complete message do not change the result of any decoder.", "quantifier": "every decoder, buffer, suffix and data", "why_tests_cant": "all buffers", "anchors": ["screenlogicpy/requests/status.py", "screenlogicpy/requests/config.py", "screenlogicpy/requests/chemistry.py", "screenlogicpy/requests/scg.py", "screenlogicpy/requests/pump.py"]}
{"id": "C58", "title": "Decoders touch only their own device data", "statement": "A decoder changes only its own top-level branches: status: controller, body, circuit; config: controller, circuit, pump; chemistry: intellichem; scg: scg; pump: pump; colour: controller; version: adapter; date/time: controller - whether or not it fails.", "quantifier": "every decoder, buffer and data", "why_tests_cant": "all buffers incl. malformed ones", "anchors": ["screenlogicpy/requests/status.py", "screenlogicpy/requests/config.py", "screenlogicpy/requests/chemistry.py", "screenlogicpy/requests/scg.py", "screenlogicpy/requests/pump.py", "screenlogicpy/requests/lights.py", "screenlogicpy/requests/gateway.py", "screenlogicpy/requests/datetime.py"]}
{"id": "C59", "title": "Malformed pushes are atomic", "statement": "A message that fails to decode leaves the data unchanged. (Expected false: fields before the failure point have been stored.)", "quantifier": "every truncated buffer", "why_tests_cant": "all truncation points", "anchors": ["screenlogicpy/requests/scg.py:decode_scg_config"]}
{"id": "C60", "title": "Truncated messages are detected", "statement": "Every proper prefix of a well-formed fixed-layout message (chemistry, chlorinator, pump) is rejected with struct.error.", "quantifier": "every message content and every truncation point", "why_tests_cant": "all truncation points", "anchors": ["screenlogicpy/requests/chemistry.py", "screenlogicpy/requests/scg.py", "screenlogicpy/requests/pump.py"]}
{"id": "C61", "title": "Equipment flags", "statement": "For adapter firmware up to 736 only the low 16 equipment bits are reported, otherwise all; the equipment list names exactly the known flags that are set.", "quantifier": "every flag word and firmware version", "why_tests_cant": "2^32 flag words", "anchors": ["screenlogicpy/requests/config.py:decode_pool_config", "screenlogicpy/device_const/system.py:EQUIPMENT_FLAG"]}
{"id": "C62", "title": "Re-decoding is idempotent", "statement": "Decoding the same message twice gives the same data as decoding it once.", "quantifier": "every message and data", "why_tests_cant": "all data", "anchors": ["screenlogicpy/requests/scg.py", "screenlogicpy/requests/chemistry.py"]}
{"id": "C63", "title": "Response collections round-trip", "statement": "Deconstructing a response collection built from raw data gives the raw data and decoded data back. (Expected false when the configured pumps are not numbered 0,1,2,... without gaps.)", "quantifier": "every set of raw responses", "why_tests_cant": "all subsets of pumps", "anchors": ["screenlogicpy/data.py:build_response_collection", "screenlogicpy/data.py:deconstruct_response_collection"]}
{"id": "C64", "title": "Exported JSON imports to the same data", "statement": "Writing decoded data to JSON and reading it back gives the same data (integer keys, byte strings and RGB tuples included).", "quantifier": "every data tree the decoders can produce", "why_tests_cant": "all data trees", "anchors": ["screenlogicpy/data.py:write_sl_data_json", "screenlogicpy/data.py:read_sl_data_json"]}
{"id": "C65", "title": "Discovery responses are decoded exactly", "statement": "A discovery response yields the ip, port, type, subtype and name it encodes; a response with another check value or too short is refused.", "quantifier": "every datagram", "why_tests_cant": "all datagrams", "anchors": ["screenlogicpy/discovery.py:process_discovery_response"]}
{"id": "C66", "title": "Discovery survives any datagram", "statement": "Whatever datagrams arrive in whatever order, discovery never fails and reports exactly the well-formed responses, in order.", "quantifier": "every sequence of datagrams", "why_tests_cant": "unbounded sequences", "anchors": ["screenlogicpy/discovery.py:ScreenLogicDiscoveryProtocol.datagram_received"]}
{"id": "C67", "title": "Option parsing", "statement": "parse accepts, for every member of an enumeration, its number (as int or decimal numeral), every ASCII spelling of its name (any case, spaces for underscores, apostrophes anywhere) and its title, and yields that member; any other int or ASCII text yields the default; for ints and texts of any kind it never raises when the default is None or a member (the default default 0 is a member of all enumerations but STATUS_FLAG and STATE_FLAG). The values listed by parsable_values are exactly the numbers and lower-case names and each yields its member.", "quantifier": "every text and enumeration", "why_tests_cant": "all texts", "anchors": ["screenlogicpy/const/common.py:SLIntEnum.parse", "screenlogicpy/const/common.py:SLIntEnum.parsable_values"]}
{"id": "C68", "title": "Balance classification", "statement": "from_saturation returns exactly one of Ideal, Normal, Corrosive, Scaling: Ideal within +-0.1, Normal within +-0.5 otherwise, Corrosive below, Scaling above; and for the saturation decoded from any reported number of hundredths it is the class of that number (rounding to doubles moves none over a boundary).", "quantifier": "every saturation value", "why_tests_cant": "all values", "anchors": ["screenlogicpy/device_const/chemistry.py:BALANCE.from_saturation"]}
{"id": "C69", "title": "Controller model names are total", "statement": "model_from_type returns a name for every controller/hardware type pair: the table's if listed, otherwise 'Unknown Model C:<c> H:<h>'.", "quantifier": "every pair of integers", "why_tests_cant": "all pairs", "anchors": ["screenlogicpy/device_const/system.py:CONTROLLER.model_from_type"]}
{"id": "C70", "title": "CLI heat-state display", "statement": "The command line shows the heat state reported by the controller for every state it can report. (Expected false: states Heater and Both crash 'get heat-state' and are mislabelled on the dashboard.)", "quantifier": "every heat state", "why_tests_cant": "state dependent", "anchors": ["screenlogicpy/cli.py:async_get_heat_state", "screenlogicpy/cli.py:print_heat"]}
{"id": "C71", "title": "CLI auto-dst option", "statement": "Every value the command line accepts for --auto-dst is transmitted as its on/off number. (Expected false: the text is passed on unconverted and packing fails.)", "quantifier": "every accepted option value", "why_tests_cant": "per value", "anchors": ["screenlogicpy/cli.py:async_set_date_time"]}
{"id": "C72", "title": "Full update asks for everything, in order", "statement": "async_update asks for the pool status, then the status of every pump whose flag is set in increasing order, then chemistry, chlorinator and controller clock, in this order and nothing else (connection sequences aside); it returns normally only after all were asked. On a gateway without any data it raises ScreenLogicError and sends nothing.", "quantifier": "every history before and during the call, every set of equipment flags", "why_tests_cant": "all histories, all equipment flags", "anchors": ["screenlogicpy/gateway.py:ScreenLogicGateway.async_update", "screenlogicpy/gateway.py:ScreenLogicGateway.async_get_pumps"]}
{"id": "C73", "title": "Only encoded texts are decoded", "statement": "decodeMessageString returns a text only for bytes that start with a length word followed by an encoding (UTF-8, or UTF-16 with or without byte-order mark when the high bit is set) of that very text of that length; for every other input it raises struct.error or UnicodeDecodeError.", "quantifier": "every byte string", "why_tests_cant": "all byte strings", "anchors": ["screenlogicpy/requests/utility.py:decodeMessageString"]}
{"id": "C74", "title": "Hundredths are decoded to the nearest doubles, in order", "statement": "The number decoded from a reported number of hundredths (pH, saturation, pH set point) is a double and no double is closer to the reported value; different reports (of up to 32 bits) give different numbers in the same order.", "quantifier": "every reported integer", "why_tests_cant": "all integers; rounding", "anchors": ["screenlogicpy/requests/status.py:decode_pool_status", "screenlogicpy/requests/chemistry.py:decode_chemistry"]}
{"id": "C75", "title": "CLI set commands set exactly what was asked", "statement": "On every gateway that can be reached, a set command of the command line makes exactly one setter call: the one it stands for, for the gateway given (or the first discovered), with exactly the values given (option texts converted to the numbers they stand for), whatever the gateway answers; only setting the clock first reads the clock and sets nothing if that fails. Commands that get or show something, the dashboard, discovery and export never make a setter call.", "quantifier": "every command, every combination of arguments, every gateway behaviour and every data the gateway may hold", "why_tests_cant": "the gateway's answers and data are arbitrary", "anchors": ["screenlogicpy/cli.py:cli"]}
{"id": "C76", "title": "CLI exit status", "statement": "The command line's exit status is 0, 1 (no gateway found, or no controller data), 4 (no such circuit), 65 or 129 (nothing to set) or -1 (a ScreenLogic error). A call that raises is the last one made; a ScreenLogic exception gives status -1 and any other exception leaves the program; with any other status every call made returned normally. An unknown circuit number or a set command without values makes no call but connect, update and disconnect.", "quantifier": "every argument combination and every gateway behaviour", "why_tests_cant": "all failure points of all calls", "anchors": ["screenlogicpy/cli.py:cli"]}
{"id": "C77", "title": "CLI disconnects", "statement": "Every run of the command line that connects disconnects before it ends. (Expected false: export, missing controller data and every error path leave without disconnecting.)", "quantifier": "every argument combination and every gateway behaviour", "why_tests_cant": "all failure points of all calls", "anchors": ["screenlogicpy/cli.py:cli"]}
{"id": "C78", "title": "Keepalive pings", "statement": "Whenever the live keepalive timer of a connection fires, exactly one keepalive task is created, and nothing else creates one. The task sends one ping message (code 16, no payload) on the client manager's connection - at once if that connection is open - and does nothing else; it ends when the ping is answered or has failed, and no communication error comes out of it.", "quantifier": "every history of events at a connection and of the whole gateway, before and after", "why_tests_cant": "all histories", "anchors": ["screenlogicpy/requests/protocol.py:_call_keepalive", "screenlogicpy/client.py:_async_ping", "screenlogicpy/requests/ping.py"]}
{"id": "C79", "title": "Equipment configuration readings", "statement": "Decoding an equipment configuration message (controller and hardware type, two unknown bytes, controller data and twelve byte arrays of any lengths) stores every field and each array, in order, under its own name in the equipment section, whatever data the gateway already holds and whatever bytes follow.", "quantifier": "every content of the message, every reachable data tree, every trailing bytes", "why_tests_cant": "unboundedly many array lengths and prior data", "anchors": ["screenlogicpy/requests/equipment.py:decode_equipment_config", "screenlogicpy/requests/utility.py:getArray"]}
{"id": "C80", "title": "Connection-closed callback", "statement": "The callback passed to async_connect is called exactly once at every later loss of an open connection of the gateway, and at no other moment, until another callback is given; each connection is lost at most once. (Expected false: an automatic reconnection forgets the callback.)", "quantifier": "every history of API calls, arrivals, losses and task interleavings", "why_tests_cant": "all histories", "anchors": ["screenlogicpy/gateway.py:async_connect", "screenlogicpy/gateway.py:_common_connection_closed_callback", "screenlogicpy/requests/protocol.py:connection_lost"]}
{"id": "C81", "title": "Connection handshake", "statement": "Every connection a gateway makes starts with the fixed greeting text, written once, and its requests begin with challenge, login (fixed payload) and version, in this order; no other request precedes them, and the connection in use has had all three. An async_connect made while not connected goes to the given host and port, asks each of the three only after the one before was answered, raises the error of the first that fails, and goes on to the configuration only if the adapter's version is known after the answer; otherwise it returns False.", "quantifier": "every history of API calls, replies, losses, cancellations and task interleavings, every connection", "why_tests_cant": "all histories and interleavings of concurrent connect calls", "anchors": ["screenlogicpy/requests/login.py:async_connect_to_gateway", "screenlogicpy/requests/login.py:create_login_message", "screenlogicpy/gateway.py:async_connect", "screenlogicpy/requests/gateway.py"]}
{"id": "C82", "title": "Asking only for the MAC address", "statement": "async_get_mac_address sends the connect text once and then at most max_retries+1 challenges and nothing else (no login). If it returns a text, that text is the payload of the adapter's answer to one of its own challenges, and its connection is closed (or closing) from then on. If the adapter answers a pending challenge with a text, the call returns it. If the TCP connection fails it raises ScreenLogicConnectionError; whatever happens, an exception it raises is a communication error, CancelledError, struct.error, UnicodeDecodeError or TypeError.", "quantifier": "every retry limit and every history of connecting, data, losses, time-outs and cancellations", "why_tests_cant": "all interleavings of answers, time-outs and losses", "anchors": ["screenlogicpy/requests/login.py:async_get_mac_address", "screenlogicpy/requests/login.py:async_gateway_connect"]}
{"id": "C83", "title": "Data provenance", "statement": "Everything in gateway.get_data() came from the adapter: in every history the data is what reading a sequence of payloads into an empty dictionary makes, and each of these payloads was received on one of the gateway's own connections, either as the answer given to a request sent with exactly the query of that decoder (for a pump: the query of that very pump) or as a pushed message of the code the decoder is for. The bytes a call gets are those of the adapter's answer to that call's own request. As long as the adapter sent no such message the data is empty, a section (scg, intellichem, pump, ...) is present only if a message about it was received, and no other section ever appears.", "quantifier": "every history of API calls, replies, pushes, losses, reconnections, cancellations and task interleavings", "why_tests_cant": "all histories and interleavings; it is a statement about where every byte of an unbounded history came from", "anchors": ["screenlogicpy/gateway.py:get_data", "screenlogicpy/gateway.py:_async_connected_request", "screenlogicpy/requests/request.py:async_make_request", "screenlogicpy/client.py:_async_common_callback", "screenlogicpy/requests/protocol.py:data_received"]}
{"id": "C84", "title": "Whom the gateway talks to", "statement": "The gateway uses a connection (is_connected, requests, push) only if the adapter answered both the challenge and the login on that very connection, and gateway.mac is always the text it answered to that challenge; before the first answered login gateway.mac is empty and the gateway is not connected.", "quantifier": "every history of API calls, replies, losses, nested reconnections, cancellations and task interleavings", "why_tests_cant": "all interleavings of concurrent connects and automatic reconnections", "anchors": ["screenlogicpy/gateway.py:async_connect", "screenlogicpy/gateway.py:mac", "screenlogicpy/requests/login.py:async_connect_to_gateway"]}
{"id": "C85", "title": "Data never disappears", "statement": "Once get_data(...) of an entry (a device, a group, a reading, a numbered circuit, body, pump or preset) is not None it is never None again, and once get_value(...) of a reading is not None it stays so. (Expected false for the values of pump readings: a pump answer that is cut short removes them.)", "quantifier": "every history, every entry, every continuation (including malformed answers and reconnections)", "why_tests_cant": "all continuations with arbitrary bytes from the adapter", "anchors": ["screenlogicpy/gateway.py:get_data", "screenlogicpy/gateway.py:get_value", "screenlogicpy/requests/pump.py:decode_pump_status", "screenlogicpy/requests/status.py"]}
{"id": "C86", "title": "Readings describe themselves as documented", "statement": "Whenever get_data of a documented reading (body temperatures, set points and heat modes; pump power, speed and flow; controller sensors; chlorinator; chemistry controller) is not None, the reading has a value of the documented type (whole number, float or text) and exactly the documented name, unit, device_type, state_type, enum_options, set point limits and step, for every body and pump index. (A pump reading may be an empty dictionary after a truncated message.)", "quantifier": "every history of calls, arbitrary answers and pushed messages, every documented reading, every index", "why_tests_cant": "all histories with arbitrary bytes from the adapter, every order in which messages that write the same section arrive, every index", "anchors": ["screenlogicpy/requests/status.py:decode_pool_status", "screenlogicpy/requests/config.py:decode_pool_config", "screenlogicpy/requests/scg.py:decode_scg_config", "screenlogicpy/requests/chemistry.py:decode_chemistry", "screenlogicpy/requests/pump.py:decode_pump_status", "screenlogicpy/gateway.py:get_data"]}
{"id": "C87", "title": "Everything sent is documented or asked for", "statement": "Every request a gateway ever makes, and every packet it writes on any connection after the opening line, is one of a fixed list of documented messages: challenge, login, keepalive ping, the queries (version, clock, status, configuration, chlorinator, chemistry, pump 0..7), registration and deregistration of its own client id, or a command the user called for, carrying the values the user gave (settings left out are filled in within their legal ranges) or, byte for byte, what the user sent by hand with async_send_message. Nothing else is sent, whatever the adapter answers, however calls interleave, and across reconnections.", "quantifier": "every history of calls with any arguments, answers, pushes, losses and reconnections; every request and every packet", "why_tests_cant": "all histories, all adapter bytes, all argument values, all interleavings", "anchors": ["screenlogicpy/gateway.py:ScreenLogicGateway", "screenlogicpy/client.py:ClientManager", "screenlogicpy/requests/login.py", "screenlogicpy/requests/button.py", "screenlogicpy/requests/heat.py", "screenlogicpy/requests/lights.py", "screenlogicpy/requests/scg.py", "screenlogicpy/requests/chemistry.py", "screenlogicpy/requests/datetime.py", "screenlogicpy/requests/client.py", "screenlogicpy/requests/ping.py", "screenlogicpy/requests/pump.py"]}
{"id": "C88", "title": "A disconnection that has returned is over", "statement": "When async_disconnect has returned (or raised anything but CancelledError), the connection it closed has gone down, the gateway does not show it as connected, and nothing is ever written on that connection again; apart from a deregistration the call sent nothing. A call that closes a connection (async_disconnect, or any request that reconnects) does nothing else - in particular opens no new connection - before the old one is down. If the gateway is not registered as a client, nothing is written on the connection from the moment async_disconnect is called. Disconnecting a gateway that was never connected raises AttributeError and changes nothing.", "quantifier": "every history of calls, answers, losses and reconnections; every call; both values of force", "why_tests_cant": "all schedules: answers, losses, timeouts and other calls while the connection is being closed", "anchors": ["screenlogicpy/gateway.py:async_disconnect", "screenlogicpy/gateway.py:_async_connected_request", "screenlogicpy/requests/protocol.py:async_close", "screenlogicpy/requests/protocol.py:connection_lost"]}
{"id": "C89", "title": "The command line shows what the gateway reports", "statement": "When every call of a command succeeds, a get command and the set commands for circuits, heat modes and heat temperatures print exactly one element - the one asked for, as known after the refresh that follows the change - namely its value, or with --verbose its name with its value or option title; set color-lights prints the command's number or title; the chlorinator and chemistry set commands print exactly the settings given, as reported after the change, in order; the clock commands print the controller's clock after asking for it; get json prints all data; the dashboard prints every body and every circuit that is to be shown, in order. Each then disconnects and exits with status 0. An element the gateway does not know, or an option value that is not listed, prints nothing and ends in TypeError or ValueError.", "quantifier": "every gateway (any results and data), every command, every argument value, verbose or not", "why_tests_cant": "all data a gateway may hold, all option values, all histories of results", "anchors": ["screenlogicpy/cli.py:cli", "screenlogicpy/cli.py:vFormat", "screenlogicpy/cli.py:print_dashboard", "screenlogicpy/const/common.py:SLIntEnum.title"]}
{"id": "C90", "title": "A cancelled call gives up", "statement": "When a call of the API is cancelled while it waits - for a TCP connection, in a pause, for the subscription lock, for the end of a connection it closes, or for the answer to a request - it ends at once with CancelledError, does nothing more, changes nothing else of the gateway, does not keep the lock, and takes the lock from nobody else. (Expected false: while it waits for an answer on a live connection the cancellation is swallowed and the call goes on as if the answer were None.)", "quantifier": "every history, every call, every point at which the call can wait", "why_tests_cant": "all histories and all cancellation points", "anchors": ["screenlogicpy/gateway.py:_async_connected_request", "screenlogicpy/gateway.py:async_connect", "screenlogicpy/client.py:async_subscribe", "screenlogicpy/requests/request.py:async_make_request", "screenlogicpy/requests/protocol.py:async_close"]}
{"id": "C91", "title": "Cancellation is private", "statement": "A call of the API ends with CancelledError only if that very call was cancelled. (Expected false: whoever is cancelled while closing a connection cancels the future shared by everybody who closes that connection: later closers get CancelledError, the connection-closed callback is not called, and other calls' requests come back empty.)", "quantifier": "every history of calls, cancellations, answers, losses and interleavings", "why_tests_cant": "all schedules and all cancellation points of other tasks", "anchors": ["screenlogicpy/requests/protocol.py:async_close", "screenlogicpy/requests/protocol.py:requests_complete", "screenlogicpy/requests/protocol.py:connection_lost", "screenlogicpy/requests/request.py:async_make_request"]}
{"id": "C92", "title": "The exceptions a call can end with", "statement": "Every call of the API ends with a result or with one of: ScreenLogicError, ScreenLogicRequestError, ScreenLogicConnectionError, ScreenLogicResponseError, ScreenLogicLoginError, struct.error, UnicodeError, ValueError, TypeError, KeyError, IndexError, AttributeError, CancelledError; never with RuntimeError, AssertionError, ZeroDivisionError or OverflowError (provided that float(str) and datetime.fromtimestamp of the host do not raise these).", "quantifier": "every history, every call, every answer of the adapter", "why_tests_cant": "all answers, arguments and schedules", "anchors": ["screenlogicpy/gateway.py", "screenlogicpy/client.py", "screenlogicpy/requests/request.py:async_make_request", "screenlogicpy/requests/utility.py"]}
{"id": "C93", "title": "A gateway's data can be exported at any time", "statement": "At every moment, build_response_collection(gateway.get_debug(), gateway.get_data()) succeeds: every raw answer the gateway keeps decodes on its own, into an empty dict, whatever the host's clock says. The collection's fields have exactly the bytes get_debug() has, and if no dict in it has a negative key, exporting it to JSON and importing the JSON gives the same collection back.", "quantifier": "every history of calls, answers, timeouts, cancellations and connection losses, every clock", "why_tests_cant": "each raw answer was decoded once into data that other messages had filled; the export decodes it again into an empty dict, for every answer and every history", "anchors": ["screenlogicpy/data.py:build_response_collection", "screenlogicpy/gateway.py:get_debug", "screenlogicpy/requests/pump.py:decode_pump_status", "screenlogicpy/requests/config.py:decode_pool_config"]}
{"id": "C94", "title": "A listener cannot silence another", "statement": "When a pushed message arrives, every listener subscribed to its code is called exactly once with the data already updated, whatever the other listeners do when they are called. (Expected false: a listener that raises, or that calls its own unsubscribe function or that of another listener of the same code, ends the notification; whoever comes later in the order of the set is not called.) Listeners that return normally and unsubscribe at most listeners of other codes do no harm.", "quantifier": "every history of subscriptions, every message, every order of iteration, every behaviour of the listeners", "why_tests_cant": "the order of iteration over a set of callbacks is arbitrary; all combinations of listeners and their behaviour", "anchors": ["screenlogicpy/client.py:_notify_listeners", "screenlogicpy/client.py:_async_common_callback", "screenlogicpy/client.py:async_subscribe"]}
{"id": "C95", "title": "The command line, end to end", "statement": "Run on a real gateway that nobody else uses, a reading action (dashboard, discover, export, get) sends only the greetings of a connection, queries, the keepalive and registrations, never a message that changes something. A set command sends besides those only the message of its own setting, with the values given on the command line, on every connection of the run and on the wire; and when it ends with any exit status but -1 (and no exception) the adapter has acknowledged that message.", "quantifier": "every command and its arguments, every behaviour of the adapter and the network during each call (replies, pushes, losses, reconnections, timeouts), every client id", "why_tests_cant": "it composes the command line, the calls, reconnections and retries, and the wire, for all schedules of network events", "anchors": ["screenlogicpy/cli.py:cli", "screenlogicpy/gateway.py:ScreenLogicGateway", "screenlogicpy/requests/request.py:async_make_request"]}
{"id": "C96", "title": "The command line reports failure by its exit status", "statement": "Whatever the adapter answers, the command line ends with an exit status; no Python exception leaves it. (Expected false: only the package's own exceptions are caught. A set circuit whose state has not been reported presses the button and then ends with a KeyError.) What may leave it: struct.error, UnicodeError, ValueError, TypeError, KeyError, IndexError, AttributeError, cancellation, and what the host's date functions raise; never one of the package's exceptions.", "quantifier": "every command and its arguments, every gateway and every behaviour of the adapter", "why_tests_cant": "every combination of commands and of data present or missing", "anchors": ["screenlogicpy/cli.py:cli", "screenlogicpy/cli.py:vFormat"]}
{"id": "C97", "title": "The export command", "statement": "The export action makes two calls, connecting and updating. Whenever both succeed and the controller's data are there it ends with status 0 and has written one file, whose content is the JSON form of the collection of the gateway's data and raw answers at that moment, from which import gives the same data back. Whatever texts the adapter reports, the file's name has no directory separator and no punctuation but dashes besides its fixed parts. A gateway whose firmware, model or equipment flags are not known is refused with AttributeError or ValueError and nothing is written. No other action writes a file.", "quantifier": "every behaviour of the adapter and the network during the calls (arbitrary answers, pushes, losses), every firmware text, every set of arguments", "why_tests_cant": "the name and the content depend on arbitrary bytes sent by the adapter over arbitrary histories", "anchors": ["screenlogicpy/cli.py:file_format", "screenlogicpy/cli.py:cli", "screenlogicpy/data.py:ScreenLogicResponseCollection", "screenlogicpy/gateway.py:ScreenLogicGateway.version"]}
{"id": "C98", "title": "What an update guarantees", "statement": "Once async_update or async_get_pumps has returned normally, the equipment flags are known as an integer and the controller's model is known, at that moment and for ever after on that gateway object, whatever is received later. If the configuration is only ever requested by connecting (the user never requests it by hand), then whenever the equipment flags are known the adapter's version is known too.", "quantifier": "every history of calls, messages, failures and cancellations before, during and after the call", "why_tests_cant": "the guarantee must survive every later history and every order of messages during the call", "anchors": ["screenlogicpy/gateway.py:ScreenLogicGateway.async_update", "screenlogicpy/gateway.py:ScreenLogicGateway.async_get_pumps", "screenlogicpy/gateway.py:ScreenLogicGateway.equipment_flags", "screenlogicpy/gateway.py:ScreenLogicGateway.controller_model", "screenlogicpy/gateway.py:ScreenLogicGateway.version", "screenlogicpy/gateway.py:ScreenLogicGateway.async_connect", "screenlogicpy/requests/config.py:decode_pool_config"]}
{"id": "C99", "title": "An answered call goes on", "statement": "When the answer to the request a call is waiting for arrives on a connection that is not being closed, the call takes it and, at its next turn, goes on: a setter that gets its acknowledgement returns None and changes no data; a poll (status, chemistry, SCG, date-time) that gets a non-empty answer decodes it into the data and keeps it, returning normally or raising what the decoder raises, and an empty answer changes nothing; async_send_message returns the very bytes of the answer. So on an open connection a valid setter returns once its single message is acknowledged, and a poll returns once answered, with no other event needed.", "quantifier": "every history before the call, every interleaving of other calls, messages and failures while it waits, every answer", "why_tests_cant": "a call may reach its final request by many paths (first attempt, after a reconnect, after other tasks reconnect) and must go on from each of them", "anchors": ["screenlogicpy/gateway.py:ScreenLogicGateway.async_send_message", "screenlogicpy/requests/request.py:async_make_request", "screenlogicpy/requests/protocol.py:ScreenLogicProtocol.data_received", "screenlogicpy/requests/utility.py"]}
{"id": "C100", "title": "The user's own message handlers", "statement": "A handler registered with register_async_message_handler is called once, with the payload, for the next unsolicited message with its code on the connection it was registered on, if it was registered last; handlers of one connection are called in the order of their messages, each message at most once; a handler is never called for anything else: only with the payload of a message received on a connection on which it had been registered for that message's code (so not on later connections). It replaces the library's own processing: the data are not updated from that message and listeners subscribed to the code are not called. After removal nobody gets messages with that code; without a connection nothing is registered.", "quantifier": "every history of calls, registrations, removals, reconnections and messages", "why_tests_cant": "registrations, subscriptions and reconnects interleave arbitrarily with messages and with the tasks that run the handlers", "anchors": ["screenlogicpy/gateway.py:ScreenLogicGateway.register_async_message_handler", "screenlogicpy/gateway.py:ScreenLogicGateway.remove_async_message_handler", "screenlogicpy/requests/protocol.py:ScreenLogicProtocol.register_async_message_callback", "screenlogicpy/requests/protocol.py:ScreenLogicProtocol.data_received"]}
{"id": "C101", "title": "Every call ends", "statement": "In every run in which the event loop goes on with whatever can go on, timers fire, connection attempts end one way or the other and a closed transport reports the loss of the connection: every call of the API and every background task ends (with a result or an exception), if from some time on no TCP connection is made for it, unless it waits for the subscription lock for ever; when the adapter cannot be reached any more every call ends, unless some call waits for ever for the subscription lock that it holds itself (C49) - which does not happen if no call ever asked for a TCP connection while it held that lock. (A call that waits for the lock it holds waits for ever unless cancelled.) Messages sent by hand are assumed to fit a frame.", "quantifier": "every fair infinite history of calls, answers, losses, timeouts, cancellations and interleavings, after every finite one; every call", "why_tests_cant": "a liveness property of infinite schedules", "anchors": ["screenlogicpy/gateway.py:ScreenLogicGateway._async_connected_request", "screenlogicpy/gateway.py:ScreenLogicGateway.async_disconnect", "screenlogicpy/requests/request.py:async_make_request", "screenlogicpy/requests/protocol.py:ScreenLogicProtocol.async_close", "screenlogicpy/client.py:ClientManager.async_subscribe_gateway"]}
{"id": "C102", "title": "Disconnecting ends", "statement": "In every fair run (as in C101), without any assumption on the messages sent by hand or on whether the adapter can be reached: async_disconnect(force=True) and the background tasks (keepalive, unsubscription) end, unless they wait for the subscription lock for ever; every other call except async_disconnect(force=False) ends too, unless it waits for the lock for ever or TCP connections are made for it again and again. A graceful async_disconnect ends as well. (The last is false: after async_send_message with a message type or data that cannot be packed (struct.error), a graceful disconnection of a healthy connection never ends; it is true if every message sent by hand fits a frame.)", "quantifier": "every fair infinite history of calls, answers, losses, timeouts, cancellations and interleavings, after every finite one", "why_tests_cant": "a liveness property of infinite schedules", "anchors": ["screenlogicpy/gateway.py:ScreenLogicGateway.async_disconnect", "screenlogicpy/requests/protocol.py:ScreenLogicProtocol.async_close", "screenlogicpy/requests/protocol.py:FutureManager.all_done", "screenlogicpy/requests/protocol.py:ScreenLogicProtocol.await_send_message"]}
{"id": "C103", "title": "What a call does on the network is paid for by answers", "statement": "Whatever happened before and whatever happens afterwards, and whatever other calls do meanwhile: an API call other than async_connect and async_disconnect asks for at most 2 TCP connections plus one for every one of its requests that returned, makes at most 3 requests plus three for every one that returned, and closes at most 1 connection plus one for every one that returned (async_connect: 1, 1 and 0). So a call that never gets an answer makes at most two connections and three requests, however deeply connecting, polling and subscribing are nested in each other. A disconnection makes at most one request, closes at most one connection and opens none; the keepalive and the delayed unsubscription make at most one request and neither open nor close connections. (A request 'returns' when it is answered, or with None when the calling task is cancelled during the wait on a live connection.)", "quantifier": "every history of calls, answers, losses, timeouts, cancellations and interleavings before and after the call", "why_tests_cant": "the recursion async_connect -> async_get_config -> connected request -> async_connect has no bound (C39), so the number of attempts cannot be enumerated", "anchors": ["screenlogicpy/gateway.py:ScreenLogicGateway._async_connected_request", "screenlogicpy/gateway.py:ScreenLogicGateway.async_connect", "screenlogicpy/gateway.py:ScreenLogicGateway.async_disconnect", "screenlogicpy/client.py:ClientManager.async_subscribe_gateway", "screenlogicpy/client.py:ClientManager.attach"]}
{"id": "C104", "title": "How long a call can take", "statement": "Let every wait last no longer than the code allows: 2 s for a TCP connection and for an answer, n s before the n-th repetition of a request, 0.25 s after connecting; let computing take no time; and let at most n retries be configured. Then an API call that has not ended is no older than 2 s for each TCP connection it may ask for anyway (2; async_connect 1, async_disconnect 0), plus R(n) for each request it may make anyway (3; 1; 1), plus 0.25 s for each pause (3; 1; 0), plus a fixed time for every one of its requests that has returned, plus the time it has waited for the subscription lock or for the end of a connection - which the code does not limit; and a call that has ended ended within this time. R(n) is 2(n+1) s and the pauses 1+...+n s. So with the default of one retry a call that gets no answer ends within 19.75 s, async_connect within 7.25 s, the request of async_disconnect within 5 s. Keepalives and delayed unsubscriptions end within the time of one request (plus such waiting).", "quantifier": "every timed history in which no wait exceeds its limit: every choice of the moments of calls, answers, losses, timeouts, cancellations, and every interleaving", "why_tests_cant": "the bound is over all interleavings and all depths of nested reconnection; real tests would have to wait for every combination of timeouts", "anchors": ["screenlogicpy/const/msg.py:COM_TIMEOUT", "screenlogicpy/const/msg.py:COM_RETRY_WAIT", "screenlogicpy/requests/request.py:async_make_request", "screenlogicpy/requests/login.py:async_create_connection", "screenlogicpy/requests/login.py:async_gateway_connect", "screenlogicpy/gateway.py:ScreenLogicGateway._async_connected_request"]}
{"id": "C105", "title": "What the gateway's attributes say", "statement": "At every moment of every history, gateway.version and gateway.controller_model are None or a text and never raise; gateway.temperature_unit never raises and is '\u00b0C' exactly if get_value('controller','configuration','is_celsius') is a number other than 0, else '\u00b0F'. gateway.equipment_flags raises ValueError exactly as long as get_data('controller','equipment','flags') is None, in particular until the adapter has answered a request for its configuration; from then on it is that number (32 bits, not negative), get_data('controller','equipment','list') is the list of the names of its bits, and controller_model is a text. What version, controller_model or equipment_flags tell may change, but they never go back to telling nothing.", "quantifier": "all environments, client ids, retry limits, histories of calls, messages (complete, malformed or cut short), disconnections, time-outs and cancellations, and every moment in them", "why_tests_cant": "The attributes are computed from a dict that any message in any order, also one that is cut short, may have written; that they never raise and agree with each other is an invariant over all histories.", "anchors": ["screenlogicpy/gateway.py:ScreenLogicGateway.version", "screenlogicpy/gateway.py:ScreenLogicGateway.controller_model", "screenlogicpy/gateway.py:ScreenLogicGateway.equipment_flags", "screenlogicpy/gateway.py:ScreenLogicGateway.temperature_unit", "screenlogicpy/requests/utility.py:getTemperatureUnit", "screenlogicpy/requests/config.py:decode_pool_config"]}
{"id": "C106", "title": "One connection at a time", "statement": "The gateway takes another TCP connection into use only while it is not connected, so of all connections that ever were the gateway's at most one is up, and it is the one in use: no connection is abandoned while it is open, and async_disconnect closes whatever is open.", "quantifier": "all environments, client ids, retry limits, histories of concurrent calls, messages, disconnections, time-outs and cancellations", "why_tests_cant": "Whether two calls connect at the same time depends on the interleaving of calls, automatic reconnections and the network; the claim is an invariant over all of them. (It turns out to be false of the code when two calls connect at the same time, and true when no two do.)", "anchors": ["screenlogicpy/gateway.py:ScreenLogicGateway.async_connect", "screenlogicpy/gateway.py:ScreenLogicGateway.async_disconnect", "screenlogicpy/gateway.py:ScreenLogicGateway.is_connected", "screenlogicpy/requests/request.py:async_make_request", "screenlogicpy/requests/login.py:async_connect_to_gateway"]}
{"id": "C107", "title": "Nothing is given up early", "statement": "In every history in which time does not go back and no timer goes off before its time: a request sends its message for the (k+1)-st time no earlier than 1 + 2 + ... + k seconds after it began, whatever is answered and whatever happens to the connection. If it fails with ScreenLogicConnectionError although the connection is still up and none of its messages has been answered, it has sent its message exactly max_retries + 1 times and has not taken less than the whole time (2 s for each attempt, and the pauses between them). A message's answer that arrives less than 2 s after the message was sent, with nobody cancelling the request and the connection up, is received: the request returns it.", "quantifier": "all environments, client ids, retry limits, requests, timed histories of concurrent calls, messages, disconnections, time-outs and cancellations", "why_tests_cant": "Lower bounds on the time of a request, over all interleavings with other calls, answers, reconnections and cancellations; a test with a clock shows one of them.", "anchors": ["screenlogicpy/requests/request.py:async_make_request", "screenlogicpy/const/msg.py:COM_TIMEOUT", "screenlogicpy/requests/protocol.py:await_send_message", "screenlogicpy/requests/protocol.py:data_received"]}
{"id": "C108", "title": "Every reading is what a received message says", "statement": "At every moment of every history, for every documented reading (about sixty, and those of each body and pump), get_value gives None or exactly what a message the adapter sent says at the documented place: the bytes at the documented offset (for a body, within its 24 bytes; for the readings behind the lists, after as many 24- and 12-byte entries as the message announces), read with the documented width, byte order and sign, and shown with the documented scale or bit; the controller's model is the name of the two numbers in the configuration, the firmware of the chemistry controller that of its two bytes, the firmware of the adapter the text in its version message. The message was the adapter's answer to the query of that kind (for a pump, the query of that very pump) or a message pushed with its code; it may have been cut short. The same holds for get_value('circuit', id): it is what a status message says in an entry with that circuit number. No reading mixes bytes of two messages, shows a neighbouring field, or is made up.", "quantifier": "all environments, client ids, retry limits, histories of events, all documented readings, all bodies, pumps and circuit numbers, all message bytes including truncated ones", "why_tests_cant": "It ranges over all message bytes (any counts, any truncation) and over all histories in which answers and pushed messages interleave; a test decodes chosen messages.", "anchors": ["screenlogicpy/gateway.py:get_value", "screenlogicpy/requests/status.py:decode_pool_status", "screenlogicpy/requests/config.py:decode_pool_config", "screenlogicpy/requests/chemistry.py:decode_chemistry", "screenlogicpy/requests/scg.py:decode_scg_config", "screenlogicpy/requests/pump.py:decode_pump_status", "screenlogicpy/requests/datetime.py:decode_date_time", "screenlogicpy/requests/utility.py:getSome"]}
{"id": "C109", "title": "A poll that returns shows what its answer said", "statement": "When async_get_status, async_get_chemistry, async_get_scg or async_get_datetime returns normally, the last thing it did on the network was to get a reply to its own query (None if the wait was cancelled), and every documented reading the reply says something about - at the documented byte, with the documented width, sign and scale; per body, per circuit and behind the lists of a status message - is what get_value shows at that moment, not an older value. The same holds when a pushed message has been handled without error, which is when the listeners are called. Except for a circuit listed twice and for the adapter's firmware text, a message says exactly one value about a reading.", "quantifier": "all histories of calls, messages, failures and scheduling before and during the poll, all (also malformed or truncated) answers that the decoder accepts, all documented readings, any numbers of bodies and circuits", "why_tests_cant": "It quantifies over every interleaving of other tasks and pushed messages with the poll, over all message bytes and lengths of lists and over all previous contents of the data; a test checks one message on one history.", "anchors": ["screenlogicpy/gateway.py: async_get_status, async_get_chemistry, async_get_scg, async_get_datetime, get_value", "screenlogicpy/requests/status.py: decode_pool_status", "screenlogicpy/requests/chemistry.py: decode_chemistry", "screenlogicpy/requests/scg.py: decode_scg_config", "screenlogicpy/requests/datetime.py: decode_date_time", "screenlogicpy/client.py: _async_common_callback"]}
{"id": "C110", "title": "A reading changes only because a message about it was read in between", "statement": "Over any part of a history, what get_value gives for a documented reading is the same at the end as at the beginning, or it is the value a message told that was read in that part: the reply handed, in that part, to a call waiting for its query of that kind (for a pump, of that very pump), or a pushed message of that kind whose handling ran in that part. For a pump reading it may also be None, after a message about that same pump was read in that part (its readings are emptied while the rest of the message is read). The same holds for whether a circuit is on, with status messages that list the circuit. So no call, timer, reconnection, failure, unsubscribing, or message about something else changes a reading, and no message is read again later: a reply that was decoded before is never decoded anew.", "quantifier": "all histories and every way of cutting a part out of them: any calls, messages, pushes, timers, failures, disconnections and scheduling in the part, all documented readings, all circuit numbers", "why_tests_cant": "It is a statement about two moments of every execution and everything that can happen in between; a test looks at one reading before and after one operation.", "anchors": ["screenlogicpy/gateway.py: async_update, async_get_*, get_value", "screenlogicpy/client.py: _async_common_callback", "screenlogicpy/requests/*.py: decode_*"]}
{"id": "C111", "title": "No reply is passed over", "statement": "Whenever a call other than async_send_message (connect, update, any async_get_*, any setter, disconnect, subscribing) is handed a non-empty reply to a query - status, configuration, chlorinator, chemistry, a pump, date and time, version - then by the end of that very event the reply, and nothing else, has been read: the data are exactly what the decoder of that query makes of the data as they were just before. If the decoder raises, the call raises that exception at that very event, so it is never swallowed or retried; otherwise everything the reply tells is shown by get_value at once. Hence when a call returns normally, everything told by every reply it was handed on the way was shown as soon as it came, and at the end a documented reading shows what the reply told, or what a message read since then tells, or (pump readings) None after a message about that pump read since then. Assumed: float() of a version text raises no ScreenLogic communication error.", "quantifier": "all histories before the call and during it (other calls, pushes, timers, failures, cancellations, reconnections, any scheduling), all calls but async_send_message, all replies, all readings", "why_tests_cant": "A test hands one reply to one call; this is about every reply at every suspension point of every call under every interleaving, including replies that arrive on a second connection, and about which exceptions pass through the retry and lock code.", "anchors": ["screenlogicpy/gateway.py: async_connect, async_update, async_get_*, async_disconnect, async_subscribe_client", "screenlogicpy/requests/*.py: async_request_*, decode_*", "screenlogicpy/requests/request.py: async_make_request"]}
{"id": "C112", "title": "An update that returns shows what it was told", "statement": "When async_update returns normally, then each of its status, chemistry, chlorinator and clock queries has been answered: the update asked it and its request call returned (None only if it was cancelled while it waited, or an empty message). If the answer is a message, everything it tells was shown by get_value in the very event in which the update was handed it, and when the update returns each documented reading told by it still shows what the answer told, or the value told by a message that was read between then and the return. So no update reports success while silently skipping one of its polls, dropping an answer, or leaving an older value in place. Assumed: float() of a version text raises no ScreenLogic communication error.", "quantifier": "all histories before and during the update (concurrent calls, pushes, failures, retries on new connections, cancellations, any scheduling), all answers, all documented readings", "why_tests_cant": "The update suspends five to thirteen times, and everything else can happen at each suspension; a test plays one order with one set of answers.", "anchors": ["screenlogicpy/gateway.py: async_update, async_get_status, async_get_chemistry, async_get_scg, async_get_datetime", "screenlogicpy/requests/*.py: async_request_*, decode_*"]}
{"id": "C113", "title": "Connecting reports success only when told, and shows it", "statement": "When async_connect, called on a gateway that is not connected, returns True, then it has been answered the version query and the configuration query: it asked each and the request call returned (None only if it was cancelled while it waited, or an empty message). If the answer is a message, everything it tells was shown by get_value in the very event in which connecting was handed it, and when the call returns each documented reading told by it still shows what the answer told, or the value told by a message that was read between then and the return. So no connect reports success on a refused login, with a skipped configuration poll, or while leaving an older configuration in place. Assumed: float() of a version text raises no ScreenLogic communication error.", "quantifier": "all histories before and during the call (earlier sessions on the same object, concurrent calls, pushes, failures, retries, cancellations, any scheduling), all arguments, all answers, all documented readings", "why_tests_cant": "Connecting suspends at least five times and everything else can happen at each suspension, including on an object with an earlier session's data; a test plays one order with one set of answers.", "anchors": ["screenlogicpy/gateway.py: async_connect, _async_connected_request, async_get_config", "screenlogicpy/requests/login.py: async_gateway_connect, async_gateway_login", "screenlogicpy/requests/gateway.py: async_request_gateway_version", "screenlogicpy/requests/config.py: async_request_pool_config, decode_pool_config"]}
