# Formal model of screenlogicpy — design

Source: /repo (screenlogicpy 0.10.2, read as text).  Lean 4.33.0 project in `lean/`.

## Layout

* `Verif/Model/*`  – executable model, one file per Python module (or group); every definition cites file and lines.
* `Verif/Spec/*`   – small independent specifications (wire layouts, abstract sets, calendar, path lookup ...), written
  without using the model's helpers where a reader could confuse the two.
* `Verif/Lemmas/*` – helper lemmas.
* `Verif/Props/*`  – the property theorems, named `Cnn_...`, with `example`s showing that the hypotheses are met.

## Modelling conventions

* Python `bytes` = `List UInt8`; Python `int` = `Int` (or `Nat` where the code can only produce naturals);
  Python `str` = Lean `String` (so lone surrogates are excluded); Python `float` = the exact rational value of the
  IEEE double, with rounding to nearest-even at every float operation (`Model/Float.lean`).
* Exceptions are values (`Except PyErr`), decoders run in a state monad whose state survives an exception
  (mutations made before a `raise` stay, as in Python).
* `dict` = association list in insertion order; nested dict references are modelled as paths into one tree.
* asyncio: one event loop, coroutines only interleave at `await`.  The protocol + any number of concurrent
  `async_make_request` calls are a state machine `step : World → Event → World`; *every* list of events is an
  execution, so theorems over all event lists cover all schedules, time-outs, cancellations, losses and inputs.
* The gateway (`gateway.py`, `client.py`, `requests/login.py`, the request wrappers) is a set of coroutines as data:
  `Co` (`Model/Co.lean`) is the tree of what happens between two suspension points and what is awaited.  `Sys.step`
  (`Model/Gateway.lean`) is the scheduler: an event `Ev` is one uninterrupted piece of execution (an API call is made, a
  task goes on, TCP opens or fails, bytes arrive, a connection is lost, a timer fires, a handler task runs, a task is
  cancelled, the clock ticks).  An event that is impossible in the current state changes nothing, so every list of
  events is an execution, and theorems over all lists of events cover all schedules, failures and inputs.  Every
  connection of the gateway carries a complete protocol `World`, so the two layers are one model.  There is no fuel and
  no bound: the recursion connect → get_config → connected request → connect is broken at the suspension `openConn`,
  where the machine inserts the rest of the connection sequence (`afterOpen`).
* Ghost fields (`log`, `notes`, `userCalls`, `closedCalls`, `written`, `recv`, `fates`, ...) record what can be observed
  from outside; the program cannot read them, and `Gw.apply` makes it impossible for it to write the log.
* The command line (`cli.py`) is a program over an arbitrary gateway oracle (`Gate`), so its theorems hold for every
  behaviour of the gateway, including ones the gateway model does not have.

## Per property plan

| id | model | how proved |
|---|---|---|
| C01–C03 | `struct` packing and `utility.py` message functions over byte lists | algebra on little-endian digits, induction on message lists |
| C04–C05 | own UTF-8/UTF-16 codecs as in CPython (strict), `encodeMessageString`, `decodeMessageString`, `getString` | codec round-trip by induction on text, padding arithmetic |
| C06 | calendar, `encodeMessageTime`, `decodeMessageTime`, `getTime` | field arithmetic, validity predicate |
| C07–C08 | `getArray`, `getSome` | list slicing lemmas |
| C09–C11 | `complete_messages` loop | well-founded recursion; concatenation lemma; invariant over histories |
| C12–C21 | `ScreenLogicProtocol` + `FutureManager` + keepalive as a state machine | invariants by induction over event lists; negations by concrete histories |
| C22–C26 | `async_make_request` tasks in the same world | invariants over event lists |
| C27 | request wrappers | case analysis over all outcomes |
| C28–C36 | gateway setters/getters | decision logic, float table for pH, tree lookups |
| C37–C44 | `async_connect`, `_async_connected_request`, login, polls: coroutines over all histories | weakest preconditions for `Co` (`Lemmas/CoWp`, `Blocks`, `Calls`), rely/guarantee over atomic changes (`Micro`), induction on histories (`Reach`); negations by concrete histories |
| C45–C50 | `ClientManager` with lock, background tasks and set identity | invariants over histories (`Subs`, `Attach`, `Safe`); negations by concrete histories |
| C51–C62 | decoders | decode ∘ (independent) encode, frame lemmas per primitive |
| C63–C64 | `data.py` | structural induction |
| C65–C66 | `discovery.py` | decode ∘ encode, induction over datagram lists |
| C73 | `decodeMessageString` | soundness of both decoders (`Lemmas/TextExact`), case analysis |
| C67–C69 | enums/tables | finite tables lifted by lemmas, decision logic |
| C70–C71, C75–C77 | `cli.py` as a program over an arbitrary gateway | symbolic execution of every command; case analysis |
| C72 | `async_update` | the plan of requests by weakest preconditions |
| C74 | `Model/Float.lean`, `requests/chemistry.py` hundredths | `round53` is the nearest double (`Lemmas/Double`) |
| C78 | keepalive timer, `_async_ping` | invariants over protocol and gateway histories |
| C79 | `decode_equipment_config` | decode ∘ encode |
| C80 | `_common_connection_closed_callback` | `Co.All`: which changes each coroutine can make (`Lemmas/Safe`, `Recall`) |
| C81 | `async_connect_to_gateway`, `async_connect` | ownership of a connection being greeted (`Lemmas/Shy`), stages of the connect call (`Lemmas/Stages`) |
| C82 | `async_get_mac_address` (`Model/Mac.lean`) | invariant: the connection's history is a history of `World` with one challenge call; its exceptions from C24 and C73 |
| C83 | the whole gateway | every payload that is read into the data is traced back to a message received on a connection (`Lemmas/Grows`, `Filed`, `Provenance`; specification in `Spec/Provenance`) |
| C84 | `async_connect`, `async_connect_to_gateway` | the change of `_protocol`/`_mac` is made only just after an answered login (`LoggedIn` in `Lemmas/Micro`); answers are traced back as in C83 |
| C85 | all decoders under the whole gateway | which operations decoders do on which paths (`Lemmas/Profile`, `Valued`, `Portable`), lifted along histories; groups and readings in `Spec/Groups` |
| C86 | all decoders under the whole gateway | every stored reading meets its sheet, the type of its value included (`Lemmas/Sheets`), lifted along histories; the documented attributes are the table `Spec/Sheets` |
| C87 | every coroutine of `gateway.py`, `client.py`, `requests/*` and the event loop | structural predicate on coroutines (`Lemmas/Speaks`), preserved by every event; the vocabulary is `Spec/Vocabulary` |
| C88 | `async_disconnect`, `async_close`, `connection_lost` and the automatic reconnection | invariant over all events (`Lemmas/Over`): the connections a task has closed are down, except the last one while the task waits for it |
| C89 | the command functions, `vFormat` and `print_dashboard` of `cli.py` | the program is run against an arbitrary gateway (`Gate`); what is shown is given by `Spec/Display` with explicit title tables |
| C90 | every waiting point of every call | a coroutine that is cancelled where it waits unwinds (`Co.Dies`, `Lemmas/Frail`), preserved by every event; waiting points in `Spec/Cancel` |
| C91 | `async_close`, `async_make_request`, every call | which exceptions a coroutine passes on or raises itself (`Co.Raises`, `Lemmas/Calm`), where the history of a connection comes from (`Lemmas/Deeds`) |
| C92 | all the code a call runs, decoders included | `Co.Raises`, `Prog.Plain` (`Lemmas/Calm`) |
| C93 | `build_response_collection` on `get_debug()` and `get_data()` of the gateway model | `Trails` (`Lemmas/Alone`): a decoder that succeeds on some data succeeds on `{}`; invariant of the raw data over all histories |
| C94 | `Model/Notify`: `_async_common_callback` with listeners that raise or unsubscribe while being called; the set iterator's size check | iteration lemma over the listeners before the first one that misbehaves; `Gw.deliver` agrees with `Gw.commonCallback` for listeners that just return (C94_agrees) |
| C95 | the command line run on the gateway of the model: `Spec/Live` makes a `Gate` of a new gateway and of what happens during each call | C75 and C76 composed with C87 (what may be sent) and the setters' run theorem, through the calls of the run; the program never sends by hand (`Makes`) |
| C96 | the same programs; which exceptions each step of a command can raise | an inductive predicate on programs (`Throws`), C92 for the calls; refuted by a concrete run |
| C97 | `Model/CliExport`: `file_format`, the file's name, the collection built from the data and the raw answers of the gateway of the model | C93 (the collection of every history builds and returns), C86 (firmware and model are texts), the calls of C77 |
| C98 | `async_update`, `async_get_pumps`, the configuration decoder, every other writer of the data | what a call that returned must have learnt (`Lemmas/Named: call_learns`), the order in which the configuration decoder stores (`Lemmas/Flags`), monotonicity of the data (`Lemmas/Knows`); C97_always composes it with the export command |
| C99 | every call's last request, `async_make_request`, the reply demultiplexer | a predicate on continuations saying what the call does with the answer of its last request (`Lemmas/Lands`), proved through `connected_request`'s two attempts and carried along every history; composed with the framing lemma that the answer's bytes resolve the right future; `Spec/Progress` is the vocabulary |
| C100 | `register_async_message_handler`, `remove_async_message_handler`, the tasks `data_received` creates, everything else that touches the callback table | invariant over all atomic changes: the list of calls is a permutation of the user handler tasks that have run on all connections, in order per connection; handlers are filed under the codes they were registered for (`Lemmas/Handlers`); delivery by composing registration, framing and the task queue |
| C101 | everything that suspends a task: requests with their timeouts and pauses, opening, closing (gather, then the loss of the connection), the lock; fair infinite histories (Spec/Liveness.lean) | ranking: the phase and attempt of a request only grow, so does the stage of a closing; a pending future belongs to a running request; structural induction on the task's coroutine (a request, an opening, a pause, a closing goes on some time); the queue of the lock by the number of tasks ahead, then the holder's own ending; an enumeration (pairing function) gives a concrete fair history |
| C102 | as C101; which coroutines open connections and which close them gracefully; `await_send_message` leaves its future pending when `makeMessage` raises | syntactic predicate over coroutines (opens nothing / closes only by force), an invariant of the tasks: a forced closing waits for cancelled futures only; refuted for graceful closes: a state that no fair event changes, with the enumeration of C101 |
| C103 | the log of each task's actions (connections asked for, requests made and returned, connections closed) over all histories; Spec/Budget counts them and gives the free allowance of each call | amortised analysis: prices for opening, asking and closing, a credit for each request that returns; a weakest-precondition-like predicate over coroutines, an invariant of each task (balance), induction over the history; the bounds are met exactly by two concrete histories |
| C104 | Model/Clock: the events of the gateway model with times, the limit of every wait; Spec/Timing: punctual histories, the time of a request and of a call | each request's stage bounds the time since its begin (induction over the protocol's events); the amortised analysis of C103 with times as prices; an invariant of each task over timed histories; a concrete punctual history meets the bound of async_connect exactly |
| C105 | Model/Attributes: the four attributes computed from the data; Spec/Sheets and the names of the flags (Spec/Messages) | the data of every history is reachable (C83), so C86's kinds apply; flags and names are stored together by one decoder only (induction over decoder programs); which message said what the version and the model show, from C108 |
| C106 | Spec/Single: a call under way that has asked for a connection; nothing added to the model | refuted by two concrete histories; for histories in which no two calls connect at once: an invariant (Lemmas/Shy: between asking for a connection and storing it the gateway is not connected; only a connecting task changes `protocol`), induction over histories |
| C107 | Spec/Patience: patient histories (no timer of a request goes off early), the pauses before the k-th repetition; Model/Clock | how a request changes by one event (Lemmas/Patience), that no other event touches a request that has begun (Lemmas/Inner); an invariant of each request over timed histories that bounds its stage by the time since its begin; induction over the time it waits; concrete patient histories meet both bounds exactly |
| C108 | Spec/Fields: the layout of the messages as a table (byte, width, scale) and what a message of arbitrary, possibly truncated, bytes says about a reading, texts (model, firmware) included | an offset-tracking predicate over decoder programs (Lemmas/Fields), checked for each decoder with loop invariants for bodies and circuits (Lemmas/Places); induction over C83's provenance |
| C109 | Spec/Fields as for C108; polls and pushed messages of Model/Gateway | a decoder that ends normally has stored every reading its message speaks of (a coverage predicate over decoder programs with offsets, Lemmas/Puts), joined with C108's predicate; C44 gives that at the return the data are the decoded answer |
| C110 | Spec/Latest: which messages are read in a part of a history (handed to a call that waits for them, or pushed and handled), data made from earlier data by reading such messages | every coroutine decodes a reply only in the very step that hands it over (Lemmas/Prompt: a promptness predicate over coroutines, preserved by every step), so a step changes the data only by messages read in it; induction over the part; joined with C108's predicate over decoder programs; for pumps, only messages about a pump set its readings |
| C111 | Spec/Latest: a call is handed, by the last event of a history, the answer to its request; the rest is C109's and C110's vocabulary | a second predicate over coroutines (Lemmas/Eager): after a non-empty answer to a query the first effect is decoding it, and every handler around it (retry, lock, first-attempt) passes a decoder's exception on; preserved by every step of every task (Lemmas/Reply), with C110's promptness for `nothing else changes the data in that step`; decoders raise no communication error (Lemmas/Raw); then C109 (read means shown) and C110 (shown stays) |
| C112 | C111's and C110's vocabulary; the queries of an update (Spec/Gateway) | a third predicate over coroutines (Lemmas/Gains): it returns normally only after a given request was answered; holds of the whole update for each of its unconditional polls and is preserved by every step; then C111_when, C111_returns and C111_kept |
| C113 | C112's vocabulary; what connecting asks for (Spec/Latest `connectQueries`) | a fourth predicate over coroutines (Lemmas/Opens): it returns a value in a given set only after a given request was answered, opening a connection successfully counting as such; the coroutine a successful open turns into (log in, version, configuration) really asks both; preserved by every step; then C111_when, C111_returns and C111_kept |

Properties marked "expected false" in properties.jsonl are contradicted by the code as read: for each, the negation is
proved with a concrete witness and the largest true part is proved with the suffix `_partial`.

No property had to be given up as inexpressible.  What the statements leave out is said in the last section.

## Results that contradict the code's documentation or a user's expectation

Each is a theorem about the model, usually a concrete history, sometimes for every history.

| id | finding | theorem |
|---|---|---|
| C17 | after a graceful close no pending request is ever answered (`data_received` drops everything once closing) | `C17_refuted_replies_ignored` |
| C21 | a graceful close can wait for ever | `C21_refuted_stuck` |
| C26 | a request cancelled while connected returns `None` instead of raising | `C26_refuted` |
| C32 | an invalid super-chlorinate state is sent as 0 instead of being refused | `C32_refuted` |
| C34 | setting only the daylight-saving flag shifts the controller's clock on hosts outside UTC | `C34_clock_refuted` |
| C39 | one API call can reconnect more than once, and there is no bound: for every n one call opens n + 1 connections and has not ended | `C39_refuted`, `C39_refuted_unbounded` (induction over the turns of the loop); `C39_partial` |
| C40 | an unreachable adapter surfaces as `AttributeError` | `C40_refuted` |
| C41 | `async_connect` returns True without a configuration | `C41_refuted`, `C41_refuted_empty` |
| C42 | a refused login leaves a TCP connection open and forgotten | `C42_refuted` |
| C44 | an empty version answer overwrites the last good one | `C44_version_refuted` |
| C45 | a stale unsubscribe function removes somebody's new subscription | `C45_refuted` |
| C47 | unsubscribe-then-subscribe silences the new listener | `C47_refuted` |
| C49 | subscribing deadlocks on its own lock when the adapter refuses the registration | `C49_refuted`; positive part: ownership of the lock (`Lemmas/Hold`, `Spec/Lock`), `C49_holder`, `C49_queue_partial` |
| C55 (note) | a status message with an unconfigured circuit makes pump decoding fail | `C55_refuted_unconfigured` |
| C59 | a malformed message leaves a partial update behind | `C59_refuted` |
| C63 | a response collection moves pump answers to other pumps | `C63_refuted` |
| C64 | exported data with negative keys do not come back | `C64_refuted` |
| C70 | CLI heat-state display crashes or shows the wrong name | `C70_refuted_get`, `C70_refuted_dashboard` |
| C71 | the CLI's auto-dst option never has an effect | `C71_refuted` |
| C77 | the CLI leaves without disconnecting on errors and after an export | `C77_refuted_*` |
| C96 | Python exceptions leave the CLI when data are incomplete | `C96_refuted` |
| C85 | a pump answer that is cut short removes the pump's known readings | `C85_refuted` |
| C80 | an automatic reconnection forgets the connection-closed callback | `C80_refuted` |
| C90 | a call cancelled while it waits for an answer goes on as if the answer were `None` | `C90_refuted`; for every history `C90_swallowed` |
| C91 | a call cancelled while closing a connection makes later closers of that connection raise `CancelledError`, silences the connection-closed callback and empties other calls' requests | `C91_refuted`, `C91_collateral` |
| C94 | a listener that unsubscribes itself or another listener of its code ends the notification with RuntimeError; the listeners after it are not called | `C94_refuted`, for every history `C94_silences` |
| C102 | a graceful disconnect never returns after a message that cannot be packed has been sent | `C102_refuted*` |
| C106 | two calls that connect at the same time (or two requests on a lost connection) open two TCP connections; the first stays open, unknown to the gateway, even after `async_disconnect` | `C106_refuted`, `C106_reconnect_refuted` |

## Trusted base

* Lean's kernel.  Axioms: every theorem depends on at most `propext`, `Classical.choice` and `Quot.sound` (Lean's standard
  ones; `#print axioms` on each manifest theorem shows nothing else).  No own axioms, no compiled evaluation
  (`decide +kernel` is evaluated by the kernel).
* The reading of the Python source as text (nothing was run), and of the documented behaviour of CPython ≥ 3.11:
  `struct`, codecs, `datetime`, `dict` order, `asyncio` (`timeout`, `gather`, `Lock`, `Future`, `Task.cancel`), `enum`.
* That the comments "models file:lines" are right: `seeded/LOG.jsonl` lists wrong variants of the model that the theorems
  reject, but nothing connects the model to the Python text mechanically.

## What is modelled

`requests/`: all of utility, protocol, request, login, ping, client, button, heat, lights, chemistry, config, datetime,
equipment, gateway, pump, scg, status.  `gateway.py`, `client.py`, `data.py`, `discovery.py`, `cli.py`,
`device_const/*` and `const/*` (tables and enums as data).

## What is not modelled, and simplifications

* `validation.py`: unreachable code (nothing imports it, and its own imports do not exist).  `__main__.py`, logging,
  `__repr__`, type hints.
* Text: Lean `String`, so lone surrogates are excluded.  Python's `float(str)`, the Unicode classification tables, the
  local time zone (`datetime.fromtimestamp`) and the host clock are parameters (`Env`, `CliEnv`), so theorems hold for any.
* Floats: exact rationals rounded to 53 bits, unlimited exponent range, no NaN or infinities.
* Memory: an array length of 2^32 that Python would fail to allocate simply runs out of bytes in the model.
* Network: `opened` merges `connection_made` with the resumption of the task that waits for it; `transport.write` does not
  raise; durations of sleeps and time-outs are abstract (they may end at any moment), except in Model/Clock (C104), where every event has a
  time, no wait exceeds its limit and computing takes no time.
* Cancellation of a task is modelled at every point where it can wait: a request (and the pause inside it), the sleep, the
  TCP connection, the lock, and both awaits of `async_close` (outstanding requests; the end of the connection).
* In the histories (`Ev`) listeners just return; their calls into the library are further events.  Listeners that raise or
  unsubscribe while being called, and the order in which a `set` is iterated, are modelled separately (`Model/Notify`, C94).
  Exceptions in user handlers are not modelled.
* Message codes of subscriptions are naturals; handlers are numbers (2·code: the client manager's callback for the code;
  2·h+1: the user's handler h).
* Discovery: sockets, the broadcast, the one-second wait and warnings.
* CLI: `argparse` (the program starts with parsed arguments; `--port`, which argparse leaves a text, is a number here), the exact
  layout of printed text (`Out`), what writing the export file may raise (its name and content are modelled), `str.lower` (any function; C97's
  name theorem assumes it makes no punctuation), the 0.5 s sleep.
* Export: JSON text is CPython's business; documents are trees (`Json`).  `eval` is modelled for bytes literals only.  A
  pump index that is a text is a `TypeError`.
