# Formal model of m-lab/ndt-server: design

The model is written in Lean 4 under `lean/Verif/`.  It is a hand translation of the Go sources in `/repo` at the pinned commit; every definition that
models code cites the file and lines it models, and says what was simplified.

## Layout

| directory | contents |
|---|---|
| `Verif/Go/` | the parts of Go and its standard library the code relies on: bytes, UTF-8, decimal numbers, JSON, float64, calendar, `TrimSpace`; programs with an environment (`Prog`), loops over scripts (`Script`), transition systems (`LTS`) |
| `Verif/Ndt5/` | the ndt5 code (messages, login, control channel, c2s, s2c, meta, single-serving servers, raw port, measurement) and lemmas about it |
| `Verif/Ndt7/` | the ndt7 code (handler, senders, receiver, measurer, results, ping) and lemmas about it |
| `Verif/Netx/` | netx, bbr, tcpinfox |
| `Verif/Main/` | ndt-server.go and ndt7/listener as far as the start of the server and signals are concerned |
| `Verif/Data/` | the result types and cmd/generate-schemas |
| `Verif/Spec/` | specifications that do not use the model's helper functions |
| `Verif/Props/` | the property theorems, one file per group, with a worked `example` beside the theorems |

Names: `Cnn_...` is a theorem for property Cnn.  `_partial` marks a theorem that does not give all of the property; `_false` marks the proved negation of
a claim that the code violates.  MANIFEST.json lists the theorems of every property.

## Modelling conventions

* Bytes are `List UInt8`; Go strings are byte strings.  Error values are their texts.  nil pointers are `Option`.
* Integers: where wrap-around can be observed we use the wrapping type (`UInt32`, `Int64`, `BitVec 64`, `wrap64`) or an explicit range hypothesis;
  otherwise `Int`/`Nat`.
* float64: `F64 = nan | inf sign | fin (q : Rat)` with IEEE rounding to nearest even, overflow and subnormals; zero has no sign. That the function that computes it is rounding to nearest even as a specification without computation (`Spec/Float`) states it, for every rational number, is `F64.round_iff` (`Go/FloatSpec`).
* Sequential code that talks to the outside world (control channel, tests, ndt7 handler, main) is a program in a free monad (`M`, `Prog`): every call into
  the environment is an explicit operation whose answer is arbitrary and may depend on the whole history; it may also be a panic.  Deferred functions
  run on every outcome.  `Exec m s evs out s'` is the set of all executions, and theorems quantify over all of them.  The weakest precondition `wp`
  is proved equivalent to it (`wp_iff`).
* Loops whose only interaction is reading a sequence of answers (ndt7 senders and receiver, `FillUntil`) are functions of a script of answers of any length, also one that stops
  in the middle.
* Concurrent code (single-serving servers, measurer, polling, subtest synchronisation, signal handling, accept loop, forwarding, connection gauge) is a labelled transition system;
  theorems quantify over all action sequences.  One step is one statement that touches shared state.
* Map iteration is "any permutation of the entries".
* Time is an arbitrary value returned by the environment; monotonicity is a hypothesis where it is needed.

## Properties: how they are modelled and proved

| id | model and method |
|---|---|
| C01-C03 | `WriteTLVMessage`, `ReadTLVMessage` as functions on bytes; arithmetic on the two length bytes |
| C04, C11 | the buffered reader over an arbitrary segmentation of the stream |
| C05 | Go's JSON string encoder and a complete JSON parser; round trip by induction over the UTF-8 decomposition |
| C06 | decimal printing/parsing round trip; both encodings |
| C07 | a `reflect`-like value tree; trace of sends; independent flattening specification |
| C08-C10 | both `LoginCeremony` functions against an independent acceptance predicate |
| C12-C20, C26 | the whole of `HandleControlChannel` with the three tests as one program; projections of all its traces |
| C21, C22, C25 | values in the trace related to the measurement |
| C23, C24 | `meta.ManageTest` loop by induction; refinement to a list specification |
| C27 | fold over samples against min/max/sum of lists |
| C28-C33, C49-C51, C58, C59, C68, C69, C71-C78 | transition systems with inductive invariants; progress by decreasing measures |
| C34-C36 | functions; 64-bit arithmetic |
| C37-C41 | the ndt7 handler as a program |
| C42-C48, C65, C70 | loops over scripts; induction |
| C52-C54 | path functions, injectivity; the handler programs run concurrently on a file system |
| C55-C57, C60-C64 | functions; execution of `main` |
| C79 | a footprint of the session program: what every event of every execution satisfies, composed function by function |
| C80 | JSON values as trees with their text (`Go/JsonTree`), RFC 3339 times (`Go/Rfc3339`) and reflection-driven encoding and decoding over a small universe of types (`Go/Marshal`); round trips by induction over types and values, then instantiated to the ndt7 types (`Ndt7/Wire`) |
| C81 | decoding against an independent relation `Fits` between texts, types and values, by induction over the type |
| C82 | which decoded times can be encoded, lifted to records, then to all executions of the handler by the symbolic paths of its program |
| C83 | the system of handler, receiver and timers that C49 uses (`Ndt7/Subtest`); an invariant (an ended receiver has cancelled) and a ranking of the receiver's states that falls with each of its steps |
| C84 | the ndt5 types in the universe of `Go/Marshal` (`Ndt5/Wire`), the round trip of C80, and acceptance by a table (`Spec/SchemaLoad`) by induction over types |
| C85 | the parser of JSON is proved equal to an inductive grammar (`Spec/Json`), names to equality up to case (`Spec/Names`); then cases over the receiving functions |
| C86 | the script of a session (C12) read frame by frame with the wire format, the grammar of JSON and the type numbers of the NDT protocol (`Spec/ClientView`) |
| C87 | `net/url`'s `ParseQuery` (`Go/Query`) proved equal to an inductive grammar of query strings (`Spec/Query`); then C37, C38 for the query strings themselves. The demand that malformed and long query strings are refused is refuted |
| C88 | The documents described member by member, with literal names (`Spec/Documents`); `json.Marshal` for typed values is shown to write values of that shape (`Go/JsonShape`), which is then read off for each Go structure |
| C89 | The meaning of an object, member by member and without order (`Spec/ClientMessage`); the decoder's fold over the members is shown to read exactly that (`Go/MembersLemmas`) |
| C90 | Composition of C16, C84, C88 (ndt5) and of C40, C53, C82, C88 (ndt7): from the session to the bytes of its file; the record of a session is shown to fit its types, rates are doubles because rounding twice is rounding once (`Go/FloatRound`) |
| C91 | Model of a whole ndt7 subtest (`Ndt7/Test`): sender, receiver, measurer and ticker as one transition system with a clock; projections to the measurer (C50) and the sender; invariants for the lists and times; a rank for termination; composition with C90 |
| C92 | The readings of the clock in the order in which they are taken (`clocks`; for ndt7 `requestReadings`, with those of the subtest in the place of its call); what each recorded time is (`Ndt5/TimeOrder`, C91_times, `Ndt7/TimeOrder`) and its place among the readings |
| C93 | A session in which nothing goes wrong is described on its events (`Spec/GoodSession`: no call fails, only TestMsg messages after the login, no upload broken off early); each part of the session then ends without an error (`Ndt5/GoodLemmas`), and the counters and the record follow with C12, C16 and C17 |
| C94 | The program of `main` (C61) runs beside the goroutines of the services it started (`Main/Listener`), with the kernel's queues of waiting clients; invariant: the services are those that the log of `main` names, all open while the context lives; `main` starts the health service last |
| C95 | Composition for a client and a machine without failures, whose behaviour is specified on the steps of the subtest (`Spec/GoodTest`, `Spec/GoodRequest`): invariants of the transition system of C91 for the sender and the receiver, weakest preconditions for `runMeasurement` (`Ndt7/GoodLemmas`), then C90, C91, C41 for the file and the counters |
| C96 | The file systems of C53 and C54 as one (`Spec/SharedDisk`); the part of it below `ndt5` runs as in C54 and the rest as in C53, because the steps of one protocol do not concern the files of the other; the directories come from `main` (C61) |
| C97 | `path.Clean` and `path.Join` byte by byte (`Go/Path`); invariant of the loop: what is written is going up some number of times and then down along names; paths are compared by the place they name (`Spec/Path`) |
| C98 | metrics are sums of the updates in an interleaving of both protocols (`Spec/Totals`); each sum is split over connections, and each connection's part follows from the shape of its accounts (`Props/Accounts`), its test servers (`Ndt5/ServerShape`) and its ndt7 counters (`Ndt7/CounterShape`), up to any point; the gauge ignores ndt7 requests, proved by an example |
| C99 | the JavaScript client handler by handler (`Web/Ndt5Client`), joined with the server by message queues in both directions (`Spec/Browser`); an interleaving is split into what each side does (`Web/PlayLemmas`), what arrives is a beginning of the script of C12, and the page goes through its phases along that script (`Web/StepLemmas`); the late timer is a counterexample |
| C100 | the upload worker handler by handler (`Web/Ndt7Upload`): one step per event of the browser, the clock readings and `bufferedAmount` are inputs; invariants relate the sizes, the total and the posts; the result is fed to the server's upload subtest (C95) through `FromWorker` |
| C101 | the download worker as a step per event (`Web/Ndt7Download`); what the page gets is compared with what the download sender of C28 sends |
| C102 | `runNDT7Worker` as a transition system of the events that the page sees (`Web/Ndt7Main`), the three test functions as functions of its end, with the JavaScript values they return; counterexamples for the documented codes |
| C103 | `Object.assign` and the form serializer (`Web/Ndt7Urls`); the text is one that C87's `C87_encoded_arrives` covers, so that it is read as the same pairs; C95 and C38 say what the server makes of them |
| C104 | the transition system of C102 with the callbacks of the page, which throw if a member of a measurement is missing (`Web/Ndt7Html`); where nothing is missing it is the one of C102; counterexample for the timeout |
| C105 | the wrapper and the polling function of the widget on top of the client of C99 (`Web/Ndt5Widget`); what the client can have as results follows from the invariant of C99, the jitter from C27; counterexamples are sessions in which the server has no port, or a timer is late |
| C106 | the URLs that the pages make (`Web/Places`), read by a small reader of URLs (`Spec/Places`), against exactly what `main` offers at every address and path (`C61_offers`, by inversion of `main` and of the routes of the muxes); counterexamples are the default flags, and autocert |
| C107 | the measurer of C50 refined by the timer of its ticker (`Ndt7/Pacing.lean`): a state also holds when the timer fires, a draw is any number; every run projects to a run of the measurer, and an invariant says that the start and the ticks that get through are 25 ms apart |
| C108 | `Web/Discovery`: `discoverServerURLs` as a function of configuration and answer, with what JavaScript does on properties of null, of texts, of lists; case analysis, with the members of objects as a relation (`Spec/Discovery`); the query string from C103 |
| C109 | `Main/Registry`: the declared metrics, and for each event of the models the metric it uses with its label values; `Spec/Metrics`: what the library demands; the labels of ndt5 sessions from C79, of senders from C45, of receivers from C48 and C70, of ndt7 requests by a predicate on all events of the program |
| C110 | `Go/Handshake`: `Upgrade` of the websocket library and the settings used for ndt5 and ndt7; the readers of token lists and of offered subprotocols are proved exact for the grammar in `Spec/Handshake`, by induction on the line |
| C111 | `Go/FloatText`: how encoding/json and strconv place digits, point and exponent, and how they read numbers; the value of each form is computed from its parts; with this the assumption `FloatsOk` of C84, C88, C90 and C96 is a theorem (`C111_reads_back`) |
| C112 | the stubs (`Ndt5/OtherSystems`): a measurer with a nil channel as a transition system; every execution of a session that begins to measure waits for the end of the measuring or crashes (a predicate on event lists, closed under concatenation, walked through the whole session); so none ends on such a system. For ndt7 an invariant of the measurer |
| C113 | the senders of C43: the events of each iteration are a list in which sent measurements and pings come in pairs, which concatenation keeps; the end of a run from its shape (C45) |
| C66, C67 | the same programs with durations attached to their events |

## Where code and property disagree

For each of these the negation of the property (or of its violated part) is proved with a concrete witness, and a `_partial` theorem says what does hold.

* **C04** Full claim violated by the code (short reads are not detected): C04_segmentation_independent_false. Proved for pieces that do not end inside a header or body.
* **C10** Full claim violated by the code: a JSON null login crashes the handler (C10_ws_login_never_crashes_false); exact extent in C10_ws_login_crash_iff.
* **C16** The property is violated by the code: a client that reports NaN (or an infinity) prevents the record, proved by C16_record_written_false. What holds: exactly one record, before the connection is closed, with the described content, if the file system works, the connection got a UUID and all rates are numbers.
* **C17** The per-direction equality holds on every connection; the documented global equality is violated (a refused login counts an error but no result).
* **C18** Violated: a login without the status bit is counted as okay although nothing is sent. The partial theorem says this is the only exception.
* **C19** Violated: the listener stays open if the TestPrepare message cannot be sent. The partial theorem says this is the only exception.
* **C20** Uploads: proved in all cases, crashes included, if the server hands over exactly one of a connection and an error. Downloads: violated if the test crashes; proved if no call into the environment panics. Violated also if a connection is handed over together with an error (C32).
* **C22** Full claim violated by the code: a failed measurement makes the upload test dereference nil (C22_no_crash_without_measurement_false). C22_crash_iff_partial says exactly when it panics.
* **C27** Violated: a sample of zero resets the minimum, and the sum wraps around at 2^32 microseconds. Proved without these two cases; maximum, count (below 2^32) and last sample are always right.
* **C28** Violated: no measurement is taken after the stop if it arrives while the goroutine waits for the ticker. Proved: exactly the successful samples in order, and at most one reading after the stop.
* **C32** Violated in three ways: a second client replaces the first one, a client arriving at the timeout is lost, a connection is returned with the error of another client. Proved for a single client without timeout; for the plain server only the timeout is an exception.
* **C40** Violated when the file cannot be written: the process then ends (C40_one_file_and_flow_false). Proved for every other execution, including crashing subtests; requests not counted as result leave nothing.
* **C41** Violated by a crashing subtest (C41_counted_false). Proved without crashes; the histogram claim needs a positive elapsed time and a non-negative count, since 0/0 is labelled with-rate but not observed (C41_nan_rate).
* **C44** The limit never ends the test too early and a run ends at the limit, unless the ping after the last measurement fails: then the result is that error (C44_ends_at_limit_false).
* **C48** Exactly one reason unless the client sends a malformed pong, which is counted twice (C48_one_reason_false).
* **C49** Nothing changes after Do returned unless the context has ended; then one more client measurement may be added (C49_data_final_false, C49_at_most_one_more).
* **C53** Holds without compression. With compression a failing close of the compressor is only logged, so a test can be reported as finished with an incomplete file; the negation is proved.
* **C56** Round trip for every 64-bit timestamp. What is accepted is the text of a 64-bit integer or the word null; the latter contradicts the property (C56_others_rejected_false).
* **C61** Everything stated is proved for every execution of main, except one corner: with autocert and a hostname and exactly one of certificate and key, the ndt7 TLS service starts to listen but serving ends the process (C61_tls_serves_false); with both or neither given this cannot happen (C61_tls_serves_partial).
* **C62** Proved for every server started by main; false of the servers of single ndt5 websocket tests, which have the timeouts but not the TLS floor (C62_all_servers_false).
* **C63** The generator uses the ndt7 structure for both files: C63_ndt5_schema_false, and the file for ndt5 rejects every ndt5 record (C63_ndt5_rejected, C63_ndt5_records_rejected). The ndt7 half is proved (C63_written_records_load). Schema inference is modelled after the library.
* **C65** Violated: the bytes of a write that fails after part of its data went out are not counted. Proved for runs whose failing write wrote nothing.
* **C66** The property is false: the messages of the control connection are awaited without any deadline, so no bound holds (C66_unbounded_false); and even with a client that never keeps the server waiting and operations that take no time, a connection can take 55 seconds, since the download's ten seconds are not cut by the context (C66_prompt_client_false). Proved instead: for prompt clients, 45 seconds plus 10 if there is a download, plus the durations of the single operations, whose number is bounded.
* **C69** Violated in one respect: a connection with a control session is closed twice. Everything else is proved.
* **C70** All counts of a receiver carry one label that tells the directions apart, but it is 0 or 1 and not the name of the direction (C70_direction_label_false).
* **C71** Stop ends the measurer within a bounded number of steps if the ticker is in place when Stop is called; otherwise it waits for the timeout (C71_stop_is_prompt_false).
* **C72** False: a third SIGTERM between the deferred close of the channel and the end of the process is sent to a closed channel (C72_clean_shutdown_false); the partial theorem says a crash needs a signal after the close, so at least three signals or a cancellation.
* **C73** False: a SIGTERM before signal.Notify kills the process (C73_one_signal_false); from the registration on it cannot.
* **C78** Violated: `MeasurementServerAccept.WithLabelValues(...)` in singleserving/server.go lacks `.Inc()`, so no client is ever counted (C78_counted_false).
* **C82** Violated: `json.Unmarshal` accepts a time zone of +24:00 (as in `{"ConnectionInfo":{"StartTime":"2020-01-01T00:00:00+24:00"}}`), `json.Marshal` refuses to write it, and `rtx.Must(err, "failed to write result")` in ndt7/handler/handler.go ends the process with all its other tests (C82_clients_cannot_end_server_false). With a working disk nothing else that clients send does this (C82_exit_exactly).
* **C112** Violated: on systems other than Linux `MeasureViaPolling` returns a nil channel (ndt5/web100/web100_stub.go), and `StopMeasuring` receives from it. That blocks forever, so every ndt5 session with an upload or a download hangs and is neither stored nor closed (C112_ndt5_hangs).

Other observations made while modelling (no property claims otherwise):

* A failing `ListenWS`/`ListenPlain` counts a server start without a stop.
* Without a kernel cookie every call of `GetUUID` gives another UUID.
* ndt5 files are sorted by local date, ndt7 files by UTC date.
* Two ndt5 records of the same UUID and day overwrite each other (`C54_same_uuid_overwrites`).
* With `-ndt5.token.required` a websocket client that connects to the raw port is forwarded to the websocket server, which has no access control
  (`C61_ws_uncontrolled`).
* A panic in the goroutines of the ndt7 receiver or measurer would end the process; the model has none there.

## Trusted base

### Kernel and axioms

* Lean 4.33.0's kernel, and Mathlib as far as it is imported (single modules).
* Every theorem depends on no axioms beyond `propext`, `Classical.choice` and `Quot.sound` (`#print axioms`); `vcheck` reports none that trust the
  compiler.  There are no own axioms, no `sorry`/`admit`, no `native_decide`, no `bv_decide`.  Concrete executions are checked with `decide +kernel` or `rfl`, that is by the
  kernel.

### The translation

The translation from Go to Lean is by hand.  Modelled code, with the files of the model:

| code | model |
|---|---|
| ndt5/protocol/protocol.go, messager.go | Ndt5/Protocol, NetConn, SendMetrics, Fill, Web100 (measurer) |
| ndt5/ndt5.go | Ndt5/Control |
| ndt5/meta/meta.go, c2s/c2s.go, s2c/s2c.go | Ndt5/Meta, Upload, Download |
| ndt5/plain/plain.go | Ndt5/Login, NetConn (sniffing), RawPort |
| ndt5/handler/wshandler.go | Ndt5/Login; the handshake: Go/Handshake; the rest of the file only chooses connection type and metadata (`Cfg`) |
| ndt5/ws/ws.go | Go/Handshake |
| ndt5/singleserving/server.go | Ndt5/SingleServing |
| ndt5/web100/web100_linux.go | Ndt5/Web100 |
| ndt5/metrics, metrics/metrics.go, ndt7/metrics | labels in Ndt5/World, Ndt5/Control, Ndt7/Handler; counters are events; declarations in Main/Registry |
| netx/net.go, bbr, tcpinfox | Netx/Info, Netx/Conn |
| the `_stub.go` files for systems other than Linux | Ndt5/OtherSystems |
| ndt7/handler, results, download, upload, receiver, measurer, ping | Ndt7/Handler, Results, Sender, Subtest, Receiver, Measurer (with its timer: Pacing), Ping; a whole subtest: Ndt7/Test |
| ndt-server.go, ndt7/listener | Main/Config, Main/Signal, Main/Listener |
| html/ndt-browser-client.js | Web/Ndt5Client; not its logging, `checkBrowserSupport` and `onerror` |
| html/ndt7-upload-worker.js | Web/Ndt7Upload |
| html/ndt7-download-worker.js | Web/Ndt7Download |
| html/ndt7.html | Web/Ndt7Html: when its callbacks throw; not what it displays |
| html/ndt-wrapper.js, html/script.js | Web/Ndt5Widget: the wrapper with a web worker, `monitorTest`, and the values on the page with the results; not gauges, fading and the table with all variables |
| html/ndt7.html, html/ndt-wrapper.js, html/ndt-browser-client.js: their URLs | Web/Places; the wrapper's host name is that of the page, which may set another |
| html/ndt7.js | Web/Ndt7Main: `runNDT7Worker`, `downloadTest`, `uploadTest`, `test`; Web/Ndt7Urls: the URLs for a given server; Web/Discovery: `discoverServerURLs` |
| data/result.go, ndt7/model, ndt5/control, cmd/generate-schemas | Data/Schema, Ndt7/Types, Ndt7/Wire and Ndt5/Wire (JSON), Ndt5/World |

Not modelled: log output; ndt7test; TLS, HTTP and websocket framing inside the libraries; the HTML pages other than `ndt7.html`; of the shipped JavaScript the display code of `script.js` and the bundled libraries; the kernel.

### Assumptions about libraries and the environment

* Go's JSON encoder and decoder, `strconv`, `strings`, `bufio.Reader`, the calendar of package `time` and float64 are modelled in `Verif/Go` from
  knowledge of the library.  The readers among them are proved to accept exactly what small separate specifications say: JSON texts
  (`parseJson_iff`, `Spec/Json`), repaired UTF-8 (`toValid_iff`), field names up to case (`foldName_iff`, `Spec/Names`), decimal numbers (`atoi_iff`, `Spec/Decimal`), texts of times
  (`parseRFC3339_iff`, `Spec/TimeText`) and the calendar, which the specification counts day by day (`dayIs_iff`, `Spec/Calendar`).  What remains trusted is that Go's library follows
  these specifications.  Of JSON syntax only what the code uses is encoded; the parser covers the whole grammar.
* Library behaviour modelled from knowledge, not from sources in the repository: the memoryless ticker, delivery by `os/signal`, routing by `http.ServeMux`,
  the arguments of the access controller, `http.Server.Serve` (retries after temporary errors, `ErrServerClosed` after `Close`), `net/url`'s query strings, BigQuery schema inference and `bqx.RemoveRequired`, gorilla's calls of the pong handler and its handshake, `rtx.Must` and `rtx.PanicOnError`.
* C80-C82: `json.Marshal`, `json.Unmarshal` and `json.Encoder` for structures, pointers, slices, strings, integers and times, and the parsing and writing of RFC 3339 times (package `time`
  with the leniencies of `parseStrictRFC3339`, which accepts hours of one digit, a comma before fractions and zones up to 24:60) are modelled from knowledge of Go 1.25.  Case folding of field names follows
  `foldName`; the float encoder is not needed by these types.  A time whose JSON string has escapes is accepted by the model, while Go gives the raw text to `Time.UnmarshalJSON`, which refuses it.  The fields of `tcp.LinuxTCPInfo` are the parameter `Layout`.
* Transition systems assume sequential consistency.  The code has data races: `isLameDuck` (ndt-server.go), `newConn`, `newConnErr`, `closeErr`
  (singleserving), `m.ticker` (measurer), the archival data (C49).
* Scheduling is fair and the ticker ticks, in the progress theorems (C29, C50, C68, C71); they are stated as bounds on numbers of steps and absence of deadlocks.
* `path.Clean` and `path.Join` (`Go/Path`) are modelled from knowledge of Go's library (C97 says what they do).  UUIDs contain no slash (`OneServer`).  Symbolic links, durability (fsync) and deletion of
  files by others are not modelled.
* A program that `rtx.Must` ends still runs deferred functions in the ndt5 and ndt7 models (panic outcome after the event `exit`); theorems that speak about the
  files exclude such executions or treat them as the end of the process.
* The models of the ndt7 senders (`Ndt7/Sender`) leave out the clock readings for StartTime and EndTime of the archival data; the model of a whole subtest (`Ndt7/Test`) has them, and in it writing the result is one step.
* `int64` byte counts in `FillUntil` and in the download sender are unbounded (in the sender it is proved that they stay small while they are read).
* C52-C54: file names are compared as byte strings; years have four digits; C54 assumes what `OneServer` says (one data directory, one time zone,
  unique UUIDs without slashes, no UUID that starts with the mark for unidentified connections).
* C63: in `C63_loads` nil slices, stored as `null`, are not considered; `C63_written_records_load` covers them and reads `null` for a repeated column as no elements.
* C84: how `strconv` writes doubles is a parameter (`FloatsOk`), and C111 proves it for Go's format if `strconv` finds shortest digits (`ShortestDigits`); all times of a record have the server's zone `z`.  `Record.encodable`, the condition under which the model of
  `SaveData` writes, is proved to be the condition of the encoder (C84_encodable).
* C66: every single operation takes at most `δ` unless it waits for the client; ndt5 sets no deadlines on the control connection.
* C67: a write returns when its deadline has passed, the closing handshake's write has one second, the measurer ends ten seconds after its start (if its ticker is
  not yet in place when `Stop` is called, `Stop` waits for that), `recv.Done()` closes with the context, the receiver needs at most `g` for a message that
  arrived before its deadline.

## Testing the theorems

`seeded/LOG.jsonl` records the attempts to break the model: in a scratch copy one definition of the model is changed like a realistic bug, and the project is rebuilt.
Every line names the definition, the change, the claim it violates, the property theorems that fail with it (`theorems_failed`: those that fail themselves or rest, by name, on a
declaration that fails), the declarations at which the build stopped (`stopped_at`), the number of examples that failed, and the theorems tightened as a consequence.
A line with `survived` is a change that every theorem of that time accepted.
