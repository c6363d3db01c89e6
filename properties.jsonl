{"id": "C01", "title": "NDT5 message framing round-trips over a message transport", "statement": "Whatever message type and payload the server (or a conforming peer) writes with the ndt5 TLV writer, provided the payload is shorter than 65536 bytes, a peer that receives that one transport message and accepts that type reads back exactly the same type and payload.", "quantifier": "every type byte, every payload of length < 65536, every set of accepted types containing the type", "why_tests_cant": "payload lengths and contents are unbounded in practice; the high/low length byte split has to be right for every length, not for the sampled ones", "anchors": ["ndt5/protocol/protocol.go:WriteTLVMessage", "ndt5/protocol/protocol.go:ReadTLVMessage"]}
{"id": "C02", "title": "NDT5 receive accepts exactly the well-formed frames", "statement": "Receiving a message succeeds if and only if the transport delivered at least 3 bytes, the first byte is one of the accepted types and the big-endian length in bytes 2-3 equals the number of bytes that follow; on success the payload is exactly those following bytes, on failure no payload is returned and an error is.", "quantifier": "every byte string delivered by the transport, every transport error, every list of accepted types", "why_tests_cant": "the claim is an if-and-only-if over all byte strings", "anchors": ["ndt5/protocol/protocol.go:ReadTLVMessage"]}
{"id": "C03", "title": "Oversized NDT5 messages are never silently truncated", "statement": "If a payload of 65536 bytes or more is written, a receiver of that transport message reports an error; it never hands a shortened or altered payload to its caller.", "quantifier": "every payload of length >= 65536 and every type", "why_tests_cant": "wrap-around of a 16-bit length at every multiple of 65536", "anchors": ["ndt5/protocol/protocol.go:WriteTLVMessage", "ndt5/protocol/protocol.go:ReadTLVMessage"]}
{"id": "C04", "title": "Plain-TCP NDT5 messages survive TCP segmentation", "statement": "On the raw TCP port a client's sequence of well-formed messages is read back by the server as exactly that sequence, however TCP splits or coalesces the bytes in transit.", "quantifier": "every sequence of messages, every way of splitting the byte stream into segments, every buffering state", "why_tests_cant": "segmentation is chosen by the network; tests on loopback see one segmentation", "anchors": ["ndt5/protocol/protocol.go:netConnection.ReadMessage", "ndt5/plain/plain.go:sniffThenHandle"]}
{"id": "C05", "title": "JSON-encoded NDT5 messages round-trip any text", "statement": "A text sent as a JSON ndt5 message is received as the same text: for every valid UTF-8 text exactly, and for arbitrary bytes with each invalid byte replaced by U+FFFD; the message stays decodable in every case.", "quantifier": "every byte string used as message text (whose JSON form fits in one frame)", "why_tests_cant": "escaping rules (quotes, control characters, HTML characters, U+2028/9, invalid UTF-8) must compose correctly for every string", "anchors": ["ndt5/protocol/protocol.go:SendJSONMessage", "ndt5/protocol/protocol.go:ReceiveJSONMessage", "ndt5/protocol/protocol.go:JSONMessage"]}
{"id": "C06", "title": "S2C results reach the client as the numbers measured", "statement": "For both encodings the s2c result message is a TestMsg from which the throughput, the unsent byte count and the total byte count can be recovered exactly, for every triple of 64-bit integers.", "quantifier": "every triple of int64 values, both encodings", "why_tests_cant": "decimal rendering and field order must be right for all 2^192 triples", "anchors": ["ndt5/protocol/messager.go:jsonMessager.SendS2CResults", "ndt5/protocol/messager.go:tlvMessager.SendS2CResults"]}
{"id": "C07", "title": "Metric export sends every exportable field once, in order, and stops at the first failure", "statement": "Exporting a metrics structure sends exactly one TestMsg line 'prefix+path: value\\n' per integer, string or printable nested value, in declaration order, descending into nested structures with a dotted path; the first failing send ends the export with that error and nothing is sent after it; two different fields never use the same name.", "quantifier": "every (nested) structure of values, every prefix, every point at which the connection fails", "why_tests_cant": "structure shapes and failure points are unbounded", "anchors": ["ndt5/protocol/messager.go:SendMetrics"]}
{"id": "C08", "title": "The login message fixes the encoding of the whole session", "statement": "On the raw TCP port a legacy login makes every later server message TLV-encoded and an extended login makes every later server message JSON-encoded; the encoding is never still undecided after a successful login, and a login of any other type is refused.", "quantifier": "every first message a client may send", "why_tests_cant": "all type bytes and all payloads", "anchors": ["ndt5/plain/plain.go:LoginCeremony", "ndt5/protocol/messager.go:Encoding.Messager"]}
{"id": "C09", "title": "Raw-TCP login accepts exactly the specified logins", "statement": "On the raw TCP port, login succeeds with test mask T exactly when the client sends a legacy login whose payload is the single byte T, or an extended login whose JSON object has a 'tests' string that is a decimal integer T in the 64-bit range; everything else yields an error.", "quantifier": "every frame the client may send", "why_tests_cant": "if-and-only-if over all byte strings, including malformed JSON", "anchors": ["ndt5/plain/plain.go:LoginCeremony"]}
{"id": "C10", "title": "WebSocket login accepts exactly extended logins and never crashes", "statement": "On a websocket, login succeeds with mask T exactly when the client sends an extended login whose JSON object has a 'tests' string that is a decimal integer T; every other message is reported as a login error, never as an internal crash.", "quantifier": "every frame the client may send", "why_tests_cant": "if-and-only-if over all byte strings; the failing input is one particular JSON value", "anchors": ["ndt5/handler/wshandler.go:LoginCeremony", "ndt5/protocol/protocol.go:ReceiveJSONMessage"]}
{"id": "C11", "title": "Protocol sniffing never loses bytes and never misroutes a login", "statement": "A connection to the raw port is proxied to the websocket server exactly when its first three bytes are 'GET'; the proxied server then receives the client's byte stream unchanged including those three bytes; otherwise the kickoff string is written and the control channel sees the stream unchanged; no stream beginning with an acceptable raw login is ever proxied.", "quantifier": "every client byte stream and every segmentation of it", "why_tests_cant": "all streams, all segmentations of the first bytes", "anchors": ["ndt5/plain/plain.go:sniffThenHandle"]}
{"id": "C12", "title": "The control channel follows the NDT5 message script", "statement": "The messages the server sends on a control connection are always a prefix of the script: SrvQueue '0'; MsgLogin version; MsgLogin with the list of tests; then for each requested test its TestPrepare, TestStart, results and TestFinalize; then MsgResults and MsgLogout. The whole script is sent exactly when the run ends without failure, and nothing is sent after a failed send.", "quantifier": "every client behaviour: every login value, every failure or success of every send, receive, listen, accept and measurement", "why_tests_cant": "thousands of failure interleavings; every exit path has to respect the order", "anchors": ["ndt5/ndt5.go:handleControlChannel", "ndt5/c2s/c2s.go:ManageTest", "ndt5/s2c/s2c.go:ManageTest", "ndt5/meta/meta.go:ManageTest"]}
{"id": "C13", "title": "Exactly the requested tests run, in the fixed order", "statement": "For every 64-bit test mask: without the TestStatus bit nothing runs and nothing is sent; otherwise the upload, download and meta tests run exactly if bits 2, 4, 32 are set, in that order, the announced list is exactly '2', '4', '32' of those, and the middlebox and firewall bits only affect counters.", "quantifier": "every integer mask (including negative ones), every environment", "why_tests_cant": "2^64 masks", "anchors": ["ndt5/ndt5.go:handleControlChannel"]}
{"id": "C14", "title": "Every control connection is accounted for exactly once", "statement": "For every control connection, however it ends: the active-tests gauge is back to its previous value afterwards, the control counter is incremented exactly once and the duration is observed exactly once with the same protocol label, the panic counter is incremented exactly once iff the result is 'panic', and no failure propagates to the caller.", "quantifier": "every environment behaviour including panics anywhere in the session", "why_tests_cant": "has to hold on every exit path of the session", "anchors": ["ndt5/ndt5.go:HandleControlChannel", "ndt5/README.md"]}
{"id": "C15", "title": "Panic labels have bounded cardinality", "statement": "The error label exported for a failed session is always one of eleven fixed words, and it is the first space-separated word of the failure message whenever that word is a known one.", "quantifier": "every failure message", "why_tests_cant": "all strings", "anchors": ["ndt5/ndt5.go:panicMsgToErrType"]}
{"id": "C16", "title": "Every control connection leaves one archival record on disk", "statement": "Every control connection produces exactly one complete JSON record under the data directory, written before the connection is closed, including when login fails or a test fails.", "quantifier": "every environment behaviour with a working disk", "why_tests_cant": "includes record contents chosen by the client and every exit path", "anchors": ["ndt5/ndt5.go:SaveData", "ndt5/ndt5.go:handleControlChannel", "ndt5/s2c/s2c.go:ManageTest"]}
{"id": "C17", "title": "Per-test error counters agree with per-test results", "statement": "For the upload and download directions, the number of 'error-*' results counted for a session equals the number of errors counted for that direction, and the documented global equality sum(results{error}) == sum(errors) holds.", "quantifier": "every environment behaviour", "why_tests_cant": "each of the ~20 error paths must count exactly once", "anchors": ["ndt5/README.md", "ndt5/ndt5.go:handleControlChannel", "ndt5/c2s/c2s.go:ManageTest", "ndt5/s2c/s2c.go:ManageTest"]}
{"id": "C18", "title": "An 'okay' control result means a complete protocol run", "statement": "A control connection counted as 'okay' is one that was served the complete script, as the metrics documentation says.", "quantifier": "every environment behaviour", "why_tests_cant": "depends on every exit path", "anchors": ["ndt5/README.md", "ndt5/ndt5.go:HandleControlChannel"]}
{"id": "C19", "title": "Test listeners are released", "statement": "Every per-test listener opened for a client is closed again by the time the session ends, whatever the client does.", "quantifier": "every environment behaviour", "why_tests_cant": "leaks appear only on particular failure paths", "anchors": ["ndt5/c2s/c2s.go:ManageTest", "ndt5/s2c/s2c.go:ManageTest", "ndt5/singleserving/server.go"]}
{"id": "C20", "title": "Test connections are released exactly once", "statement": "Every per-test connection handed to the upload or download test is closed exactly once by that test (for uploads after a grace period), whatever happens during the test, including a crash of the test.", "quantifier": "every environment behaviour", "why_tests_cant": "every exit path", "anchors": ["ndt5/c2s/c2s.go:ManageTest", "ndt5/s2c/s2c.go:ManageTest"]}
{"id": "C21", "title": "Upload result is the measured rate and short uploads are rejected", "statement": "The upload test reports floor(8*bytes/1000/seconds) kbit/s to the client and stores the same rate in Mbit/s, where bytes and seconds are the kernel byte count and the measured duration; an upload that ended in error before 9 seconds, or with no byte received, is an error and carries the error text; one that ended in error after 9 seconds is a success.", "quantifier": "every measured byte count and duration, every environment behaviour", "why_tests_cant": "arithmetic and decision boundaries over all values", "anchors": ["ndt5/c2s/c2s.go:ManageTest"]}
{"id": "C22", "title": "The upload test never crashes on a missing measurement", "statement": "If no kernel measurement could be taken during the upload, the test reports an error instead of crashing.", "quantifier": "every schedule of the measurement, draining and control goroutines", "why_tests_cant": "depends on goroutine scheduling", "anchors": ["ndt5/c2s/c2s.go:drainForeverButMeasureFor", "ndt5/c2s/c2s.go:ManageTest", "ndt5/web100/web100_linux.go:measureUntilContextCancellation"]}
{"id": "C23", "title": "Client metadata is bounded", "statement": "Whatever the client sends in the meta test, at most 20 name/value pairs are stored, every name has at most 63 bytes and every value at most 255 bytes.", "quantifier": "every sequence of client messages of any length and content, every deadline", "why_tests_cant": "client input is unbounded", "anchors": ["ndt5/meta/meta.go:ManageTest"]}
{"id": "C24", "title": "Client metadata is stored faithfully", "statement": "A completed meta test stores, in order, exactly the messages 'name:value' received before the terminating empty message (or before the 20-message limit), split at the first colon, trimmed and truncated; messages without a colon are skipped; any receive error or deadline discards everything and reports an error.", "quantifier": "every sequence of client messages", "why_tests_cant": "refinement to a specification over unbounded sequences", "anchors": ["ndt5/meta/meta.go:ManageTest"]}
{"id": "C25", "title": "Download result fields are derived from the kernel measurement", "statement": "The download test stores min/max/sum RTT, sample count and byte-based mean throughput from the kernel measurement, sends floor(kbit/s), 0 and the acknowledged bytes to the client, stores the client's own figure when it is a number, and an unparseable client figure is never fatal.", "quantifier": "every measurement, every client reply", "why_tests_cant": "arithmetic and branch coverage over all values", "anchors": ["ndt5/s2c/s2c.go:ManageTest"]}
{"id": "C26", "title": "Failed tests carry their error in the record", "statement": "Whenever the upload or download test returns an error, the returned record is present and its Error field is that error's text; whenever it returns no error the Error field is empty.", "quantifier": "every environment behaviour", "why_tests_cant": "every exit path", "anchors": ["ndt5/c2s/c2s.go:ManageTest", "ndt5/s2c/s2c.go:ManageTest"]}
{"id": "C27", "title": "RTT summary is correct", "statement": "The summary of RTT samples reports the number of samples, the sum, the maximum and the minimum RTT (in whole milliseconds) of the samples taken, and the last sample's kernel counters.", "quantifier": "every non-empty sequence of samples", "why_tests_cant": "unbounded sequences, 32-bit wrap-around, zero samples", "anchors": ["ndt5/web100/web100_linux.go:summarize"]}
{"id": "C28", "title": "Polling takes a final measurement after the test ends", "statement": "Measurement by polling keeps exactly the successful samples in order and takes one last measurement after the measurement is stopped.", "quantifier": "every sequence of tick, success, failure and cancellation", "why_tests_cant": "schedule dependent", "anchors": ["ndt5/web100/web100_linux.go:measureUntilContextCancellation"]}
{"id": "C29", "title": "Stopping a measurement is always safe", "statement": "Stopping a measurement never blocks forever: before any start it returns an error at once, after a start it returns the summary of that start if there was a sample and an error otherwise, and stopping again returns an error.", "quantifier": "every sequence of start and stop calls and every schedule of the polling goroutine", "why_tests_cant": "schedules and call sequences are unbounded", "anchors": ["ndt5/protocol/protocol.go:measurer", "ndt5/web100/web100_linux.go:MeasureViaPolling"]}
{"id": "C30", "title": "A single-serving server returns a connection or an error, never neither", "statement": "Accepting the single test connection returns either a usable connection or an error, under every timing of client connections, failed handshakes, timeouts and shutdown.", "quantifier": "every schedule", "why_tests_cant": "races between accept, timeout and close", "anchors": ["ndt5/singleserving/server.go:ServeOnce"]}
{"id": "C31", "title": "A single-serving websocket server is stopped exactly once", "statement": "However often and from wherever a websocket single-serving server is closed, its listener is closed once and its stop is counted once; after ServeOnce returns it has been closed.", "quantifier": "every schedule of closes", "why_tests_cant": "concurrent closes", "anchors": ["ndt5/singleserving/server.go:wsServer.Close", "ndt5/singleserving/server.go:wsServer.ServeOnce"]}
{"id": "C32", "title": "A single-serving server hands out at most one client and loses none", "statement": "Every client connection that completed the test handshake is the one returned by ServeOnce; no completed connection is dropped or left open unreturned, and a returned connection comes without an error.", "quantifier": "every schedule of clients", "why_tests_cant": "races between several clients and shutdown", "anchors": ["ndt5/singleserving/server.go:wsServer.ServeHTTP", "ndt5/singleserving/server.go:ServeOnce"]}
{"id": "C33", "title": "The open-connection gauge equals the number of open connections", "statement": "At every moment the open-connections gauge equals the number of connections accepted and not yet closed, never negative, however often each connection is closed, and failed accepts leave nothing open.", "quantifier": "every sequence of accepts (successful or failing) and closes, including repeated closes", "why_tests_cant": "unbounded histories", "anchors": ["netx/net.go:Listener.Accept", "netx/net.go:Conn.Close"]}
{"id": "C34", "title": "Kernel statistics degrade gracefully", "statement": "Reading connection statistics succeeds exactly when TCP_INFO can be read; it then returns those TCP counters and the BBR counters, or zero BBR counters if BBR is unavailable; on failure all returned counters are zero.", "quantifier": "every outcome of the two kernel queries", "why_tests_cant": "all combinations and values", "anchors": ["netx/net.go:Conn.ReadInfo"]}
{"id": "C35", "title": "A connection always has a UUID", "statement": "Asking an accepted connection for its UUID always yields a non-empty identifier and never an error, even when the kernel cookie is unavailable; with the cookie available the answer never changes.", "quantifier": "every outcome of the kernel query, every number of calls", "why_tests_cant": "environment dependent", "anchors": ["netx/net.go:Conn.GetUUID", "netx/net.go:ToConnInfo"]}
{"id": "C36", "title": "BBR bandwidth is decoded without loss or sign errors", "statement": "The bandwidth reported for a BBR connection equals hi*2^32+lo of the kernel's two words and is never negative; values that do not fit are reported as an error.", "quantifier": "every pair of 32-bit words, every returned size and errno", "why_tests_cant": "2^64 values", "anchors": ["bbr/bbr_linux.go:getMaxBandwidthAndMinRTT"]}
{"id": "C37", "title": "Only the documented early-exit values are accepted", "statement": "A request is accepted with early exit at 250,000,000 bytes exactly when its early_exit parameter is '250', accepted without early exit exactly when the parameter is absent, and otherwise refused with status 400 before any upgrade; other parameters never matter, nor does map order.", "quantifier": "every query-parameter map and every enumeration order of it", "why_tests_cant": "all maps and all iteration orders", "anchors": ["ndt7/handler/handler.go:validateEarlyExit", "ndt7/handler/handler.go:runMeasurement"]}
{"id": "C38", "title": "Client metadata is exactly the client-supplied parameters", "statement": "The stored client metadata has exactly one entry per query parameter whose name does not start with 'server_', holding its first value; parameters starting with 'server_' are never stored; the outcome does not depend on map order except for the order of entries.", "quantifier": "every query-parameter map and iteration order", "why_tests_cant": "all maps", "anchors": ["ndt7/handler/handler.go:appendClientMetadata"]}
{"id": "C39", "title": "ndt7 requests without the subprotocol are refused", "statement": "A request whose subprotocol header is not exactly 'net.measurementlab.ndt.v7' gets status 400, is counted as a websocket error and leaves no result; a request is counted in exactly one of websocket-error, uuid-error, result, unless its parameters were refused.", "quantifier": "every request and environment", "why_tests_cant": "all header values and outcomes", "anchors": ["ndt7/handler/handler.go:setupConn", "ndt7/handler/handler.go:runMeasurement"]}
{"id": "C40", "title": "Every accepted ndt7 test produces exactly one result file and matched flow events", "statement": "For every request counted as 'result', exactly one result file is written, holding the archival data under the requested direction only, flow-created and flow-deleted are each reported once in this order with the same UUID, also when the subtest crashes; for all other requests none of these happen.", "quantifier": "every request, every subtest outcome including a crash", "why_tests_cant": "every exit path", "anchors": ["ndt7/handler/handler.go:runMeasurement", "ndt7/handler/handler.go:writeResult"]}
{"id": "C41", "title": "Every ndt7 result is counted", "statement": "As documented, every request with status 'result' is counted once in the test-results counter and results labelled with a rate are also in the rate histogram. Both are labelled with the protocol of the server's address, and rates in addition with whether the client is a monitoring client.", "quantifier": "every request and subtest outcome", "why_tests_cant": "every exit path and rate value", "anchors": ["ndt7/metrics/README.md", "ndt7/handler/handler.go:runMeasurement", "metrics/metrics.go:GetResultLabel"]}
{"id": "C42", "title": "Bulk message sizes stay within the specification", "statement": "Every binary message of a download has a power-of-two size between 2^13 and 2^20 bytes, the first one has 2^13, sizes never shrink, and a size is only doubled once at least 16 times the current size has been sent.", "quantifier": "every interleaving of measurements and bulk messages, of any length", "why_tests_cant": "unbounded runs", "anchors": ["ndt7/download/sender/sender.go:Start", "spec/ndt7-protocol.md"]}
{"id": "C43", "title": "The result file holds exactly the measurements sent to the client", "statement": "For downloads and uploads the server measurements in the archival record are exactly those successfully written to the client, in order, on every exit path.", "quantifier": "every interleaving and failure point", "why_tests_cant": "unbounded runs and failure points", "anchors": ["ndt7/download/sender/sender.go:Start", "ndt7/upload/sender/sender.go:Start"]}
{"id": "C44", "title": "Early exit happens at the first measurement that reaches the limit", "statement": "With early exit requested, the download ends successfully right after the first sent measurement whose acknowledged bytes reach the limit, and never because of a smaller count; without it acknowledged bytes never end the test.", "quantifier": "every sequence of measurements and failures", "why_tests_cant": "unbounded sequences and boundary values", "anchors": ["ndt7/download/sender/sender.go:Start"]}
{"id": "C45", "title": "Each sender run counts exactly one exit reason and closes iff successful", "statement": "Each download or upload sender run increments the sender exit counter exactly once, with its own direction; it starts the websocket closing handshake exactly when it returns success, and nothing is sent after that.", "quantifier": "every interleaving and failure point", "why_tests_cant": "each exit path", "anchors": ["ndt7/download/sender/sender.go:Start", "ndt7/upload/sender/sender.go:Start", "ndt7/metrics/README.md"]}
{"id": "C46", "title": "Uploads never carry server bulk data", "statement": "During an upload the server sends only measurement text messages, pings and the close message, never a binary message; each ping follows its own measurement so pings are never more frequent than measurements, in either direction.", "quantifier": "every run", "why_tests_cant": "unbounded runs", "anchors": ["ndt7/upload/sender/sender.go:Start", "ndt7/download/sender/sender.go:Start", "spec/ndt7-protocol.md"]}
{"id": "C47", "title": "Client measurements are recorded in order up to the first invalid message", "statement": "The client measurements recorded are exactly the parsed text messages received before the receiver stopped, in order; an upload skips binary messages, a download stops at the first one; an unparsable text message stops the receiver without being recorded.", "quantifier": "every sequence of client messages and errors", "why_tests_cant": "unbounded sequences", "anchors": ["ndt7/receiver/receiver.go:start"]}
{"id": "C48", "title": "Each receiver run counts exactly one exit reason", "statement": "As documented, the receiver counter grows by exactly one per result.", "quantifier": "every sequence of client frames, including pongs", "why_tests_cant": "unbounded sequences", "anchors": ["ndt7/receiver/receiver.go:start", "ndt7/metrics/README.md"]}
{"id": "C49", "title": "The archival data is not modified after the subtest returned", "statement": "Once a download or upload subtest has returned, the receiver no longer modifies the archival data, so the file written holds a consistent snapshot.", "quantifier": "every schedule of sender, receiver, context timeout and handler", "why_tests_cant": "goroutine interleavings", "anchors": ["ndt7/download/download.go:Do", "ndt7/upload/upload.go:Do", "ndt7/receiver/receiver.go"]}
{"id": "C50", "title": "Stopping the measurer never deadlocks and always ends its goroutine", "statement": "Whenever the sender stops the measurer, in whatever state the measurer goroutine and its ticker are, both finish: every reachable non-final state can make progress, no measurement is delivered twice or out of order, and the channel is closed exactly once.", "quantifier": "every schedule of sender, measurer and ticker goroutines", "why_tests_cant": "goroutine interleavings", "anchors": ["ndt7/measurer/measurer.go:loop", "ndt7/measurer/measurer.go:Stop"]}
{"id": "C51", "title": "Elapsed times in measurements are correct and monotone", "statement": "Each measurement's elapsed time is the whole number of microseconds since the start of the test, the same for the TCP and BBR part, and non-decreasing over successive measurements; every measurement identifies the connection; statistics are present exactly when they could be read.", "quantifier": "every non-decreasing sequence of tick times and read outcomes", "why_tests_cant": "unbounded sequences", "anchors": ["ndt7/measurer/measurer.go:measure", "ndt7/measurer/measurer.go:loop"]}
{"id": "C52", "title": "Distinct ndt7 results go to distinct files and never overwrite", "statement": "Result file names determine direction, timestamp, UUID and compression; creating a result file never changes an existing file; two results that differ in any of these never share a file.", "quantifier": "every pair of results and every file system state", "why_tests_cant": "injectivity over all strings and timestamps", "anchors": ["ndt7/results/file.go:newFile", "spec/data-format.md"]}
{"id": "C53", "title": "A result file is complete once the test is reported finished", "statement": "When writing a result reports success, the file holds the whole JSON document; at every crash point before that the file holds only a prefix of it, and no other file is affected.", "quantifier": "every crash point and every write outcome, with and without compression", "why_tests_cant": "crash points", "anchors": ["ndt7/results/file.go:WriteResult", "ndt7/results/file.go:Close", "ndt7/handler/handler.go:writeResult"]}
{"id": "C54", "title": "NDT5 results with different UUIDs go to different files", "statement": "ndt5 records are stored under the start date and named after the UUID; records with different UUIDs on the same day never share a file, and unidentified connections get a fresh file each.", "quantifier": "every pair of records, every file system state", "why_tests_cant": "all strings", "anchors": ["ndt5/protocol/protocol.go:UUIDToFile", "ndt5/ndt5.go:SaveData"]}
{"id": "C55", "title": "Result labels are exact", "statement": "The result label is 'okay' or 'error' exactly by presence of an error, and '-with-rate' or '-without-rate' exactly by whether the rate is non-zero; the connection label depends only on the local port suffix.", "quantifier": "every error and rate, every address", "why_tests_cant": "all values", "anchors": ["metrics/metrics.go:GetResultLabel", "ndt7/metrics/metrics.go:ConnLabel", "ndt5/ndt/server.go:Label"]}
{"id": "C56", "title": "Ping payloads round-trip", "statement": "A pong carrying the payload of an earlier ping is always parsed, and the reported round-trip time is the time since that ping was sent, for every 64-bit timestamp; a payload that is not a 64-bit integer is an error.", "quantifier": "every int64 timestamp and every payload", "why_tests_cant": "2^64 values, all strings", "anchors": ["ndt7/ping/ping.go:SendTicks", "ndt7/ping/ping.go:ParseTicks"]}
{"id": "C57", "title": "ndt7 rates are those of the last measurement", "statement": "The rate of a finished download (upload) is 8*BytesAcked (8*BytesReceived) divided by the elapsed microseconds of the last server measurement, i.e. Mbit/s, and zero if there is none or it has no TCP statistics.", "quantifier": "every list of measurements", "why_tests_cant": "all lists and values", "anchors": ["ndt7/handler/handler.go:upRate", "ndt7/handler/handler.go:downRate"]}
{"id": "C58", "title": "Lame duck is sticky and reflected by health checks", "statement": "The health endpoint answers 200 exactly while the server is not in lame duck; after the first handled SIGTERM (or cancellation) it answers 500 until exit; the lame-duck metric agrees.", "quantifier": "every sequence of signals, cancellations and health requests", "why_tests_cant": "unbounded histories and schedules", "anchors": ["ndt-server.go:catchSigterm", "ndt-server.go:handleHealth", "ndt-server.go:setLameDuck"]}
{"id": "C59", "title": "One SIGTERM never stops the server, a second handled one does", "statement": "The server context is cancelled by signals only once two separate SIGTERMs have been handled, never by one alone.", "quantifier": "every sequence of signals and schedules", "why_tests_cant": "signal coalescing and schedules", "anchors": ["ndt-server.go:catchSigterm"]}
{"id": "C60", "title": "Deployment labels become server metadata", "statement": "The server metadata has exactly one entry per label with its value, and the version gains the canary suffix exactly once iff the label deployment=canary is present, independently of map order.", "quantifier": "every label map and iteration order", "why_tests_cant": "all maps", "anchors": ["ndt-server.go:parseDeploymentLabels"]}
{"id": "C61", "title": "Services and access control follow the flags", "statement": "The cleartext services and the health service always start; ndt5 WSS starts exactly with a certificate and key; ndt7 over TLS starts exactly with certificate and key or with autocert and a hostname; every route to an ndt7 test passes the ndt7 access controller and the ndt5 WSS route passes the ndt5 one; the ndt5 cleartext websocket is not access controlled.", "quantifier": "every flag combination and request path", "why_tests_cant": "all combinations", "anchors": ["ndt-server.go:main"]}
{"id": "C62", "title": "Every HTTP server has read and write timeouts and the requested TLS floor", "statement": "Every HTTP server created has one-minute read and write timeouts, HTTP/2 disabled, minimum TLS version 1.3/1.2 exactly when requested, and announces the ACME protocol exactly with autocert.", "quantifier": "every flag value and address", "why_tests_cant": "all strings", "anchors": ["ndt-server.go:httpServer"]}
{"id": "C63", "title": "The generated ndt5 schema describes ndt5 results", "statement": "The schema generator writes, for ndt5 and ndt7 respectively, a schema with the fields of the ndt5 and ndt7 result structures.", "quantifier": "the two generated documents", "why_tests_cant": "never executed by the unit tests; relates two generated artefacts to two type definitions", "anchors": ["cmd/generate-schemas/main.go:main", "data/result.go"]}
{"id": "C64", "title": "Protocol constants and names are unambiguous", "statement": "Distinct message types have distinct non-empty names, and distinct supported encodings have distinct names.", "quantifier": "all 256 type bytes, all integer encodings", "why_tests_cant": "exhaustive domain plus fallback formatting", "anchors": ["ndt5/protocol/protocol.go:MessageType.String", "ndt5/protocol/messager.go:Encoding.String"]}
{"id": "C65", "title": "Bulk write accounting is exact", "statement": "The byte count reported by the download filler is exactly the number of bytes successfully written, it stops at the deadline or the first failure, and the bytes written are the repeated printable pattern.", "quantifier": "every buffer, every sequence of write outcomes and clock readings", "why_tests_cant": "unbounded runs", "anchors": ["ndt5/protocol/protocol.go:FillUntil", "ndt5/s2c/s2c.go:ManageTest"]}
{"id": "C66", "title": "An ndt5 session ends within its stated time bound", "statement": "A control session ends within its 45-second budget whatever the client does.", "quantifier": "every client timing", "why_tests_cant": "unbounded waits are only visible with an adversarial client", "anchors": ["ndt5/ndt5.go:handleControlChannel", "ndt5/meta/meta.go:ManageTest", "ndt5/s2c/s2c.go:ManageTest"]}
{"id": "C67", "title": "An ndt7 subtest ends within its maximum runtime", "statement": "A subtest returns no later than the maximum runtime plus the bounded grace of single operations, whatever the client does, since the sender's writes and the receiver's reads carry deadlines and the connection is closed at the maximum runtime.", "quantifier": "every client timing and every sequence of blocking operations", "why_tests_cant": "unbounded waits are only visible with an adversarial client", "anchors": ["ndt7/handler/handler.go:runMeasurement", "ndt7/download/sender/sender.go:Start", "ndt7/receiver/receiver.go:start", "ndt7/spec/spec.go"]}
{"id": "C68", "title": "Forwarded connections are released", "statement": "When a proxied websocket connection ends for whatever reason - either side closes, timeout, shutdown - the upstream connection and the client connection are both closed and both copy loops end.", "quantifier": "every schedule of closes, errors and cancellation", "why_tests_cant": "goroutine interleavings", "anchors": ["ndt5/plain/plain.go:sniffThenHandle"]}
{"id": "C69", "title": "One misbehaving raw client never stops the accept loop", "statement": "On the raw port, accept failures and crashes of individual connections never end the accept loop; it ends only after shutdown, and each accepted connection is handled and closed exactly once.", "quantifier": "every sequence of accept outcomes, crashes and shutdown", "why_tests_cant": "unbounded histories", "anchors": ["ndt5/plain/plain.go:ListenAndServe"]}
{"id": "C70", "title": "Receiver metrics carry the direction names", "statement": "The direction label of the receiver error counter is 'download' or 'upload' according to the subtest, as documented for the sender counter.", "quantifier": "every receiver run", "why_tests_cant": "labels are produced by formatting a private integer type; unit tests do not look at label values on every exit path", "anchors": ["ndt7/receiver/receiver.go:start", "ndt7/metrics/README.md"]}
{"id": "C71", "title": "Stopping the measurer takes effect at once", "statement": "After the sender has called Stop, measurer and ticker end after a bounded number of steps without waiting for the measurer's ten-second timeout.", "quantifier": "every schedule of sender, measurer and ticker goroutines", "why_tests_cant": "depends on whether the measurer goroutine has already stored its ticker", "anchors": ["ndt7/measurer/measurer.go:Stop", "ndt7/measurer/measurer.go:loop"]}
{"id": "C72", "title": "Signals during shutdown never crash the process", "statement": "Whatever signals arrive and however goroutines are scheduled, shutting down never makes the process panic.", "quantifier": "every sequence of signals and schedules", "why_tests_cant": "needs a signal to arrive between the closing of the channel by the signal handler and the end of main", "anchors": ["ndt-server.go:catchSigterm", "ndt-server.go:main"]}
{"id": "C73", "title": "One SIGTERM never ends the server", "statement": "From the start of the process a single SIGTERM puts the server into lame duck and never ends it.", "quantifier": "every moment of arrival and schedule", "why_tests_cant": "needs a signal to arrive before the handler goroutine has registered for signals", "anchors": ["ndt-server.go:catchSigterm", "ndt-server.go:main"]}
{"id": "C74", "title": "A raw single-serving server is stopped exactly once", "statement": "When ServeOnce of a raw (non-websocket) test server returns, whatever the outcome, its listener has been closed exactly once and its stop has been counted exactly once; at no moment has either happened twice.", "quantifier": "every schedule of the accepting goroutine, the caller and the timeout", "why_tests_cant": "a test sees one outcome of the race between accepted client, accept error and timeout", "anchors": ["ndt5/singleserving/server.go:plainServer.ServeOnce", "ndt5/singleserving/server.go:plainServer.Close"]}
{"id": "C75", "title": "A test client that arrives ends the wait", "statement": "Once a client has been accepted (raw) or has completed the websocket handshake (ws, wss), ServeOnce returns after a bounded number of steps of the server's goroutines; no timeout is needed.", "quantifier": "every schedule, number of clients and prior history", "why_tests_cant": "a lost wake-up shows only under particular interleavings and looks like a slow client", "anchors": ["ndt5/singleserving/server.go:wsServer.ServeOnce", "ndt5/singleserving/server.go:plainServer.ServeOnce"]}
{"id": "C76", "title": "Shutdown ends the raw port", "statement": "Once the server is shut down, the accept loop of the raw port ends after a bounded number of its own steps; at most one more client is accepted, none after the listener is closed.", "quantifier": "every schedule and history of clients", "why_tests_cant": "depends on where the loop stands when the shutdown comes", "anchors": ["ndt5/plain/plain.go:ListenAndServe"]}
{"id": "C77", "title": "Forwarding of websocket clients is transparent", "statement": "What upstream (client) receives through the raw port's forwarding is at every moment a beginning of what the client (upstream) sent, in order and without gaps or repetition, and all of what was read unless a write fails.", "quantifier": "every stream of data in both directions, every schedule, timeout and shutdown", "why_tests_cant": "unbounded data and goroutine interleavings", "anchors": ["ndt5/plain/plain.go:sniffThenHandle"]}
{"id": "C78", "title": "Test clients handed out are counted", "statement": "Every client that a single-serving server hands out is counted once as accepted; nothing else is.", "quantifier": "every schedule of clients, handshakes and timeouts", "why_tests_cant": "counters are not part of the results of a test, and the schedules are unbounded", "anchors": ["ndt5/singleserving/server.go:ServeOnce", "ndt5/metrics/metrics.go:MeasurementServerAccept"]}
{"id": "C79", "title": "Clients cannot create metric labels", "statement": "Every counter update made for an ndt5 control connection carries only labels from fixed, finite lists (protocol of the server, test names, error places, four results, eleven panic words, suites built from five test names), so that no input can add a time series or make a counter reject a label.", "quantifier": "every server kind, every client input, every answer or crash of the environment", "why_tests_cant": "labels are derived from panic messages, errors and client bits; the claim is about all of them", "anchors": ["ndt5/ndt5.go:HandleControlChannel", "ndt5/ndt5.go:panicMsgToErrType", "ndt5/ndt5.go:handleControlChannel", "ndt5/c2s/c2s.go:ManageTest", "ndt5/s2c/s2c.go:ManageTest", "ndt5/meta/meta.go:ManageTest", "ndt5/metrics/metrics.go", "metrics/metrics.go:GetResultLabel"]}
{"id": "C80", "title": "Measurement messages and records read back", "statement": "Every measurement message that an ndt7 server sends, and every ndt7 record it writes, is a JSON text that the same types read back as the same value: numbers, times with their zone, absent parts and lists unchanged, strings unchanged if they are UTF-8 and otherwise with U+FFFD for the bad bytes.", "quantifier": "every measurement and every record whose fields fit the Go types and whose times have a four-digit year and a zone within 24 hours", "why_tests_cant": "the value ranges over all strings, integers, times and presence patterns", "anchors": ["ndt7/model/measurement.go:Measurement", "ndt7/model/connectioninfo.go:ConnectionInfo", "ndt7/model/appinfo.go:AppInfo", "ndt7/model/bbrinfo.go:BBRInfo", "ndt7/model/tcpinfo.go:TCPInfo", "ndt7/model/archivaldata.go:ArchivalData", "data/result.go:NDT7Result", "ndt7/download/sender/sender.go:Start"]}
{"id": "C81", "title": "Which client measurements are accepted", "statement": "A text message of an ndt7 client is recorded exactly if it is one JSON value that fits the type of a measurement: names are matched without regard to case, unknown names are skipped, null leaves a part as it was, integers must be in range and written without fraction or exponent, times must parse. What is recorded fits the types, and every message that a server sends would be recorded if a client sent it.", "quantifier": "every byte string", "why_tests_cant": "it is a claim about all byte strings, accepted and rejected", "anchors": ["ndt7/receiver/receiver.go:start", "ndt7/model/measurement.go:Measurement"]}
{"id": "C82", "title": "A client message cannot end the server", "statement": "No message that a client sends during an ndt7 test ends the server process: whatever is accepted as a measurement can be written to the record.", "quantifier": "every request, every message of the client, every execution of the handler with a working disk", "why_tests_cant": "it needs the exact set of accepted messages and the exact set of records that can be written", "anchors": ["ndt7/handler/handler.go:runMeasurement", "ndt7/receiver/receiver.go:start", "ndt7/results/file.go:WriteResult", "ndt7/model/connectioninfo.go:ConnectionInfo"]}
{"id": "C83", "title": "An ndt7 subtest does not hang on its receiver", "statement": "When the sender of an ndt7 subtest has returned, the subtest returns as soon as its receiver has ended; a receiver that has not ended can always go on; and once the test's time is over the receiver ends within a fixed number of its own steps, whatever the client sends.", "quantifier": "every interleaving of sender, receiver and timers and every sequence of client messages", "why_tests_cant": "a lost wake-up shows only under particular interleavings", "anchors": ["ndt7/download/download.go:Do", "ndt7/upload/upload.go:Do", "ndt7/receiver/receiver.go:start", "ndt7/receiver/receiver.go:StartDownloadReceiverAsync", "ndt7/receiver/receiver.go:StartUploadReceiverAsync"]}
{"id": "C84", "title": "ndt5 records read back", "statement": "Every ndt5 record that the server writes is a JSON text that the same types read back as the same record, with U+FFFD for bytes of strings that are not UTF-8; a record can be written exactly if its rates are finite numbers; and a table whose schema is inferred from the ndt5 structure takes every record written.", "quantifier": "every ndt5 record whose fields fit the Go types and whose times have a four-digit year", "why_tests_cant": "the value ranges over all strings, numbers, times and presence patterns", "anchors": ["data/result.go:NDT5Result", "ndt5/control/data.go:ArchivalData", "ndt5/c2s/c2s.go:ArchivalData", "ndt5/s2c/s2c.go:ArchivalData", "ndt5/ndt5.go:SaveData"]}
{"id": "C85", "title": "Which frames are control messages", "statement": "For every frame a client sends, the server receives a message of the wanted type exactly if the frame has that type, its length field matches and, with JSON encoding, its payload is one JSON object in which msg and tests (up to case) are strings or null; the contents are the last string given for msg, or empty. Whenever no message is received an error is reported.", "quantifier": "every byte string delivered as a frame, every message type, both encodings", "why_tests_cant": "it is a claim about all byte strings, accepted and rejected; duplicate keys, names in other case, escapes and nesting combine freely", "anchors": ["ndt5/protocol/protocol.go:ReceiveJSONMessage", "ndt5/protocol/protocol.go:ReadTLVMessage", "ndt5/protocol/messager.go:ReceiveMessage"]}
{"id": "C86", "title": "What the client of an ndt5 session reads", "statement": "On every connection whose login is served, the frames the client reads are, in order, a beginning of: SrvQueue (type 1) with 0; MsgLogin (2) with the version; MsgLogin (2) with the tests; for an upload TestPrepare (3) with the port, TestStart (4), TestMsg (5) with the rate in decimal, TestFinalize (6); for a download TestPrepare, TestStart, TestMsg with rate, zero and acknowledged bytes, one TestMsg 'name: value' for every variable of web100, every field of the kernel's TCP information and every field of the record, TestFinalize; for a meta test TestPrepare, TestStart, TestFinalize; MsgResults (8) with the closing text and MsgLogout (9). It is all of them if the connection is counted as okay.", "quantifier": "every connection kind, encoding, requested set of tests and behaviour of the client and the network", "why_tests_cant": "it ranges over every point at which a connection can break and every combination of tests and results; tests cover a few complete sessions", "anchors": ["ndt5/ndt5.go:HandleControlChannel", "ndt5/protocol/protocol.go:MessageType", "ndt5/protocol/messager.go", "ndt5/c2s/c2s.go:ManageTest", "ndt5/s2c/s2c.go:ManageTest", "ndt5/meta/meta.go:ManageTest"]}
{"id": "C87", "title": "The query string of an ndt7 request", "statement": "For every query string: the record of the test holds, for every URL-encoded parameter whose name does not start with server_, its decoded name and first value, and nothing else; early_exit is taken from it in the same way. Whatever names and values a client encodes arrive unchanged. The upgrade fails if the query string is malformed or longer than 4096 bytes, as the protocol demands.", "quantifier": "every byte string as query string, every order in which Go enumerates the map, every course of the request", "why_tests_cant": "escapes, repeated names, empty pieces, missing values and malformed pieces combine freely, and Go's map order is random", "anchors": ["ndt7/handler/handler.go:runMeasurement", "ndt7/handler/handler.go:appendClientMetadata", "ndt7/handler/handler.go:validateEarlyExit", "spec/ndt7-protocol.md"]}
{"id": "C88", "title": "The JSON documents of the server", "statement": "Every measurement message that the server sends, every ndt7 result and every ndt5 record that it writes is exactly one JSON document, an object with exactly the documented members under the documented names, and every member holds the value of that name: strings with bytes that are not UTF-8 replaced by U+FFFD, integers in decimal, times in RFC 3339, rates as numbers that read back; optional members are there exactly if there is something to tell.", "quantifier": "every measurement, result and record that fits its Go types and can be written", "why_tests_cant": "the contents of strings, numbers, times and lists are unbounded, and every combination of present and absent parts gives another document", "anchors": ["ndt7/model/archivaldata.go:Measurement", "ndt7/model/archivaldata.go:ArchivalData", "data/result.go:NDT7Result", "data/result.go:NDT5Result", "ndt5/control/data.go:ArchivalData", "ndt5/c2s/c2s.go:ArchivalData", "ndt5/s2c/s2c.go:ArchivalData", "spec/data-format.md", "spec/ndt7-protocol.md"]}
{"id": "C89", "title": "What a measurement message from a client means", "statement": "A text message that is a JSON object is recorded as the measurement it describes: AppInfo, ConnectionInfo, BBRInfo and TCPInfo are found under their names in any order and in any case, their members likewise; integers, strings and times are taken from the members; what is missing or null is absent, zero or empty; unknown members are ignored.", "quantifier": "every JSON text of an object in which no known name occurs twice, with any order of members, white space, escapes, unknown members, and every measurement that fits its types", "why_tests_cant": "clients in other languages write members in any order, with other members and escapes; the combinations are unbounded", "anchors": ["ndt7/receiver/receiver.go:start", "ndt7/model/archivaldata.go:Measurement", "spec/ndt7-protocol.md"]}
{"id": "C90", "title": "Result files hold the whole test, as one JSON document", "statement": "From the connection to the bytes on disk: the file of an ndt7 test that is counted as a result holds, compressed if so configured, one JSON document with the documented members, whose values are the UUID, times and metadata of the request and exactly the measurements taken by the server and received from the client. The file of an ndt5 session holds one JSON document whose values tell what happened in the session; if a rate in it is not a number the encoder refuses it and there is no file.", "quantifier": "all requests side by side, all schedules of their file operations, all client messages and answers of the environment, all initial file systems; ndt5: all sessions with a UUID whose file operations work", "why_tests_cant": "a test looks at single runs; that what a session did is what is found in its file must hold for all clients and interleavings", "anchors": ["ndt7/handler/handler.go:runMeasurement", "ndt7/results/file.go:WriteResult", "ndt5/ndt5.go:SaveData", "ndt5/ndt5.go:HandleControlChannel", "data/result.go"]}
{"id": "C91", "title": "What an ndt7 result says is what happened during the subtest", "statement": "However the goroutines of a subtest (sender, receiver, measurer, ticker) are scheduled, what the result holds is what happened: its server measurements are those the client was sent, each from one tick of the measurer, with elapsed times that do not decrease and lie between the start of the measurer and the end of the subtest; its client measurements are the acceptable messages that arrived, of which the very latest can be missing only if the time was up; its StartTime and EndTime are the times at which the transfer began and ended, in this order. The measurer has ended when the subtest returns. Once the time is up a subtest cannot hang and ends after a bounded number of steps besides bulk messages. With the way to the disk (C90) this holds for the bytes of the file.", "quantifier": "all schedules of the goroutines of a download or an upload, all messages of the client, all outcomes of the calls to the connection and the kernel, all readings of a clock that does not run backwards", "why_tests_cant": "the interleavings of four goroutines and the time at which contexts end cannot be enumerated by runs", "anchors": ["ndt7/download/download.go:Do", "ndt7/upload/upload.go:Do", "ndt7/download/sender/sender.go:Start", "ndt7/upload/sender/sender.go:Start", "ndt7/receiver/receiver.go:start", "ndt7/measurer/measurer.go:loop", "ndt7/handler/handler.go:runMeasurement"]}
{"id": "C92", "title": "Times in a result are in order", "statement": "If the server's clock does not run backwards during a session, the times in its result are in the order in which things happened. ndt5: the record starts before it ends; an upload or download that was measured starts and ends in between, the upload before the download; a test that was not measured has no times; the reported duration of the session covers the time between start and end. ndt7: the record starts before it ends; a transfer that began starts and ends in between, one that did not begin has no times and no server measurements; the connection start that the server's measurements carry lies in between too.", "quantifier": "for all sessions, all clients, all outcomes of every call into the environment and (ndt7) all schedules of the goroutines of the subtest, under every clock that does not run backwards", "why_tests_cant": "a test sees one run; that no path (error, crash, early end, other schedule) leaves times out of order needs all of them", "anchors": ["ndt5/ndt5.go: HandleControlChannel", "ndt5/c2s/c2s.go: ManageTest", "ndt5/s2c/s2c.go: ManageTest", "ndt7/handler/handler.go: runMeasurement", "ndt7/download/sender/sender.go: Start", "ndt7/upload/sender/sender.go: Start", "ndt7/measurer/measurer.go: loop"]}
{"id": "C93", "title": "An ndt5 client that keeps to the protocol gets its whole session", "statement": "If a client logs in with a request the server serves, then sends only well-formed TestMsg messages, does not break off its upload before nine seconds or without a byte, and no call into the network, the kernel or the rest of the machine fails, then the session succeeds: the server sends the whole script of the requested tests, the session is counted as okay, every requested throughput test is counted with exactly one result and no error, and, if the disk works and the rates are numbers, a record is written that has a result for exactly the requested tests, with no error, together with the metadata the client sent.", "quantifier": "every control connection in which nothing goes wrong: all requested tests, all contents and lengths of the client's messages, both encodings, all times and measurements", "why_tests_cant": "a run shows one client against one request; that no well-behaved client is ever turned away or recorded as failed is a statement about all contents, durations and combinations of requested tests", "anchors": ["ndt5/ndt5.go: HandleControlChannel, handleControlChannel", "ndt5/c2s/c2s.go: ManageTest", "ndt5/s2c/s2c.go: ManageTest", "ndt5/meta/meta.go: ManageTest"]}
{"id": "C94", "title": "A server that answers health checks serves", "statement": "As soon as a health check can be answered, and until the context of the program ends, every service that the flags ask for is listening and its goroutine is not blocked: no client that connects to one of them is refused, clients wait in the order in which they connect and are accepted one by one, whatever happens at the other services. Running out of file descriptors and failing connections do not end the process: it ends when main returns after the end of the context, when a call during start-up fails, when accepting fails for good at an HTTP service that is open, or when a TLS service has no certificate. The address that a server shows after it was started is where it listens if its port was left open and it is without TLS, and the configured one otherwise.", "quantifier": "all flags, all answers of the system during start-up, all arrivals of clients and failures of accept, all interleavings of main with the goroutines of the services", "why_tests_cant": "which service is up when another one already answers, and whether a failure at one service takes the others down, depends on the schedule and on failures that a test cannot enumerate", "anchors": ["ndt-server.go: main", "ndt7/listener/listener.go: ListenAndServeAsync, ListenAndServeTLSAsync, serve, serveTLS", "ndt5/plain/plain.go: ListenAndServe", "netx/net.go: Listener.Accept"]}
{"id": "C95", "title": "An ndt7 client that keeps to the protocol gets its whole subtest and a clean record", "statement": "A request for a download or an upload that asks for the subprotocol net.measurementlab.ndt.v7 and has either no early_exit or the documented value 250 is never turned away, whatever other parameters it has: if the machine does its part it is counted once as \"result\", gets no error response, and its subtest runs with what it asked for. If no call of the server fails in the subtest, the subtest ends without an error, because the time was up or because a download has reached its limit: every measurement handed to the sender is sent to the client and recorded, each with the kernel's statistics, and one reason is counted. A client that answers pings with their payload, sends measurements as text and binary messages only during an upload is never counted under an error. All that it sent is in the record, in order; only its very last message can be missing, and only if the time was up while it arrived. The request is counted once as a test without an error and leaves one file with all this, beside any number of other requests.", "quantifier": "all requests, client behaviours within the protocol, schedules of the sender, receiver, measurer and ticker, clock readings and kernel statistics, all interleavings with other requests", "why_tests_cant": "that nothing a well-behaved client does, at whatever time relative to the three goroutines of its subtest, is lost or counted as an error ranges over all schedules and messages", "anchors": ["ndt7/handler/handler.go: runMeasurement, validateEarlyExit", "ndt7/download/download.go: Do", "ndt7/upload/upload.go: Do", "ndt7/download/sender/sender.go: Start", "ndt7/upload/sender/sender.go: Start", "ndt7/receiver/receiver.go: start", "ndt7/measurer/measurer.go: Start, Stop", "ndt7/ping/ping.go"]}
{"id": "C96", "title": "ndt5 records and ndt7 results share one data directory without touching each other", "statement": "Whatever flags the server is started with, every ndt5 service stores its records in the directory ndt5 of the data directory and every ndt7 service is given the data directory itself. Every file that an ndt5 connection creates or writes is below that ndt5 directory and every file that an ndt7 request touches is below the directory ndt7, and no file is below both. So, for any number of connections and requests of both protocols at the same time, a stored record or result stays byte for byte what it was, a file that was there before and does not have the name of one of the new ndt5 records is unchanged, and each session and each request leaves its file with one JSON document that tells what happened.", "quantifier": "all flags, all interleavings of the steps of any number of ndt5 connections and ndt7 requests, all answers of the file system, all UUIDs, clock readings and time zones", "why_tests_cant": "that no step of one protocol can damage a file of the other ranges over all interleavings, names and points at which a connection stops", "anchors": ["ndt-server.go: main", "ndt5/ndt5.go: SaveData, HandleControlChannel", "ndt7/handler/handler.go: writeResult, runMeasurement", "ndt7/results/file.go: newFile, NewFile", "ndt7/handler/handler.go: setupResult"]}
{"id": "C97", "title": "Files are where the data directory flag says, however it is spelled", "statement": "path.Clean changes the spelling of a path but not the place that it names, and gives one spelling to all absolute paths, and one to all relative paths, of a place. Whatever non-empty data directory the server is given (relative or absolute, with dots, double or trailing slashes), an ndt5 record is the file ndt5/YYYY/MM/DD/UUID.json of that directory, by the server's local date, and an ndt7 result the file ndt7/YYYY/MM/DD/ndt7-direction-time.UUID.json of it, by the date in UTC. Records with different names, results with different names, and a record and a result are never the same place. With an empty data directory results go below the working directory but records below the root directory.", "quantifier": "all data directories, working directories, paths, times, UUIDs without slashes, all executions of a connection or request", "why_tests_cant": "ranges over all spellings of paths, including any number of dots and slashes, and over all dates", "anchors": ["ndt5/ndt5.go: SaveData", "ndt5/protocol/protocol.go: UUIDToFile", "ndt7/results/file.go: newFile", "ndt-server.go: main"]}
{"id": "C98", "title": "The metrics of the process tell the truth at every moment", "statement": "Whatever connections of both protocols do side by side, at every moment: the gauge of active tests of an ndt5 protocol is the number of its control connections being served, and has no other labels; there is a result and a duration for each control connection that is over and at most one for each that has begun, each result is 'okay' or 'panic', and the panics counted are the results 'panic' up to connections being served; no protocol has more test servers stopped than started, each opened or failed listener of a test server is counted as started and each closed one as stopped, and when the server is idle the difference of started and stopped is the failed listeners plus those left open; for ndt7 there are no more test results than connections with status 'result', no more of these than requests, no more ends of flows than beginnings. The gauge, described as 'requests currently being served by the NDT server', also counts ndt7 requests.", "quantifier": "all configurations, all interleavings of any number of connections of both protocols, each up to any point, all answers of clients and kernel", "why_tests_cant": "ranges over all interleavings of unboundedly many connections, all crash points and all moments at which metrics are read", "anchors": ["metrics/metrics.go: ActiveTests", "ndt5/ndt5.go: HandleControlChannel", "ndt5/metrics/metrics.go", "ndt5/plain/plain.go: SingleServingServer", "ndt7/handler/handler.go: runMeasurement", "ndt7/metrics/metrics.go"]}
{"id": "C99", "title": "The browser client that is shipped and the server agree", "statement": "Whatever the server, the machine and the network do, and whenever messages arrive and timers fire, no message that the server sends on the control connection makes the shipped ndt5 page (html/ndt-browser-client.js) throw; the page sends nothing but its login, its own download rate, one piece of metadata and the end of the metadata. If the machine works, the connection does not fail and the browser uploads long enough, the page is sent the whole session, the counters tell one result per test and no error, and the page, once it has handled everything, has finished all tests, connected to the announced ports, and shows every kernel variable of the download and the upload rate that the server measured. The record of the session then has both results without error, the rate that the page measured itself and its metadata.", "quantifier": "all executions of a control connection, all interleavings with the page, all delays of messages in both directions, all timers and rates of the browser, all update intervals", "why_tests_cant": "server and page run concurrently and exchange messages asynchronously; the number of interleavings and of server outcomes is unbounded, and there is no test that runs the two together", "anchors": ["html/ndt-browser-client.js: NDTjs.prototype.startTest, ndtC2sTest, ndtS2cTest, ndtMetaTest, makeLoginMessage, makeNdtMessage", "ndt5/ndt5.go: HandleControlChannel", "ndt5/c2s/c2s.go: ManageTest", "ndt5/s2c/s2c.go: ManageTest", "ndt5/meta/meta.go: ManageTest"]}
{"id": "C100", "title": "What the shipped ndt7 upload worker sends and reports", "statement": "Whatever the browser, the network and the server do, the upload worker that is shipped with the server (html/ndt7-upload-worker.js) first sends 8 KiB, and every message has one of eleven sizes from 8 KiB to 8 MiB: a message is twice as long as the one before it exactly if the network has taken sixteen times that much and 8 MiB are not reached. Nothing is sent 10 seconds after the start or later; the worker closes the connection at most once, and sends nothing afterwards. The browser never has to hold more than 64 MiB. A client measurement counts the bytes that were given to the browser less those it still holds, never more than what has left the browser, never less than the one before. While the test lasts, every turn of its loop sends the next message exactly if the browser holds less than seven such messages, makes a measurement exactly if 250 ms have passed, and is followed by another turn. The page is told once of the start, with the expected end 10 seconds later, of every error, and once of the end. Every message of the server is passed on in order and once. Against the server, the worker is a client that keeps to the protocol, so its upload is never counted under an error.", "quantifier": "all schedules of the worker's events, all clocks, all amounts that the browser still holds, all messages of the server; all executions of the server's upload subtest with such a client", "why_tests_cant": "the worker's loop depends on the clock and on how much the browser has buffered at each turn; no test runs the worker, let alone every schedule of it", "anchors": ["html/ndt7-upload-worker.js: uploadTest, uploader", "ndt7/receiver/receiver.go: start, StartUploadReceiver", "spec/ndt7-protocol.md"]}
{"id": "C101", "title": "What the shipped ndt7 download worker reports", "statement": "The download worker that is shipped with the server (html/ndt7-download-worker.js) passes every text of the server on to the page, in order and once. When a message arrives it makes a measurement exactly if the last one, or else the start, is more than 250 ms ago, and this measurement counts the bytes of all messages so far. The page is told of the start, of every error and of the end, when they happen. If what arrives is a beginning of what the server sent, the page gets the server's measurements from the first one on, in order, each as the JSON document that the server made of it.", "quantifier": "all sequences of events of the worker, all clocks, all messages; all beginnings of all executions of the server's download sender", "why_tests_cant": "there is no test of the worker; the claim ranges over every sequence and timing of messages", "anchors": ["html/ndt7-download-worker.js: downloadTest", "ndt7/download/sender/sender.go: start"]}
{"id": "C102", "title": "What the shipped ndt7 page code tells its user", "statement": "A subtest of html/ndt7.js ends with code 0 or 1. Code 1 means that the worker told of an error: then the user's error callback is called exactly once and complete never. Code 0 means that the worker told of the end or that 12 seconds were over: then complete is called once, last, with the last measurements. Before that every measurement is handed over in order, the server's as the documents that it sent. A subtest cannot hang once the URLs are known or known not to be had, and when it is over nothing is handed over any more. The value of a whole test is the code of the download plus 16 times that of the upload. Without consent to the data policy there is no worker and so no connection. The documentation says in addition that the value of a subtest is non-zero on failure.", "quantifier": "all sequences of events of the page and messages of the worker, all user configurations, with callbacks that throw and that return", "why_tests_cant": "the order of the timer, the messages and the answer of the locate service is up to the browser; the property ranges over all of them", "anchors": ["html/ndt7.js: runNDT7Worker, downloadTest, uploadTest, test"]}
{"id": "C103", "title": "The metadata that a user of the shipped ndt7 page code gives reach the record", "statement": "For every metadata object that a user passes to html/ndt7.js with the name of a server, the two URLs are those of the download and the upload at that server, and their query string gives the server exactly the user's names and values and the name and version of the library, whatever bytes there are in them and in whatever order the browser lists them; the user cannot overwrite the last two. The server accepts the request and runs the subtest, with an early exit exactly if the metadata ask for the documented one, and answers 400 if they ask for another one. The record holds exactly these names and values, each name once, except names that start with server_.", "quantifier": "all metadata objects with distinct names, all byte strings as names and values, all orders of the properties, all executions of the request at the server", "why_tests_cant": "names and values are arbitrary strings with characters that have a meaning in URLs; the round trip through the encoder of the browser and the decoder of the server has to be right for all of them", "anchors": ["html/ndt7.js: discoverServerURLs, staticMetadata", "html/ndt7.html", "ndt7/handler/handler.go: runMeasurement, appendClientMetadata, validateEarlyExit"]}
{"id": "C104", "title": "The shipped page for ndt7 comes to an end", "statement": "On the page html/ndt7.html a subtest ends, and its worker is terminated, when the worker tells that it is complete or when the 12 seconds are over, provided that at least one message of the server with the kernel's statistics has arrived by then and, for a download, one measurement of the client was made; then the page is told what C102 says. The comments in the source promise that the worker is killed after 12 seconds in any case.", "quantifier": "all sequences of events of the page and messages of the worker, all documents of the server", "why_tests_cant": "no test runs the page; whether it ends depends on which messages arrive before the timer fires, and this ranges over all sequences", "anchors": ["html/ndt7.html: downloadComplete, uploadComplete", "html/ndt7.js: runNDT7Worker"]}
{"id": "C105", "title": "What the shipped ndt5 widget shows", "statement": "When a session of the server with the widget that it ships (html/widget.html) has ended, the widget goes to its page with the results at its next look, and it never says that the test failed because of a message of the server. After a session without failures this page shows the shortest and the longest round trip time of the download in milliseconds and, as jitter, their difference, which is that of the kernel's largest and smallest sample; the average round trip time as latency; the rate of lost packets; and the upload speed that the server measured. It has no result that is not one of those that the server sends. The page that it shows follows the tests (upload, download, results) and never goes back; a speed is shown with a number and a unit whose product is the rate, up to rounding.", "quantifier": "all executions of HandleControlChannel, all orders in which the messages arrive, all events in the browser, all points of a session, all numbers of looks of the widget", "why_tests_cant": "no test runs the widget; what it shows depends on the interleaving of messages and timers and on every variable that the server sends", "anchors": ["html/ndt-wrapper.js: NDTWrapper", "html/script.js: monitorTest, testDetails, printJitter, averageRoundTrip", "html/ndt-browser-client.js: NDTjs", "ndt5/ndt5.go: HandleControlChannel", "ndt5/web100/web100_linux.go: summarize"]}
{"id": "C106", "title": "The shipped pages find the services they need", "statement": "When the server is up with the default addresses, the pages that it ships (html/ndt7.html and html/widget.html), loaded from wherever the server serves them, under whatever name or address of the host and with or without TLS, open their connections to places of that host at which the server answers with the test that the page wants: ndt7 download and upload, and ndt5 over websockets, with TLS exactly if the page was loaded with TLS.", "quantifier": "all flags other than the addresses, all executions of main, all host names and addresses, all ports", "why_tests_cant": "no test loads a page from a running server, and the combinations of flags, ports and names are unbounded", "anchors": ["ndt-server.go: main", "html/ndt7.html", "html/ndt7.js: discoverServerURLs", "html/ndt-wrapper.js: NDTWrapper", "html/ndt-browser-client.js: createWebsocket", "ndt5/plain/plain.go: sniffThenHandle"]}
{"id": "C107", "title": "The server's ndt7 measurements are paced", "statement": "The ticker of the measurer accepts its configuration, and every wait of it takes between 25 and 625 milliseconds. Hence the first measurement of a subtest is taken at least 25 ms after the start, any two measurements at least 25 ms times their distance apart, and a subtest whose last measurement was taken after t ms has at most t/25 of them; this holds for what the sender gets and for what the record holds, whatever is drawn and however ticks, the sender and the end of the test interleave.", "quantifier": "every sequence of random draws, every time at which timers are started and fire late, every schedule of measurer, ticker and sender, every outcome of reading the statistics", "why_tests_cant": "random draws and schedules; no bound on the number of measurements", "anchors": ["ndt7/measurer/measurer.go:loop", "ndt7/spec/spec.go:MinPoissonSamplingInterval", "ndt7/spec/spec.go:MaxPoissonSamplingInterval", "ndt7/spec/spec.go:AveragePoissonSamplingInterval"]}
{"id": "C108", "title": "The ndt7 page code asks one load balancer and takes the URLs of its first result", "statement": "A page that uses html/ndt7.js and names a server gets the URLs of the two tests at that server, and nobody is asked. Without a server, one request is made, to the load balancer of the configuration or else to the locate service of M-Lab; its query string gives exactly the metadata of the user and the name and version of the library, and the user is told of the request before it is made. The result that is used and that the user is told of is the first one of the answer, and the URLs of the tests are those that it has for the protocol of the user (wss if none is given), whatever other results there are. A URL is never made up: each is a member of the result the user is told of. An answer without results is an error that the user is told, and there are no URLs then. No answer, an answer that is not JSON, an empty list of results, and a load balancer that is not a URL make the discovery fail.", "quantifier": "every configuration, every metadata object and order of its properties, every answer of the load balancer (every sequence of bytes, or none)", "why_tests_cant": "the answer is any text of another server, and the code accesses properties of whatever it contains", "anchors": ["html/ndt7.js:discoverServerURLs"]}
{"id": "C109", "title": "Counting never ends the server", "statement": "The Prometheus library panics when a metric is declared with a name that is bad or taken, with repeated labels or with bucket bounds that do not grow, and when a metric is used with a number of label values other than the declared one or with a value that is not text. None of this happens: all metrics of the process can be registered when it starts, and every use of a metric by an ndt5 session, an ndt7 request, its sender, receiver and measurer, and the test servers of ndt5 has the right number of values, all of them ASCII texts, whatever clients send and whatever fails.", "quantifier": "every metric of the process; every execution of an ndt5 session, of an ndt7 request, of a sender and of a receiver", "why_tests_cant": "many of the uses are on error paths, and the label values depend on what the client did", "anchors": ["ndt5/metrics/metrics.go", "ndt7/metrics/metrics.go:ClientConnections", "metrics/metrics.go:TestRate", "ndt7/measurer/measurer.go:getSocketAndPossiblyEnableBBR", "netx/net.go:CurrentOpenConns", "ndt-server.go:lameDuck"]}
{"id": "C110", "title": "Exactly the websocket requests get a websocket, from any web page", "statement": "The control connection of ndt5, the connections of its tests, and the connections of ndt7 are made for every request that asks for a websocket as RFC 6455 says (method GET, the tokens upgrade and websocket in the lists of the headers Connection and Upgrade, in any case and at any place, version 13 and a valid key), from whatever web page it comes; ndt7 demands in addition that its subprotocol and nothing else is offered. No other request gets a connection: it gets an error response, 400 or 405. The subprotocol of an ndt5 connection is the expected one (ndt, c2s, s2c) if the client offers it, in whatever list, and there is none otherwise; that of an ndt7 connection is that of ndt7. The shipped page code always gets the subprotocol that it asks for, so browsers do not drop the connection.", "quantifier": "every request: every method and every set of header lines", "why_tests_cant": "header lines are lists in free form, of any length, with white space and in any case", "anchors": ["ndt5/ws/ws.go:Upgrader", "ndt5/handler/wshandler.go:ServeHTTP", "ndt5/singleserving/server.go:ServeHTTP", "ndt7/handler/handler.go:setupConn", "html/ndt-browser-client.js:createWebsocket"]}
{"id": "C111", "title": "Rates are written to files without loss", "statement": "The text that stands for a rate in an ndt5 record is a JSON number, with or without an exponent, and reading it gives exactly the rate that was measured, whatever finite floating point number it is: tiny, huge, negative, whole or with many digits. So a record read from its file has the rates that the session had. No rate takes more than 17 significant digits.", "quantifier": "every finite float64", "why_tests_cant": "there are 2^64 numbers, and the writer has three cases for the place of the point and one for exponents, in both signs", "anchors": ["ndt5/ndt5.go:SaveData", "ndt5/c2s/c2s.go:ArchivalData", "ndt5/s2c/s2c.go:ArchivalData"]}
{"id": "C112", "title": "On systems other than Linux the server works with reduced functionality", "statement": "The server warns on systems other than Linux that it will work with reduced functionality. There, no kernel statistics are available: ndt7 subtests run, and their measurements have the connection's addresses and UUID but no statistics; ndt5 tests end, with an error at worst, and their sessions are stored and counted.", "quantifier": "every client, every schedule, every session", "why_tests_cant": "that a wait never ends is not seen by a test that waits for a bounded time, and the tests run on Linux", "anchors": ["platformx/platformx_stub.go:maybeEmitWarning", "bbr/bbr_stub.go:getMaxBandwidthAndMinRTT", "tcpinfox/tcpinfox_stub.go:getTCPInfo", "ndt5/web100/web100_stub.go:MeasureViaPolling", "ndt5/protocol/protocol.go:StopMeasuring"]}
{"id": "C113", "title": "Every ndt7 measurement sent comes with a ping", "statement": "In downloads and uploads the server sends a ping directly after each measurement that it could send to the client, and at no other time; so there are as many pings as server measurements in the result. A ping that cannot be sent is the last thing sent: the subtest ends with its error, counted under 'ping-send-ticks'.", "quantifier": "every run of the senders: any choice between measurements and bulk messages, any failure, any number of steps", "why_tests_cant": "unbounded runs and every failure point", "anchors": ["ndt7/download/sender/sender.go:Start", "ndt7/upload/sender/sender.go:Start", "ndt7/ping/ping.go:SendTicks"]}
