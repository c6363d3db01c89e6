{
 "claims": [
  {
   "property": "C01",
   "status": "proved",
   "theorems": [
    "Verif.Props.C01_tlv_roundtrip",
    "Verif.Props.C01_wire_format",
    "Verif.Props.C01_frames_unambiguous"
   ],
   "note": ""
  },
  {
   "property": "C02",
   "status": "proved",
   "theorems": [
    "Verif.Props.C02_accepts_iff",
    "Verif.Props.C02_error_reason"
   ],
   "note": ""
  },
  {
   "property": "C03",
   "status": "proved",
   "theorems": [
    "Verif.Props.C03_oversized_detected"
   ],
   "note": ""
  },
  {
   "property": "C04",
   "status": "partial",
   "theorems": [
    "Verif.Props.C04_segmentation_independent_false",
    "Verif.Props.C04_segmentation_partial",
    "Verif.Props.C04_whole_parts_wire",
    "Verif.Props.C04_short_read_zero_filled",
    "Verif.Props.C04_length_check_vacuous"
   ],
   "note": "Full claim violated by the code (short reads are not detected): C04_segmentation_independent_false. Proved for pieces that do not end inside a header or body."
  },
  {
   "property": "C05",
   "status": "proved",
   "theorems": [
    "Verif.Props.C05_json_roundtrip",
    "Verif.Props.C05_json_roundtrip_text",
    "Verif.Props.C05_json_document",
    "Verif.Props.C05_json_login_roundtrip",
    "Verif.Props.C05_tlv_roundtrip"
   ],
   "note": "Repaired (Spec/Json.lean) is the relation 'invalid bytes replaced by U+FFFD', stated with Lean's own UTF-8 encoding of characters; JSON texts are those of the grammar IsJson."
  },
  {
   "property": "C06",
   "status": "proved",
   "theorems": [
    "Verif.Props.C06_s2c_results_json",
    "Verif.Props.C06_s2c_results_tlv"
   ],
   "note": ""
  },
  {
   "property": "C07",
   "status": "proved",
   "theorems": [
    "Verif.Props.C07_export_sends_lines",
    "Verif.Props.C07_export_on_script",
    "Verif.Props.C07_lines_are_entries",
    "Verif.Props.C07_names_distinct",
    "Verif.Props.C07_download_names_distinct"
   ],
   "note": ""
  },
  {
   "property": "C08",
   "status": "proved",
   "theorems": [
    "Verif.Props.C08_encoding_fixed",
    "Verif.Props.C08_other_types_refused",
    "Verif.Props.C08_messager_encoding"
   ],
   "note": ""
  },
  {
   "property": "C09",
   "status": "proved",
   "theorems": [
    "Verif.Props.C09_plain_login_iff",
    "Verif.Props.C09_transport_error"
   ],
   "note": ""
  },
  {
   "property": "C10",
   "status": "partial",
   "theorems": [
    "Verif.Props.C10_ws_login_iff",
    "Verif.Props.C10_ws_login_crash_iff",
    "Verif.Props.C10_ws_login_never_crashes_false",
    "Verif.Props.C10_ws_login_partial"
   ],
   "note": "Full claim violated by the code: a JSON null login crashes the handler (C10_ws_login_never_crashes_false); exact extent in C10_ws_login_crash_iff."
  },
  {
   "property": "C11",
   "status": "proved",
   "theorems": [
    "Verif.Props.C11_sniff",
    "Verif.Props.C11_login_reaches_control",
    "Verif.Props.C11_get_forwarded",
    "Verif.Props.C11_first_header_whole"
   ],
   "note": ""
  },
  {
   "property": "C12",
   "status": "proved",
   "theorems": [
    "Verif.Props.C12_script",
    "Verif.Props.C12_nothing_sent"
   ],
   "note": "For all executions of HandleControlChannel. 'The whole script is sent exactly when the run ends without failure' is proved in both directions; the converse needs that no call into the environment panics."
  },
  {
   "property": "C13",
   "status": "proved",
   "theorems": [
    "Verif.Props.C13_nothing_runs",
    "Verif.Props.C13_requested_tests_run",
    "Verif.Props.C13_announced",
    "Verif.Props.C13_other_bits_only_counted"
   ],
   "note": "'All requested tests run' is stated for connections counted as okay; a failed test ends the session (see C12)."
  },
  {
   "property": "C14",
   "status": "proved",
   "theorems": [
    "Verif.Props.C14_accounted_once"
   ],
   "note": "Complete ledger of the four metrics in order, for all executions including panics."
  },
  {
   "property": "C15",
   "status": "proved",
   "theorems": [
    "Verif.Props.C15_label",
    "Verif.Props.C15_exported_labels"
   ],
   "note": "For every byte string as message, and for every execution of a control connection."
  },
  {
   "property": "C16",
   "status": "partial",
   "theorems": [
    "Verif.Props.C16_record_written_partial",
    "Verif.Props.C16_record_written_false",
    "Verif.Props.C16_at_most_one"
   ],
   "note": "The property is violated by the code: a client that reports NaN (or an infinity) prevents the record, proved by C16_record_written_false. What holds: exactly one record, before the connection is closed, with the described content, if the file system works, the connection got a UUID and all rates are numbers."
  },
  {
   "property": "C17",
   "status": "partial",
   "theorems": [
    "Verif.Props.C17_directions_agree_partial",
    "Verif.Props.C17_one_result",
    "Verif.Props.C17_global_equality_false"
   ],
   "note": "The per-direction equality holds on every connection; the documented global equality is violated (a refused login counts an error but no result)."
  },
  {
   "property": "C18",
   "status": "partial",
   "theorems": [
    "Verif.Props.C18_okay_partial",
    "Verif.Props.C18_okay_means_complete_false"
   ],
   "note": "Violated: a login without the status bit is counted as okay although nothing is sent. The partial theorem says this is the only exception."
  },
  {
   "property": "C19",
   "status": "partial",
   "theorems": [
    "Verif.Props.C19_listener_released_partial",
    "Verif.Props.C19_released_if_sent",
    "Verif.Props.C19_listener_released_false"
   ],
   "note": "Violated: the listener stays open if the TestPrepare message cannot be sent. The partial theorem says this is the only exception."
  },
  {
   "property": "C20",
   "status": "partial",
   "theorems": [
    "Verif.Props.C20_conn_released_partial",
    "Verif.Props.C20_upload_conn_released",
    "Verif.Props.C20_download_conn_once",
    "Verif.Props.C20_download_conn_released_false",
    "Verif.Props.C20_conn_with_error_false"
   ],
   "note": "Uploads: proved in all cases, crashes included, if the server hands over exactly one of a connection and an error. Downloads: violated if the test crashes; proved if no call into the environment panics. Violated also if a connection is handed over together with an error (C32)."
  },
  {
   "property": "C21",
   "status": "proved",
   "theorems": [
    "Verif.Props.C21_rate_reported",
    "Verif.Props.C21_short_upload_rejected",
    "Verif.Props.C21_late_error_is_success",
    "Verif.Props.C21_timeout_is_success",
    "Verif.Go.F64.round_iff"
   ],
   "note": "round_iff: the rounding the rate is computed with is IEEE 754 rounding to nearest even."
  },
  {
   "property": "C22",
   "status": "partial",
   "theorems": [
    "Verif.Props.C22_no_crash_without_measurement_false",
    "Verif.Props.C22_crash_iff_partial"
   ],
   "note": "Full claim violated by the code: a failed measurement makes the upload test dereference nil (C22_no_crash_without_measurement_false). C22_crash_iff_partial says exactly when it panics."
  },
  {
   "property": "C23",
   "status": "proved",
   "theorems": [
    "Verif.Props.C23_metadata_bounded"
   ],
   "note": ""
  },
  {
   "property": "C24",
   "status": "proved",
   "theorems": [
    "Verif.Props.C24_stored_faithfully",
    "Verif.Props.C24_success_iff",
    "Verif.Props.C24_error_discards",
    "Verif.Props.C24_values_counted"
   ],
   "note": ""
  },
  {
   "property": "C25",
   "status": "proved",
   "theorems": [
    "Verif.Props.C25_fields_stored",
    "Verif.Props.C25_rate_reported",
    "Verif.Props.C25_failure_reasons"
   ],
   "note": ""
  },
  {
   "property": "C26",
   "status": "proved",
   "theorems": [
    "Verif.Props.C26_download_error_recorded",
    "Verif.Props.C26_upload_error_recorded"
   ],
   "note": ""
  },
  {
   "property": "C27",
   "status": "partial",
   "theorems": [
    "Verif.Props.C27_summary_partial",
    "Verif.Props.C27_summary_correct_partial",
    "Verif.Props.C27_min_false",
    "Verif.Props.C27_sum_false"
   ],
   "note": "Violated: a sample of zero resets the minimum, and the sum wraps around at 2^32 microseconds. Proved without these two cases; maximum, count (below 2^32) and last sample are always right."
  },
  {
   "property": "C28",
   "status": "partial",
   "theorems": [
    "Verif.Props.C28_polling_partial",
    "Verif.Props.C28_final_measurement_false"
   ],
   "note": "Violated: no measurement is taken after the stop if it arrives while the goroutine waits for the ticker. Proved: exactly the successful samples in order, and at most one reading after the stop."
  },
  {
   "property": "C29",
   "status": "proved",
   "theorems": [
    "Verif.Props.C29_result",
    "Verif.Props.C29_never_blocks"
   ],
   "note": "Never blocking is proved as: while the call waits it can return or the goroutine it waits for can go on, and that goroutine needs at most five more steps. Assumes that the ticker ticks and the scheduler is fair. On Linux; on other systems it is false (C112)."
  },
  {
   "property": "C30",
   "status": "proved",
   "theorems": [
    "Verif.Props.C30_websocket",
    "Verif.Props.C30_plain"
   ],
   "note": "All schedules of clients, handshakes, timeouts, closes and the end of the http server."
  },
  {
   "property": "C31",
   "status": "proved",
   "theorems": [
    "Verif.Props.C31_closed_once",
    "Verif.Props.C31_close_returns"
   ],
   "note": "Calls made by wsServer.Close; that net/http closes the listener it was given once more is outside the model."
  },
  {
   "property": "C32",
   "status": "partial",
   "theorems": [
    "Verif.Props.C32_websocket_partial",
    "Verif.Props.C32_plain_partial",
    "Verif.Props.C32_client_lost_false",
    "Verif.Props.C32_timeout_false",
    "Verif.Props.C32_conn_with_error_false",
    "Verif.Props.C32_websocket_false",
    "Verif.Props.C32_plain_false"
   ],
   "note": "Violated in three ways: a second client replaces the first one, a client arriving at the timeout is lost, a connection is returned with the error of another client. Proved for a single client without timeout; for the plain server only the timeout is an exception."
  },
  {
   "property": "C33",
   "status": "proved",
   "theorems": [
    "Verif.Props.C33_gauge",
    "Verif.Props.C33_files"
   ],
   "note": "The gauge is exact whenever no accept or close is under way, and between the two obvious bounds at every moment."
  },
  {
   "property": "C34",
   "status": "proved",
   "theorems": [
    "Verif.Props.C34_read_info"
   ],
   "note": ""
  },
  {
   "property": "C35",
   "status": "proved",
   "theorems": [
    "Verif.Props.C35_uuid",
    "Verif.Props.C35_stable"
   ],
   "note": "Assumes that guuid.NewUUID works (otherwise the process exits) and that the uuid package returns non-empty identifiers."
  },
  {
   "property": "C36",
   "status": "proved",
   "theorems": [
    "Verif.Props.C36_bandwidth"
   ],
   "note": ""
  },
  {
   "property": "C37",
   "status": "proved",
   "theorems": [
    "Verif.Props.C37_accepts_250",
    "Verif.Props.C37_accepts_absent",
    "Verif.Props.C37_refuses_others",
    "Verif.Props.C37_depends_on_early_exit_only",
    "Verif.Props.C37_refused_before_upgrade",
    "Verif.Props.C37_accepted_upgraded",
    "Verif.Props.C37_download_parameters"
   ],
   "note": "Every query (distinct names, each with a value, as url.Values guarantees) in every enumeration order; a refused request does nothing but answer 400."
  },
  {
   "property": "C38",
   "status": "proved",
   "theorems": [
    "Verif.Props.C38_metadata_exact",
    "Verif.Props.C38_order_irrelevant",
    "Verif.Props.C38_metadata_stored"
   ],
   "note": "Exact membership, at most one entry per name, order irrelevant, and the stored record."
  },
  {
   "property": "C39",
   "status": "proved",
   "theorems": [
    "Verif.Props.C39_wrong_subprotocol",
    "Verif.Props.C39_counted_once",
    "Verif.Props.C39_refused_not_counted"
   ],
   "note": "The counter theorem excludes crashes of the two library calls made before the request is counted."
  },
  {
   "property": "C40",
   "status": "partial",
   "theorems": [
    "Verif.Props.C40_one_file_and_flow_partial",
    "Verif.Props.C40_others_nothing",
    "Verif.Props.C40_one_file_and_flow_false"
   ],
   "note": "Violated when the file cannot be written: the process then ends (C40_one_file_and_flow_false). Proved for every other execution, including crashing subtests; requests not counted as result leave nothing."
  },
  {
   "property": "C41",
   "status": "partial",
   "theorems": [
    "Verif.Props.C41_counted_partial",
    "Verif.Props.C41_at_most_once",
    "Verif.Props.C41_with_rate_in_histogram",
    "Verif.Props.C41_counted_false",
    "Verif.Props.C41_nan_rate",
    "Verif.Props.C41_monitoring_label"
   ],
   "note": "Violated by a crashing subtest (C41_counted_false). Proved without crashes; the histogram claim needs a positive elapsed time and a non-negative count, since 0/0 is labelled with-rate but not observed (C41_nan_rate)."
  },
  {
   "property": "C42",
   "status": "proved",
   "theorems": [
    "Verif.Props.C42_sizes"
   ],
   "note": "Every binary message of every run of the download sender, whatever the environment does."
  },
  {
   "property": "C43",
   "status": "proved",
   "theorems": [
    "Verif.Props.C43_recorded_as_sent"
   ],
   "note": "For both senders and every exit, including panics and runs that have not ended."
  },
  {
   "property": "C44",
   "status": "partial",
   "theorems": [
    "Verif.Props.C44_ends_at_limit_partial",
    "Verif.Props.C44_only_at_limit",
    "Verif.Props.C44_early_iff_limit",
    "Verif.Props.C44_ends_at_limit_false"
   ],
   "note": "The limit never ends the test too early and a run ends at the limit, unless the ping after the last measurement fails: then the result is that error (C44_ends_at_limit_false)."
  },
  {
   "property": "C45",
   "status": "proved",
   "theorems": [
    "Verif.Props.C45_one_reason",
    "Verif.Props.C45_reason_exact",
    "Verif.Props.C45_closes_iff_success",
    "Verif.Props.C45_nothing_after_close"
   ],
   "note": ""
  },
  {
   "property": "C46",
   "status": "proved",
   "theorems": [
    "Verif.Props.C46_upload_no_binary",
    "Verif.Props.C46_pings_follow_measurements",
    "Verif.Props.C46_pings_not_more_frequent"
   ],
   "note": ""
  },
  {
   "property": "C47",
   "status": "proved",
   "theorems": [
    "Verif.Props.C47_recorded_exactly",
    "Verif.Props.C47_stops",
    "Verif.Props.C47_continues"
   ],
   "note": "For every decoder of measurements."
  },
  {
   "property": "C48",
   "status": "partial",
   "theorems": [
    "Verif.Props.C48_one_reason_partial",
    "Verif.Props.C48_reasons_exact",
    "Verif.Props.C48_at_most_two",
    "Verif.Props.C48_one_reason_false"
   ],
   "note": "Exactly one reason unless the client sends a malformed pong, which is counted twice (C48_one_reason_false)."
  },
  {
   "property": "C49",
   "status": "partial",
   "theorems": [
    "Verif.Props.C49_data_final_partial",
    "Verif.Props.C49_at_most_one_more",
    "Verif.Props.C49_data_final_false"
   ],
   "note": "Nothing changes after Do returned unless the context has ended; then one more client measurement may be added (C49_data_final_false, C49_at_most_one_more)."
  },
  {
   "property": "C50",
   "status": "proved",
   "theorems": [
    "Verif.Props.C50_stop_returns_after_end",
    "Verif.Props.C50_closed_at_most_once",
    "Verif.Props.C50_no_send_after_close",
    "Verif.Props.C50_no_deadlock",
    "Verif.Props.C50_terminates",
    "Verif.Props.C51_measurements",
    "Verif.Props.C50_measurer_runs",
    "Verif.Props.C50_closed_iff_exited"
   ],
   "note": "Termination is a bound on the number of steps of every execution once the context has ended or the ticker was stopped, together with the absence of deadlocks."
  },
  {
   "property": "C51",
   "status": "proved",
   "theorems": [
    "Verif.Props.C51_measurements",
    "Verif.Props.C51_elapsed_monotone",
    "Verif.Props.C51_ticks_after_start"
   ],
   "note": ""
  },
  {
   "property": "C52",
   "status": "proved",
   "theorems": [
    "Verif.Props.C52_names_injective",
    "Verif.Props.C52_own_file",
    "Verif.Props.C52_no_overwrite",
    "Verif.Props.C52_created_once",
    "Verif.Props.C52_distinct_files"
   ],
   "note": "Calendar and formats are concrete; requests interleave arbitrarily, up to any point, on a file system with exclusive creation. Names are compared as strings (no path resolution)."
  },
  {
   "property": "C53",
   "status": "partial",
   "theorems": [
    "Verif.Props.C53_empty_before",
    "Verif.Props.C53_always_prefix",
    "Verif.Props.C53_complete",
    "Verif.Props.C53_reported_complete_partial",
    "Verif.Props.C53_reported_complete_false"
   ],
   "note": "Holds without compression. With compression a failing close of the compressor is only logged, so a test can be reported as finished with an incomplete file; the negation is proved."
  },
  {
   "property": "C54",
   "status": "proved",
   "theorems": [
    "Verif.Props.C54_names_injective",
    "Verif.Props.C54_own_file",
    "Verif.Props.C54_distinct_files",
    "Verif.Props.C54_unidentified_fresh",
    "Verif.Props.C54_record_survives",
    "Verif.Props.C54_others_unchanged",
    "Verif.Props.C54_same_uuid_overwrites"
   ],
   "note": "File name determines date and UUID; each connection only touches its own file; distinct connections open distinct files; written records survive; files not named after a UUID are unchanged. Hypotheses (OneServer): one data directory, one time zone, four digit years, UUIDs unique per connection, no other UUID beginning with the unidentified mark. C54_same_uuid_overwrites shows uniqueness is needed."
  },
  {
   "property": "C55",
   "status": "proved",
   "theorems": [
    "Verif.Props.C55_result_label",
    "Verif.Props.C55_protocol_label",
    "Verif.Props.C55_ndt5_label",
    "Verif.Props.resultLabel_eq"
   ],
   "note": "All errors and rates, all addresses host:port, all ndt5 connection types."
  },
  {
   "property": "C56",
   "status": "partial",
   "theorems": [
    "Verif.Props.C56_roundtrip",
    "Verif.Props.C56_roundtrip_exact",
    "Verif.Props.C56_accepted_exactly",
    "Verif.Props.C56_others_rejected_partial",
    "Verif.Props.C56_others_rejected_false"
   ],
   "note": "Round trip for every 64-bit timestamp. What is accepted is the text of a 64-bit integer or the word null; the latter contradicts the property (C56_others_rejected_false)."
  },
  {
   "property": "C57",
   "status": "proved",
   "theorems": [
    "Verif.Props.C57_rate_of_last",
    "Verif.Props.C57_no_bytes",
    "Verif.Props.C57_zero_without_tcp"
   ],
   "note": "Up to float64 rounding, relative error at most 2^-48."
  },
  {
   "property": "C58",
   "status": "proved",
   "theorems": [
    "Verif.Props.C58_codes",
    "Verif.Props.C58_no_false_alarm",
    "Verif.Props.C58_sticky",
    "Verif.Props.C58_handled",
    "Verif.Props.C58_before",
    "Verif.Props.C58_metric",
    "Verif.Props.C58_metric_sticky",
    "Verif.Props.C58_metric_health",
    "Verif.Props.C58_health_metric",
    "Verif.Props.C58_reacts",
    "Verif.Props.C58_six_steps"
   ],
   "note": "All interleavings of signal deliveries, cancellation, health requests, scrapes and the steps of the catcher goroutine. Flag reads and writes are assumed sequentially consistent (the code has a data race on isLameDuck)."
  },
  {
   "property": "C59",
   "status": "proved",
   "theorems": [
    "Verif.Props.C59_two_signals",
    "Verif.Props.C59_one_never",
    "Verif.Props.C59_second_stops"
   ],
   "note": "Once the handler is registered; the window before is C73."
  },
  {
   "property": "C60",
   "status": "proved",
   "theorems": [
    "Verif.Props.C60_labels",
    "Verif.Props.C60_order"
   ],
   "note": "All maps and iteration orders."
  },
  {
   "property": "C61",
   "status": "partial",
   "theorems": [
    "Verif.Props.C61_always",
    "Verif.Props.C61_wss_iff",
    "Verif.Props.C61_ndt7_tls_iff",
    "Verif.Props.C61_ndt7_controlled",
    "Verif.Props.C61_wss_controlled",
    "Verif.Props.C61_ws_uncontrolled",
    "Verif.Props.C61_failure",
    "Verif.Props.C61_verifier",
    "Verif.Props.C61_closed",
    "Verif.Props.C61_up",
    "Verif.Props.C61_tls_serves_false",
    "Verif.Props.C61_tls_serves_partial",
    "Verif.Props.C61_offers",
    "Verif.Props.C61_raw"
   ],
   "note": "Everything stated is proved for every execution of main, except one corner: with autocert and a hostname and exactly one of certificate and key, the ndt7 TLS service starts to listen but serving ends the process (C61_tls_serves_false); with both or neither given this cannot happen (C61_tls_serves_partial)."
  },
  {
   "property": "C62",
   "status": "partial",
   "theorems": [
    "Verif.Props.C62_httpServer",
    "Verif.Props.C62_started",
    "Verif.Props.C62_all_servers_false",
    "Verif.Props.C62_single_serving_timeouts"
   ],
   "note": "Proved for every server started by main; false of the servers of single ndt5 websocket tests, which have the timeouts but not the TLS floor (C62_all_servers_false)."
  },
  {
   "property": "C63",
   "status": "partial",
   "theorems": [
    "Verif.Props.C63_ndt5_schema_false",
    "Verif.Props.C63_ndt7_schema_partial",
    "Verif.Props.C63_ndt5_rejected",
    "Verif.Props.C63_both",
    "Verif.Props.C63_loads",
    "Verif.Props.C63_paths",
    "Verif.Props.C63_write_errors_ignored",
    "Verif.Props.C63_written_records_load",
    "Verif.Props.C63_ndt5_records_rejected"
   ],
   "note": "The generator uses the ndt7 structure for both files: C63_ndt5_schema_false, and the file for ndt5 rejects every ndt5 record (C63_ndt5_rejected; for the JSON text as written, C63_ndt5_records_rejected). The ndt7 half is proved, in full by C63_written_records_load: every text the server writes as an ndt7 record is taken by the generated schema. Schema inference is modelled after the library."
  },
  {
   "property": "C64",
   "status": "proved",
   "theorems": [
    "Verif.Props.C64_type_names_distinct",
    "Verif.Props.C64_type_names_nonempty",
    "Verif.Props.C64_encoding_names_distinct",
    "Verif.Props.C64_encoding_names"
   ],
   "note": ""
  },
  {
   "property": "C65",
   "status": "partial",
   "theorems": [
    "Verif.Props.C65_fill_partial",
    "Verif.Props.C65_not_prepared",
    "Verif.Props.C65_pattern",
    "Verif.Props.C65_partial_write_false"
   ],
   "note": "Violated: the bytes of a write that fails after part of its data went out are not counted. Proved for runs whose failing write wrote nothing."
  },
  {
   "property": "C66",
   "status": "partial",
   "theorems": [
    "Verif.Props.C66_prompt_client_partial",
    "Verif.Props.C66_unbounded_false",
    "Verif.Props.C66_prompt_client_false"
   ],
   "note": "The property is false: the messages of the control connection are awaited without any deadline, so no bound holds (C66_unbounded_false); and even with a client that never keeps the server waiting and operations that take no time, a connection can take 55 seconds, since the download's ten seconds are not cut by the context (C66_prompt_client_false). Proved instead: for prompt clients, 45 seconds plus 10 if there is a download, plus the durations of the single operations, whose number is bounded."
  },
  {
   "property": "C67",
   "status": "proved",
   "theorems": [
    "Verif.Props.C67_sender",
    "Verif.Props.C67_subtest",
    "Verif.Props.C67_receiver"
   ],
   "note": "For every run of either sender and every timing allowed by deadlines (writes end at the write deadline if one was set, the close message has one second, the measurer ends after ten seconds), the sender returns within 16 seconds of its start plus scheduling time, and so does Do, since recv.Done() closes with the 15-second context. The receiver's goroutine ends within 15 seconds plus the grace of one message. The bound of 16 seconds is attained (example)."
  },
  {
   "property": "C68",
   "status": "proved",
   "theorems": [
    "Verif.Props.C68_both_closed",
    "Verif.Props.C68_returns",
    "Verif.Props.C68_both_ended",
    "Verif.Props.C68_copies_end",
    "Verif.Props.C68_waits_for_upstream"
   ],
   "note": "The end need not be prompt when only the client closes, see C68_waits_for_upstream."
  },
  {
   "property": "C69",
   "status": "partial",
   "theorems": [
    "Verif.Props.C69_loop_survives",
    "Verif.Props.C69_handled_and_closed_partial",
    "Verif.Props.C69_closed_once_partial",
    "Verif.Props.C69_closed_once_false"
   ],
   "note": "Violated in one respect: a connection with a control session is closed twice. Everything else is proved."
  },
  {
   "property": "C70",
   "status": "partial",
   "theorems": [
    "Verif.Props.C70_direction_label_partial",
    "Verif.Props.C70_direction_label_false"
   ],
   "note": "All counts of a receiver carry one label that tells the directions apart, but it is 0 or 1 and not the name of the direction (C70_direction_label_false)."
  },
  {
   "property": "C71",
   "status": "partial",
   "theorems": [
    "Verif.Props.C71_stop_is_prompt_partial",
    "Verif.Props.C71_stop_is_prompt_false"
   ],
   "note": "Stop ends the measurer within a bounded number of steps if the ticker is in place when Stop is called; otherwise it waits for the timeout (C71_stop_is_prompt_false)."
  },
  {
   "property": "C72",
   "status": "partial",
   "theorems": [
    "Verif.Props.C72_clean_shutdown_false",
    "Verif.Props.C72_clean_shutdown_partial"
   ],
   "note": "False: a third SIGTERM between the deferred close of the channel and the end of the process is sent to a closed channel (C72_clean_shutdown_false); the partial theorem says a crash needs a signal after the close, so at least three signals or a cancellation."
  },
  {
   "property": "C73",
   "status": "partial",
   "theorems": [
    "Verif.Props.C73_one_signal_false",
    "Verif.Props.C73_one_signal_partial"
   ],
   "note": "False: a SIGTERM before signal.Notify kills the process (C73_one_signal_false); from the registration on it cannot."
  },
  {
   "property": "C74",
   "status": "proved",
   "theorems": [
    "Verif.Props.C74_plain_closed_once"
   ],
   "note": "Invariant of the transition system of the raw server."
  },
  {
   "property": "C75",
   "status": "proved",
   "theorems": [
    "Verif.Props.C75_websocket",
    "Verif.Props.C75_plain"
   ],
   "note": "Bounded number of own steps, and a step is enabled until ServeOnce has returned; http.Server.Serve is taken to return once the server is closed."
  },
  {
   "property": "C76",
   "status": "proved",
   "theorems": [
    "Verif.Props.C76_shutdown_ends_loop"
   ],
   "note": "Accept on a closed listener is taken to fail."
  },
  {
   "property": "C77",
   "status": "proved",
   "theorems": [
    "Verif.Props.C77_transparent"
   ],
   "note": "The bytes read begin with those sniffed, see C11."
  },
  {
   "property": "C78",
   "status": "partial",
   "theorems": [
    "Verif.Props.C78_counted_partial",
    "Verif.Props.C78_counted_false"
   ],
   "note": "Violated: the counter is never incremented, since .Inc() is missing after WithLabelValues."
  },
  {
   "property": "C79",
   "status": "proved",
   "theorems": [
    "Verif.Props.C79_fixed_labels"
   ],
   "note": "The monitoring label is the one HandleControlChannel is called with."
  },
  {
   "property": "C80",
   "status": "proved",
   "theorems": [
    "Verif.Props.C80_message_reads_back",
    "Verif.Props.C80_message_same",
    "Verif.Props.C80_result_reads_back"
   ],
   "note": "encoding/json is modelled for the types in question (Go/Marshal.lean); the fields of the library structure tcp.LinuxTCPInfo are a parameter."
  },
  {
   "property": "C81",
   "status": "proved",
   "theorems": [
    "Verif.Props.C81_accepted_exactly",
    "Verif.Props.C81_accepted_typed",
    "Verif.Props.C81_sent_recorded"
   ],
   "note": "Fits is a separate relation in Spec/Wire.lean; JSON texts (IsJson), names up to case (SameName), decimal numbers (Decimal) and texts of times (IsTimeText) are inductive definitions in Spec, and the parsers are proved to accept exactly these. A time with escapes in its JSON string is accepted by the model; Go refuses it."
  },
  {
   "property": "C82",
   "status": "partial",
   "theorems": [
    "Verif.Props.C82_accepted_times",
    "Verif.Props.C82_result_written_iff",
    "Verif.Props.C82_exit_exactly",
    "Verif.Props.C82_clients_cannot_end_server_false"
   ],
   "note": "Violated: a measurement whose ConnectionInfo.StartTime has a zone of 24 hours (2020-01-01T00:00:00+24:00) is accepted by json.Unmarshal but refused by json.Marshal, and rtx.Must then ends the process (C82_clients_cannot_end_server_false). With a working disk these messages are exactly the ones that do (C82_exit_exactly)."
  },
  {
   "property": "C83",
   "status": "proved",
   "theorems": [
    "Verif.Props.C83_never_stuck",
    "Verif.Props.C83_receiver_ends",
    "Verif.Props.C83_returns_after_deadline"
   ],
   "note": "A read that is in progress when the time is over ends as the connection's read deadline or the client lets it; this is the step 'fail' or 'message' of the receiver. Fairness of the scheduler is not modelled."
  },
  {
   "property": "C84",
   "status": "proved",
   "theorems": [
    "Verif.Props.C84_written_iff",
    "Verif.Props.C84_encodable",
    "Verif.Props.C84_record_reads_back",
    "Verif.Props.C84_right_schema_loads"
   ],
   "note": "How strconv writes floating point numbers is a parameter: FloatsOk says that it writes a JSON number that reads back as the same double."
  },
  {
   "property": "C85",
   "status": "proved",
   "theorems": [
    "Verif.Props.C85_json_received_iff",
    "Verif.Props.C85_login_received_iff",
    "Verif.Props.C85_tlv_received_iff",
    "Verif.Props.C85_never_silent"
   ],
   "note": "The grammar of JSON (IsJson) and the matching of names (SameName) are separate inductive definitions in Spec/Json.lean and Spec/Names.lean. A JSON document null is received by ReceiveJSONMessage as a nil message without an error, which ReceiveMessage turns into an error and the websocket login does not (C10)."
  },
  {
   "property": "C86",
   "status": "proved",
   "theorems": [
    "Verif.Props.C86_client_view"
   ],
   "note": "The type numbers are those of the NDT protocol, written out in Spec/ClientView.lean; frames are read with the wire format (IsFrame) and the grammar of JSON (IsJson). The contents are assumed to be texts of at most 10000 bytes and numbers of 64 bits (Short), which the example meets."
  },
  {
   "property": "C87",
   "status": "partial",
   "theorems": [
    "Verif.Props.C87_metadata_stored",
    "Verif.Props.C87_refused",
    "Verif.Props.C87_upgraded",
    "Verif.Props.C87_download_parameters",
    "Verif.Props.C87_encoded_arrives",
    "Verif.Props.C87_all_encodable",
    "Verif.Props.C87_gives_unique",
    "Verif.Props.C87_malformed_refused_false",
    "Verif.Props.C87_long_refused_false"
   ],
   "note": "The last sentence is violated: a malformed query string is accepted, its malformed pieces are dropped silently (C87_malformed_refused_false), and there is no limit of 4096 bytes (C87_long_refused_false). Everything else is proved for every query string. net/url is modelled from Go 1.25's source, without the limit of 10000 parameters of later patch releases."
  },
  {
   "property": "C88",
   "status": "proved",
   "theorems": [
    "Verif.Props.C88_message_document",
    "Verif.Props.C88_result_document",
    "Verif.Props.C88_record_document"
   ],
   "note": "The fields of the library structure tcp.LinuxTCPInfo are a parameter (Layout), and so is how strconv writes float64 (FloatText, with FloatsOk). Which values can be written at all is C80 and C84; that the records themselves tell what happened is C16, C25, C38, C40, C43, C47 and C57."
  },
  {
   "property": "C89",
   "status": "proved",
   "theorems": [
    "Verif.Props.C89_message_means"
   ],
   "note": "Which messages are accepted at all is C81. The names of the fields of tcp.LinuxTCPInfo must differ in more than case (NamesApart). A time with escapes in its JSON string is read by the model; Go refuses it."
  },
  {
   "property": "C90",
   "status": "proved",
   "theorems": [
    "Verif.Props.C90_request_file",
    "Verif.Props.C90_session_file",
    "Verif.Props.C90_record_typed"
   ],
   "note": "Composes C16, C40, C53, C82, C84 and C88. Assumes that the disk works and that clock, sockets and kernel keep to their types (TypedEnv, InOrder). That rates are float64 values is proved (Go/FloatRound), not assumed. Without these assumptions see C16, C40, C53 and C82."
  },
  {
   "property": "C91",
   "status": "proved",
   "theorems": [
    "Verif.Props.C91_server_measurements",
    "Verif.Props.C91_client_measurements",
    "Verif.Props.C91_times",
    "Verif.Props.C91_sender",
    "Verif.Props.C91_measurer_ended",
    "Verif.Props.C91_no_deadlock",
    "Verif.Props.C91_ends",
    "Verif.Props.C91_in_order",
    "Verif.Props.C91_request_file"
   ],
   "note": "One transition system for a whole subtest, built from the models of the senders, the receiver and the measurer. If the sender fails before the transfer begins both times are zero. What the receiver does after the result was written (the context ended while it was reading) is part of the model; writing the result is one step."
  },
  {
   "property": "C92",
   "status": "proved",
   "theorems": [
    "Verif.Props.C92_ndt5_times_in_order",
    "Verif.Props.C92_ndt7_times_in_order"
   ],
   "note": "The clock is a hypothesis: its readings, in the order in which they are taken, never decrease (`clocks` of the events for ndt5; `requestReadings` for ndt7, which puts the readings during the subtest in the place of the call of the subtest). ndt7 speaks of requests whose result is written (the cases in which it is not are those of C40)."
  },
  {
   "property": "C93",
   "status": "proved",
   "theorems": [
    "Verif.Props.C93_good_session",
    "Verif.Props.C93_good_record",
    "Verif.Props.C93_messages_used"
   ],
   "note": "The hypotheses (Verif/Spec/GoodSession.lean) are on the events of the session: no call fails, what the client sends, and how its upload ends. The rates must be numbers for the record to be written (see C16)."
  },
  {
   "property": "C94",
   "status": "proved",
   "theorems": [
    "Verif.Props.C94_healthy_is_up",
    "Verif.Props.C94_no_refusal",
    "Verif.Props.C94_in_order",
    "Verif.Props.C94_next_client",
    "Verif.Props.C94_what_ends_it",
    "Verif.Props.C94_stays",
    "Verif.Props.C94_address",
    "Verif.Props.C94_ends_it"
   ],
   "note": "http.Server.Serve is modelled from knowledge of the library: temporary errors of Accept are retried, ErrServerClosed is returned after Close. The access controllers in front of the handlers are those of C61; that of the raw port (tx.Accept) is not looked at here."
  },
  {
   "property": "C95",
   "status": "proved",
   "theorems": [
    "Verif.Props.C95_request",
    "Verif.Props.C95_server",
    "Verif.Props.C95_client",
    "Verif.Props.C95_pong",
    "Verif.Props.C95_file"
   ],
   "note": "The behaviour of the machine and of the client is read off the steps of the subtest (Spec/GoodTest.lean) and the answers to the calls of the request (Spec/GoodRequest.lean). Client messages with a time zone of 24 hours or more are left out in C95_file; with such a message the process ends (C82)."
  },
  {
   "property": "C96",
   "status": "proved",
   "theorems": [
    "Verif.Props.C96_directories",
    "Verif.Props.C96_raw_directory",
    "Verif.Props.C96_ndt5_below",
    "Verif.Props.C96_ndt7_below",
    "Verif.Props.C96_apart",
    "Verif.Props.C96_record_survives",
    "Verif.Props.C96_result_survives",
    "Verif.Props.C96_others_unchanged",
    "Verif.Props.C96_session_file",
    "Verif.Props.C96_request_file"
   ],
   "note": "In ndt5 an existing record with the same UUID on the same day is overwritten (C54), hence the exception. Files are told apart by their paths; that different paths are different places is C97."
  },
  {
   "property": "C97",
   "status": "proved",
   "theorems": [
    "Verif.Props.C97_clean_same_place",
    "Verif.Props.C97_clean_canonical",
    "Verif.Props.C97_ndt5_place",
    "Verif.Props.C97_ndt7_place",
    "Verif.Props.C97_empty_data_directory",
    "Verif.Props.C97_records_apart",
    "Verif.Props.C97_results_apart",
    "Verif.Props.C97_kinds_apart"
   ],
   "note": "path.Clean and path.Join are modelled byte by byte from knowledge of Go's library. There are no symbolic links. C96_directories says that main gives the ndt5 services the data directory with /ndt5 appended."
  },
  {
   "property": "C98",
   "status": "partial",
   "theorems": [
    "Verif.Props.C98_gauge_partial",
    "Verif.Props.C98_gauge_labels",
    "Verif.Props.C98_gauge_idle",
    "Verif.Props.C98_results",
    "Verif.Props.C98_panics",
    "Verif.Props.C98_idle_counters",
    "Verif.Props.C98_servers",
    "Verif.Props.C98_servers_idle",
    "Verif.Props.C98_ndt7_counters",
    "Verif.Props.C98_flows",
    "Verif.Props.C98_gauge_ndt7_false"
   ],
   "note": "All claims hold but the last one, which the code violates (C98_gauge_ndt7_false): only ndt5.HandleControlChannel updates the gauge, so running ndt7 tests are not in it. A metric is the sum of all updates made so far."
  },
  {
   "property": "C99",
   "status": "partial",
   "theorems": [
    "Verif.Props.C99_login",
    "Verif.Props.C99_page_never_fails",
    "Verif.Props.C99_page_sends",
    "Verif.Props.C99_session_succeeds",
    "Verif.Props.C99_page_finishes",
    "Verif.Props.C99_record",
    "Verif.Props.C99_upload_rate_false"
   ],
   "note": "Holds for the composition of the model of HandleControlChannel with a model of the shipped JavaScript client, except the last clause when updateInterval is set: then a timer of the upload that fires late overwrites the server's rate with the page's own estimate (C99_upload_rate_false; a comment in the source claims that this race was eliminated). Without update interval the clause is proved. Browser APIs (WebSocket, JSON.parse, setTimeout) are trusted to behave as modelled."
  },
  {
   "property": "C100",
   "status": "proved",
   "theorems": [
    "Verif.Props.C100_sizes",
    "Verif.Props.C100_first",
    "Verif.Props.C100_growth",
    "Verif.Props.C100_time",
    "Verif.Props.C100_once",
    "Verif.Props.C100_ends",
    "Verif.Props.C100_buffer",
    "Verif.Props.C100_reports",
    "Verif.Props.C100_measurements",
    "Verif.Props.C100_passes_on",
    "Verif.Props.C100_keeps",
    "Verif.Props.C100_server",
    "Verif.Props.C100_turn",
    "Verif.Props.C100_opens",
    "Verif.Props.C100_told"
   ],
   "note": "The bounds on the buffer, the growth and the order of the measurements assume that the browser's bufferedAmount is honest: it grows by what is sent and otherwise only shrinks (HonestBuffer). The browser's WebSocket, setTimeout and performance.now are trusted to behave as modelled."
  },
  {
   "property": "C101",
   "status": "proved",
   "theorems": [
    "Verif.Props.C101_passes_on",
    "Verif.Props.C101_measures",
    "Verif.Props.C101_spacing",
    "Verif.Props.C101_server",
    "Verif.Props.C101_told"
   ],
   "note": "The measurements assume that the browser fires `open` once and before the messages, as the WebSocket standard says."
  },
  {
   "property": "C102",
   "status": "partial",
   "theorems": [
    "Verif.Props.C102_result",
    "Verif.Props.C102_settles",
    "Verif.Props.C102_over",
    "Verif.Props.C102_value",
    "Verif.Props.C102_consent",
    "Verif.Props.C102_no_urls",
    "Verif.Props.C102_upload_code_false",
    "Verif.Props.C102_success_false",
    "Verif.Props.C102_upload_error",
    "Verif.Props.C102_server"
   ],
   "note": "Everything is proved but the last sentence, which is false and whose negation is proved: if no server can be had and the error callback returns, uploadTest gives 0 and test NaN (C102_upload_code_false, C102_no_urls); and when nothing at all was heard in 12 seconds the code is 0 although the comment in the source says that an error code is returned (C102_success_false)."
  },
  {
   "property": "C103",
   "status": "proved",
   "theorems": [
    "Verif.Props.C103_query",
    "Verif.Props.C103_urls",
    "Verif.Props.C103_accepted",
    "Verif.Props.C103_stored",
    "Verif.Props.C103_refused"
   ],
   "note": "The browser's URLSearchParams is modelled from the URL standard; that the browser sends the query string of the URL unchanged, and net/http hands it to the handler so, is trusted."
  },
  {
   "property": "C104",
   "status": "partial",
   "theorems": [
    "Verif.Props.C104_same",
    "Verif.Props.C104_ends",
    "Verif.Props.C104_server",
    "Verif.Props.C104_finishes",
    "Verif.Props.C104_hangs",
    "Verif.Props.C104_timeout_false"
   ],
   "note": "The promise of the comments is false: downloadComplete and uploadComplete read members of a measurement that may be missing; they then throw in the middle of worker.resolve, before the worker is terminated and the promise resolved. If the server was silent for 12 seconds, or closed the connection before there was a measurement, the page hangs and the upload is never begun (C104_timeout_false, C104_hangs). The rest is proved. What the page displays is not modelled."
  },
  {
   "property": "C105",
   "status": "partial",
   "theorems": [
    "Verif.Props.C105_known",
    "Verif.Props.C105_never",
    "Verif.Props.C105_results",
    "Verif.Props.C105_jitter",
    "Verif.Props.C105_phase",
    "Verif.Props.C105_shown",
    "Verif.Props.C105_latency_false",
    "Verif.Props.C105_ends_false",
    "Verif.Props.C105_upload_false",
    "Verif.Props.C105_progress",
    "Verif.Props.C105_dash",
    "Verif.Props.C105_speed",
    "Verif.Props.C105_speeds"
   ],
   "note": "Violated in three ways. The widget waits forever if the server ends the session early, since the client has no handler for the end of its connection (C105_ends_false). Latency and packet loss are always a dash, and the warnings of duplex mismatch, cable fault and congestion never appear, since they are made of variables that this server does not send (C105_never, C105_latency_false). The widget always asks for progress callbacks, so C99_upload_rate_false applies to its upload speed (C105_upload_false). The rest is proved; C105_jitter assumes no sample of zero (see C27). Modelled with a web worker; gauges and the table with all variables are not. Speeds: logarithms are exact and rates are whole numbers of kb/s; a rate of 0 kb/s is shown as `NaN undefined`."
  },
  {
   "property": "C106",
   "status": "partial",
   "theorems": [
    "Verif.Props.C106_ndt7_urls",
    "Verif.Props.C106_widget_urls",
    "Verif.Props.C106_answers",
    "Verif.Props.C106_ndt7_partial",
    "Verif.Props.C106_ndt7_elsewhere",
    "Verif.Props.C106_widget_partial",
    "Verif.Props.C106_ndt7_false",
    "Verif.Props.C106_widget_false"
   ],
   "note": "Violated in two ways. html/ndt7.html is also served at the ports of ndt5 (3001 and 3010), but loaded from there it looks for ndt7 at the same port, where it is not offered (C106_ndt7_false, C106_ndt7_elsewhere). With certificates from autocert the widget is served with TLS, but no server for ndt5 over secure websockets is started (C106_widget_false). Everything else is proved, with exactly what answers at each place. That the raw port forwards a websocket handshake unchanged is C11_get_forwarded. Whether the access controllers let a request pass is not part of it."
  },
  {
   "property": "C107",
   "status": "proved",
   "theorems": [
    "Verif.Props.C107_accepted",
    "Verif.Props.C107_wait",
    "Verif.Props.C107_timer",
    "Verif.Props.C107_paced",
    "Verif.Props.C107_record",
    "Verif.Props.C107_count"
   ],
   "note": "The ticker is a library (github.com/m-lab/go/memoryless): its check of the configuration, the clamping of the draw and the timer are modelled from its documented behaviour; timers do not fire early."
  },
  {
   "property": "C108",
   "status": "proved",
   "theorems": [
    "Verif.Props.C108_server",
    "Verif.Props.C108_asks",
    "Verif.Props.C108_first",
    "Verif.Props.C108_only",
    "Verif.Props.C108_no_results",
    "Verif.Props.C108_fails",
    "Verif.Props.C108_not_a_url"
   ],
   "note": "Callbacks of the user return; the answer is read with the JSON parser of the model, which is that of Go. C108_only also covers results that are not a list (an object with a member named 0), for which the choice is that member."
  },
  {
   "property": "C109",
   "status": "proved",
   "theorems": [
    "Verif.Props.C109_registered",
    "Verif.Props.C109_ndt5",
    "Verif.Props.C109_ndt7",
    "Verif.Props.C109_sender",
    "Verif.Props.C109_receiver",
    "Verif.Props.C109_bbr",
    "Verif.Props.C109_accept"
   ],
   "note": "What the library demands is the specification (Spec/Metrics), not a model of the library. The texts of the errors of the operating system, used as a label when BBR cannot be enabled, are assumed to be ASCII. Metrics that other modules register (Go runtime, access) are not in the list, so a clash of their names with these is not excluded."
  },
  {
   "property": "C110",
   "status": "proved",
   "theorems": [
    "Verif.Props.C110_ndt5",
    "Verif.Props.C110_ndt5_control",
    "Verif.Props.C110_ndt7",
    "Verif.Props.C110_refused",
    "Verif.Props.C110_pages"
   ],
   "note": "The negotiation inside gorilla/websocket is modelled from knowledge of the library, up to the taking over of the connection, which can fail. Which keys are valid is a parameter. Of the white space around offered subprotocols only that of ASCII is modelled. What browsers send is the specification FromBrowser."
  },
  {
   "property": "C111",
   "status": "proved",
   "theorems": [
    "Verif.Props.C111_reads_back",
    "Verif.Props.C111_record_reads_back",
    "Verif.Props.C111_digits_exist",
    "Verif.Props.C111_at_most_17_digits"
   ],
   "note": "The search for the shortest digits inside strconv is not modelled: that it finds shortest digits which are rounded to the number is the hypothesis ShortestDigits, shown to be satisfiable. The placing of point and exponent, the change that encoding/json makes to exponents, and reading (exact value, rounded as proved in Go/FloatSpec) are modelled from knowledge of the library."
  },
  {
   "property": "C112",
   "status": "partial",
   "theorems": [
    "Verif.Props.C112_no_statistics",
    "Verif.Props.C112_ndt7",
    "Verif.Props.C112_stop_never_returns",
    "Verif.Props.C112_stop_returns_false",
    "Verif.Props.C112_ndt5_hangs"
   ],
   "note": "Violated for ndt5: MeasureViaPolling returns a nil channel on these systems and StopMeasuring receives from it, which blocks forever. So every session with an upload or a download hangs after the ten seconds of the test; its record is never written and its control connection never closed (C112_ndt5_hangs: no session ends in which measuring began). Proved: ndt7 delivers measurements without statistics. The UUID library is not part of this: its failure is the fallback of C35."
  },
  {
   "property": "C113",
   "status": "proved",
   "theorems": [
    "Verif.Props.C113_ping_after_measurement",
    "Verif.Props.C113_ping_only_after_measurement",
    "Verif.Props.C113_as_many_pings",
    "Verif.Props.C113_failed_ping_ends"
   ],
   "note": "Between iterations of the loops and at every return."
  }
 ]
}