import Verif.Ndt5.World
import Verif.Ndt7.Handler
import Verif.Ndt7.Sender
import Verif.Ndt7.Receiver

/-!
# The metrics of the process and what is counted in them

Package variables made with `promauto`, which registers them when the process starts and panics if that fails. The metrics of other modules (Go's runtime, `access`) are not in this list.
-/

namespace Verif.Main
open Verif.Go

/-- The kinds of metrics. -/
inductive MetricKind
  | counter
  | gauge
  /-- with the upper bounds of its buckets -/
  | histogram (buckets : List Rat)

/-- The declaration of a metric. -/
structure Metric where
  name : Bytes
  kind : MetricKind
  labels : List Bytes

/-- The buckets of `ndt5_control_channel_duration` (ndt5/metrics/metrics.go:16-20). -/
def durationBuckets : List Rat := [1/10, 15/100, 25/100, 4/10, 6/10, 1, 15/10, 25/10, 4, 6, 10, 15, 25, 40, 60, 100, 150]

/-- The buckets of `ndt_test_rate_mbps` (metrics/metrics.go:23-28). -/
def rateBuckets : List Rat := durationBuckets ++ [250, 400, 600, 1000]

/-- All metrics: ndt5/metrics/metrics.go:11-107, ndt7/metrics/metrics.go:12-41, metrics/metrics.go:10-31, ndt7/measurer/measurer.go:21-27, netx/net.go:24-29, ndt-server.go:63-66. -/
def registry : List Metric :=
  [⟨str "ndt5_control_channel_duration", .histogram durationBuckets, [str "protocol"]⟩,
   ⟨str "ndt5_control_panic_total", .counter, [str "protocol", str "error"]⟩,
   ⟨str "ndt5_control_total", .counter, [str "protocol", str "result"]⟩,
   ⟨str "ndt5_measurementserver_start_total", .counter, [str "protocol"]⟩,
   ⟨str "ndt5_measurementserver_accept_total", .counter, [str "protocol", str "direction"]⟩,
   ⟨str "ndt5_measurementserver_stop_total", .counter, [str "protocol"]⟩,
   ⟨str "ndt5_sniffed_ws_total", .counter, []⟩,
   ⟨str "ndt5_client_requested_suites_total", .counter, [str "protocol", str "suite"]⟩,
   ⟨str "ndt5_client_test_requested_total", .counter, [str "protocol", str "direction"]⟩,
   ⟨str "ndt5_forwarding_timeouts_total", .counter, []⟩,
   ⟨str "ndt5_client_test_results_total", .counter, [str "protocol", str "direction", str "result"]⟩,
   ⟨str "ndt5_client_test_errors_total", .counter, [str "protocol", str "direction", str "error"]⟩,
   ⟨str "ndt5_submitted_meta_values", .histogram ((List.range 21).map fun n : Nat => (n : Rat)), []⟩,
   ⟨str "ndt7_client_connections_total", .counter, [str "direction", str "status"]⟩,
   ⟨str "ndt7_client_test_results_total", .counter, [str "protocol", str "direction", str "result"]⟩,
   ⟨str "ndt7_client_sender_errors_total", .counter, [str "protocol", str "direction", str "error"]⟩,
   ⟨str "ndt7_client_receiver_errors_total", .counter, [str "protocol", str "direction", str "error"]⟩,
   ⟨str "ndt_active_tests", .gauge, [str "protocol"]⟩,
   ⟨str "ndt_test_rate_mbps", .histogram rateBuckets, [str "protocol", str "direction", str "monitoring"]⟩,
   ⟨str "ndt7_measurer_bbr_enabled_total", .counter, [str "status", str "error"]⟩,
   ⟨str "netx_current_open_conns", .gauge, []⟩,
   ⟨str "lame_duck_experiment", .gauge, []⟩]

/-- A use of a metric: its name, and the arguments of `WithLabelValues`. -/
structure Sample where
  metric : Bytes
  values : List Bytes

/-- The metric that an ndt5 session uses (the lines are those at the constructors of `Note`); none for notes that are no uses of metrics. -/
def ndt5Sample : Ndt5.Note → Option Sample
  | .activeTests label _ => some ⟨str "ndt_active_tests", [label]⟩
  | .duration label _ => some ⟨str "ndt5_control_channel_duration", [label]⟩
  | .panicCount label e => some ⟨str "ndt5_control_panic_total", [label, e]⟩
  | .controlCount label r => some ⟨str "ndt5_control_total", [label, r]⟩
  | .testError label d e => some ⟨str "ndt5_client_test_errors_total", [label, d, e]⟩
  | .requested label t => some ⟨str "ndt5_client_test_requested_total", [label, t]⟩
  | .suite label s => some ⟨str "ndt5_client_requested_suites_total", [label, s]⟩
  | .testRate label d mon _ => some ⟨str "ndt_test_rate_mbps", [label, d, mon]⟩
  | .testResult label d r => some ⟨str "ndt5_client_test_results_total", [label, d, r]⟩
  | .metaValues _ => some ⟨str "ndt5_submitted_meta_values", []⟩
  | .serverStart k => some ⟨str "ndt5_measurementserver_start_total", [k]⟩
  | .serverStop k => some ⟨str "ndt5_measurementserver_stop_total", [k]⟩
  | .closeListener _ => none
  | .closeLater _ => none

/-- The metric that an ndt7 request uses. -/
def ndt7Sample : Ndt7.Note → Option Sample
  | .connection kind status => some ⟨str "ndt7_client_connections_total", [kind, status]⟩
  | .testResult proto kind result => some ⟨str "ndt7_client_test_results_total", [proto, kind, result]⟩
  | .testRate proto kind mon _ => some ⟨str "ndt_test_rate_mbps", [proto, kind, mon]⟩
  | _ => none

/-- The metric that a sender uses (ndt7/download/sender/sender.go:57-135, ndt7/upload/sender/sender.go:39-69); `addr` is the text of the local address. -/
def senderSample (addr : Bytes) : Ndt7.SendEv → Option Sample
  | .count d r => some ⟨str "ndt7_client_sender_errors_total", [Ndt7.ndt7Label addr, d, r]⟩
  | _ => none

/-- The metric that a receiver uses (ndt7/receiver/receiver.go:40-94). -/
def receiverSample (addr : Bytes) : Ndt7.RecvEv → Option Sample
  | .count d r => some ⟨str "ndt7_client_receiver_errors_total", [Ndt7.ndt7Label addr, d, r]⟩
  | _ => none

/-- The metric that a measurer uses when it enables BBR (ndt7/measurer/measurer.go:44-59), with the error of `EnableBBR`. -/
def bbrSample (err : Option Err) : Sample :=
  ⟨str "ndt7_measurer_bbr_enabled_total", [if err.isSome then str "false" else str "true", err.getD []]⟩

/-- The metric that a test server of ndt5 uses when its client has come (ndt5/singleserving/server.go:79, 198). -/
def acceptSample (kind : Ndt5.Kind) (direction : Bytes) : Sample := ⟨str "ndt5_measurementserver_accept_total", [kind.name, direction]⟩

end Verif.Main
