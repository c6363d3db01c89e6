import Verif.Spec.Control

/-!
# The labels of the ndt5 counters

Every text by which ndt5 counters tell things apart, written out.
-/

namespace Verif.Spec
open Verif.Go Verif.Ndt5

/-- The two tests that measure a rate. -/
def rateTests : List Bytes := [str "c2s", str "s2c"]

/-- The tests a client can request besides the mandatory status, in the order in which a suite lists them. -/
def testNames : List Bytes := [str "mid", str "c2s", str "s2c", str "sfw", str "meta"]

/-- The four labels of results. -/
def resultTexts : List Bytes :=
  [str "okay-with-rate", str "okay-without-rate", str "error-with-rate", str "error-without-rate"]

/-- The labels of errors, for each part of a session. -/
def errorTexts : List (Bytes × List Bytes) :=
  [(str "control", [str "LoginCeremony", str "TestStatus"]),
   (str "c2s", [str "StartSingleServingServer", str "TestPrepare", str "ServeOnce", str "TestStart", str "Drain", str "EarlyExit",
      str "TestMsg", str "TestFinalize"]),
   (str "s2c", [str "StartSingleServingServer", str "TestPrepare", str "ServeOnce", str "TestStart", str "web100Metrics",
      str "TestMsgSend", str "TestMsgRcv", str "SendMetricsLegacy", str "SendMetricsArchival", str "TestFinalize"]),
   (str "meta", [str "TestPrepare", str "TestStart", str "context", str "ReceiveMessage", str "TestFinalize"])]

/-- Suites: `status`, then some of the tests, joined by hyphens. -/
def IsSuite (s : Bytes) : Prop := ∃ tests : List Bytes, tests.Sublist testNames ∧ s = str "status" ++ (tests.map (45 :: ·)).flatten

/-- The counter update carries only labels from the fixed lists, and the protocol and monitoring flag of this server. -/
def FixedLabels (kind : Kind) (isMon : Bytes) : Note → Prop
  | .activeTests label _ => label = labelText kind
  | .duration label _ => label = labelText kind
  | .panicCount label error => label = labelText kind ∧ error ∈ panicLabels
  | .controlCount label result => label = labelText kind ∧ result ∈ [str "okay", str "panic"]
  | .testError label direction error => label = labelText kind ∧ ∃ errors, (direction, errors) ∈ errorTexts ∧ error ∈ errors
  | .requested label test => label = labelText kind ∧ test ∈ testNames
  | .suite label suite => label = labelText kind ∧ IsSuite suite
  | .testRate label direction monitoring _ => label = labelText kind ∧ direction ∈ rateTests ∧ monitoring = isMon
  | .testResult label direction result => label = labelText kind ∧ direction ∈ rateTests ∧ result ∈ resultTexts
  | .serverStart protocol => protocol = protocolText kind
  | .serverStop protocol => protocol = protocolText kind
  | .metaValues _ => True
  | .closeListener _ => True
  | .closeLater _ => True

end Verif.Spec
