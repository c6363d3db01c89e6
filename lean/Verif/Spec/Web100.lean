import Verif.Ndt5.Web100

/-!
# What RTT summaries and measurements should be

The names used here from the model are only the types of samples, of summaries and of the actions in an execution.
-/

namespace Verif.Spec
open Verif.Go Verif.Ndt5

/-- `x` is the largest element of `l`. -/
def IsLargest (l : List Nat) (x : Nat) : Prop := x ∈ l ∧ ∀ y ∈ l, y ≤ x

/-- `x` is the smallest element of `l`. -/
def IsSmallest (l : List Nat) (x : Nat) : Prop := x ∈ l ∧ ∀ y ∈ l, x ≤ y

/-- The RTT samples in microseconds. -/
def rtts (snaps : List Snap) : List Nat := snaps.map (·.rtt.toNat)

/-- The summary reports the number of samples, their sum, maximum and minimum in whole milliseconds and the counters of the last
sample. -/
structure CorrectSummary (snaps : List Snap) (m : Metrics) : Prop where
  count : m.countRTT.toNat = snaps.length
  sum : m.sumRTT.toNat = (rtts snaps).sum / 1000
  max : ∃ x, IsLargest (rtts snaps) x ∧ m.maxRTT.toNat = x / 1000
  min : ∃ x, IsSmallest (rtts snaps) x ∧ m.minRTT.toNat = x / 1000
  last : ∃ l ∈ snaps.getLast?, m.tcpInfo = l.info ∧ m.curMSS = l.sndMSS ∧ m.pktsOut = l.segsOut.toUInt32

/-- The samples that were read successfully, in order. -/
def successfulReads (as : List PollAct) : List Snap := as.filterMap fun | .read r => r | _ => none

/-- The number of readings taken, successful or not. -/
def readings (as : List PollAct) : Nat := as.countP fun | .read _ => true | _ => false

/-- The part of an execution after the measurement was first stopped. -/
def afterCancel (as : List PollAct) : List PollAct := as.dropWhile fun | .cancel => false | _ => true

/-- How many measurements were started. -/
def starts (as : List MeasAct) : Nat := as.countP fun | .start => true | _ => false

/-- The successful samples of the `k`-th measurement, counting from zero. -/
def samplesOf (k : Nat) (as : List MeasAct) : List Snap :=
  as.filterMap fun | .poll j (.read r) => if j = k then r else none | _ => none

/-- Has a stop been completed since the last start? -/
def stoppedAlready (as : List MeasAct) : Bool :=
  (as.reverse.takeWhile fun | .start => false | _ => true).any fun | .stopped => true | _ => false

/-- What stopping the measurement should return after `as`: the summary of the last start, unless nothing was started, nothing was
sampled or the measurement was already stopped. -/
def stopResult (as : List MeasAct) : Option Metrics :=
  if starts as = 0 ∨ stoppedAlready as then none else summarize (samplesOf (starts as - 1) as)

/-- The steps of the `k`-th polling goroutine itself. -/
def stepsOf (k : Nat) (as : List MeasAct) : Nat :=
  as.countP fun | .poll _ .cancel => false | .poll j _ => j = k | _ => false

end Verif.Spec
