import Verif.Go.LTS
import Verif.Netx.Info

/-!
# Systems other than Linux: bbr/bbr_stub.go, tcpinfox/tcpinfox_stub.go, ndt5/web100/web100_stub.go
-/

namespace Verif.Netx.Other
open Verif.Go Verif.Ndt5

/-- `enableBBR`, bbr_stub.go:11-13. -/
def enableBBR : Option KErr := some .noSupport

/-- `getMaxBandwidthAndMinRTT`, bbr_stub.go:15-17. -/
def getBBRInfo : BbrInfo × Option KErr := ({}, some .noSupport)

/-- `getTCPInfo`, tcpinfox_stub.go:11-13. -/
def getTCPInfo : TcpInfo × Option KErr := ({}, some .noSupport)

/-- `Conn.ReadInfo`, net.go:128-138, with these. -/
def readInfo : BbrInfo × TcpInfo × Option KErr :=
  let (bbrinfo, err) := getBBRInfo
  let bbrinfo := if err.isSome then {} else bbrinfo
  let (tcpInfo, err) := getTCPInfo
  match err with
  | some e => ({}, {}, some e)
  | none => (bbrinfo, tcpInfo, none)

end Verif.Netx.Other

namespace Verif.Ndt5.Other
open Verif.Go Verif.Ndt5

/-- The field `summaryC` of a measurer: the closed channel of `newMeasurer` (protocol.go:137-145), or what `MeasureViaPolling` returned. -/
inductive Chan
  | closed
  /-- a nil channel: receiving from it blocks forever -/
  | nil
  deriving DecidableEq, Repr

/-- `MeasureViaPolling`, web100_stub.go:13-16. -/
def measureViaPolling : Chan := .nil

/-- `measurer` (protocol.go:131-168) on these systems: its channel, whether `StopMeasuring` waits for it, and how often `StopMeasuring` has returned. -/
structure Measurer where
  summaryC : Chan := .closed
  stopping : Bool := false
  returned : Nat := 0
  deriving DecidableEq, Repr

/-- Steps. -/
inductive Act
  /-- `StartMeasuring` (protocol.go:151-155) -/
  | start
  /-- `StopMeasuring` cancels the context (protocol.go:161) -/
  | stop
  /-- `StopMeasuring` receives nil from its channel and returns an error (protocol.go:163-166) -/
  | stopped
  deriving DecidableEq, Repr

/-- One step. `StartMeasuring` and `StopMeasuring` are called one after the other, as all callers do. -/
def Measurer.step (s : Measurer) : Act → Option Measurer
  | .start => if s.stopping then none else some { s with summaryC := measureViaPolling }
  | .stop => if s.stopping then none else some { s with stopping := true }
  | .stopped =>
    if s.stopping then
      match s.summaryC with
      | .closed => some { s with stopping := false, returned := s.returned + 1 }
      | .nil => none
    else none

/-- A measurer from `newMeasurer` (protocol.go:141-145) on. -/
def measurer : LTS Measurer Act where
  init := {}
  step := Measurer.step

end Verif.Ndt5.Other
