import Verif.Ndt7.Types
import Verif.Go.LTS

/-!
# The goroutines of an ndt7 subtest and the archival data

ndt7/download/download.go, ndt7/upload/upload.go (`Do`), ndt7/receiver/receiver.go (`StartDownloadReceiverAsync`,
`StartUploadReceiverAsync`) and the part of ndt7/handler/handler.go (`runMeasurement`) after `Do`. What the sender and the receiver do
besides writing to the archival data is in `Ndt7/Sender.lean` and `Ndt7/Receiver.lean`.
-/

namespace Verif.Ndt7
open Verif.Go

/-- Where the receiver goroutine is. -/
inductive RPos
  /-- before the check of `receiverctx.Err()` (receiver.go:55) -/
  | top
  /-- reading and decoding a message (receiver.go:58-90) -/
  | reading
  /-- at the `append` (receiver.go:91) -/
  | appending (m : Measurement)
  /-- `start` returned, before `cancel2()` -/
  | returned
  | exited

/-- Where the goroutine of the handler is. -/
inductive HPos
  /-- in `sender.Start` -/
  | sending
  /-- at `<-recv.Done()` -/
  | waiting
  /-- `Do` returned -/
  | returned
  /-- the result has been written -/
  | written
deriving DecidableEq

structure SubState where
  /-- `ctx` has ended: `MaxRuntime` has passed, or the request was cancelled -/
  ctxDone : Bool := false
  /-- `cancel2` has been called -/
  cancelled : Bool := false
  /-- the own timeout of `receiverctx` has passed -/
  timedOut : Bool := false
  r : RPos := .top
  h : HPos := .sending
  /-- `data.ServerMeasurements` -/
  server : List Measurement := []
  /-- `data.ClientMeasurements` -/
  client : List Measurement := []
  /-- what was written to the result file -/
  file : Option (List Measurement × List Measurement) := none

inductive SubAct
  | ctxEnd
  | receiverTimeout
  /-- the receiver looks at its context -/
  | check
  /-- a message is received and decoded -/
  | message (m : Measurement)
  /-- a message that is not recorded -/
  | skip
  /-- the receiver returns in the middle of an iteration -/
  | fail
  /-- `data.ClientMeasurements = append(…)` -/
  | append
  /-- `cancel2()` -/
  | cancel
  /-- the sender records a measurement -/
  | record (m : Measurement)
  /-- `sender.Start` returns -/
  | sent
  /-- `<-recv.Done()` returns -/
  | received
  /-- the result is written -/
  | write

/-- `recv.Done()` is closed: `ctx2` has ended, since it was cancelled or its parent `ctx` has ended. -/
def SubState.recvDone (s : SubState) : Bool := s.cancelled || s.ctxDone

/-- `receiverctx` has ended. -/
def SubState.rxDone (s : SubState) : Bool := s.recvDone || s.timedOut

/-- The steps of a subtest (download.go:19-35, upload.go:18-34, receiver.go:55-92 and 106-126, handler.go:117-145). -/
def subStep (s : SubState) : SubAct → Option SubState
  | .ctxEnd => if s.ctxDone then none else some { s with ctxDone := true }
  | .receiverTimeout => if s.timedOut then none else some { s with timedOut := true }
  | .check => match s.r with
    | .top => some { s with r := if s.rxDone then .returned else .reading }
    | _ => none
  | .message m => match s.r with
    | .reading => some { s with r := .appending m }
    | _ => none
  | .skip => match s.r with
    | .reading => some { s with r := .top }
    | _ => none
  | .fail => match s.r with
    | .reading => some { s with r := .returned }
    | _ => none
  | .append => match s.r with
    | .appending m => some { s with r := .top, client := s.client ++ [m] }
    | _ => none
  | .cancel => match s.r with
    | .returned => some { s with r := .exited, cancelled := true }
    | _ => none
  | .record m => match s.h with
    | .sending => some { s with server := s.server ++ [m] }
    | _ => none
  | .sent => match s.h with
    | .sending => some { s with h := .waiting }
    | _ => none
  | .received => match s.h with
    | .waiting => if s.recvDone then some { s with h := .returned } else none
    | _ => none
  | .write => match s.h with
    | .returned => some { s with h := .written, file := some (s.server, s.client) }
    | _ => none

/-- A subtest. -/
def subtest : LTS SubState SubAct := { init := {}, step := subStep }

end Verif.Ndt7
