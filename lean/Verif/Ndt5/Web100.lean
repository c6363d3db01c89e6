import Verif.Ndt5.World
import Verif.Go.LTS

/-!
# ndt5/web100/web100_linux.go and the measurer of ndt5/protocol/protocol.go
-/

namespace Verif.Ndt5
open Verif.Go

/-- `tcp.LinuxTCPInfo` as `summarize` reads it: `RTT` in microseconds, `SndMSS`, `SegsOut` (an int32) and the rest. -/
structure Snap where
  rtt : UInt32 := 0
  sndMSS : UInt32 := 0
  segsOut : Int32 := 0
  info : TcpInfo := {}

/-- The local variables of `summarize`, web100_linux.go:17-20. -/
structure RttAcc where
  sum : UInt32 := 0
  count : UInt32 := 0
  max : UInt32 := 0
  min : UInt32 := 0
deriving DecidableEq

/-- The loop body of `summarize`, web100_linux.go:22-29, with uint32 arithmetic. -/
def RttAcc.add (a : RttAcc) (s : Snap) : RttAcc where
  count := a.count + 1
  sum := a.sum + s.rtt
  min := if s.rtt < a.min ∨ a.min = 0 then s.rtt else a.min
  max := if s.rtt > a.max then s.rtt else a.max

/-- `summarize`, web100_linux.go:13-51. `none` stands for the error "zero-length list of data collected". -/
def summarize (snaps : List Snap) : Option Metrics :=
  match snaps.getLast? with
  | none => none
  | some last =>
    let a := snaps.foldl RttAcc.add {}
    some {
      tcpInfo := last.info
      minRTT := a.min / 1000
      maxRTT := a.max / 1000
      sumRTT := a.sum / 1000
      countRTT := a.count
      curMSS := last.sndMSS
      pktsOut := last.segsOut.toUInt32 }

/-! ## The polling goroutine -/

/-- Where the goroutine of `MeasureViaPolling` stands: at the loop condition (web100_linux.go:67), at `ReadInfo` (69), at the
receive from the ticker (67), at the send of the summary (92), at `close(c)` (94), ended. -/
inductive PollPc
  | check | read | tick | send (m : Metrics) | close | ended

/-- The polling goroutine, its context and its result channel (web100_linux.go:53-96). -/
structure Poll where
  pc : PollPc := .check
  /-- `ctx.Err() != nil` -/
  cancelled : Bool := false
  /-- `snaps` -/
  snaps : List Snap := []
  /-- the element in the buffer of the channel of capacity 1 -/
  buf : Option Metrics := none
  closed : Bool := false

/-- Steps of the polling goroutine and of its context. -/
inductive PollAct
  /-- the context is cancelled, by `StopMeasuring` or because the parent context ends -/
  | cancel
  /-- the loop condition is evaluated -/
  | check
  /-- `ReadInfo` returns a snapshot or fails -/
  | read (r : Option Snap)
  /-- the ticker fires and the goroutine receives the tick -/
  | tick
  /-- `c <- summary` -/
  | send
  /-- `close(c)` -/
  | close

/-- One step, web100_linux.go:67-76 and 90-94. After the loop the summary is computed and, without an error, sent. -/
def Poll.step (p : Poll) : PollAct → Option Poll
  | .cancel => some { p with cancelled := true }
  | .check => match p.pc with
    | .check =>
      if p.cancelled then
        match summarize p.snaps with
        | some m => some { p with pc := .send m }
        | none => some { p with pc := .close }
      else some { p with pc := .read }
    | _ => none
  | .read r => match p.pc with
    | .read => some { p with pc := .tick, snaps := p.snaps ++ r.toList }
    | _ => none
  | .tick => match p.pc with
    | .tick => some { p with pc := .check }
    | _ => none
  | .send => match p.pc with
    | .send m => if p.buf.isNone then some { p with pc := .close, buf := some m } else none
    | _ => none
  | .close => match p.pc with
    | .close => some { p with pc := .ended, closed := true }
    | _ => none

/-- `MeasureViaPolling` in isolation. -/
def polling : LTS Poll PollAct where
  init := {}
  step := Poll.step

/-! ## The measurer -/

/-- `measurer` (protocol.go:131-168) used by one goroutine: all polling goroutines it started, in order of their start, which one
its `summaryC` and `cancel` belong to (`none` after `newMeasurer`: a closed channel and a function doing nothing), whether
`StopMeasuring` is waiting for `summaryC`, and what the calls of `StopMeasuring` returned so far (`none`: an error). -/
structure Measurer where
  polls : List Poll := []
  current : Option Nat := none
  stopping : Bool := false
  returned : List (Option Metrics) := []

/-- Steps. -/
inductive MeasAct
  /-- `StartMeasuring` (protocol.go:147-150) -/
  | start
  /-- `StopMeasuring` calls `cancel` (protocol.go:153) -/
  | stop
  /-- `StopMeasuring` receives from `summaryC` and returns a summary, or an error if it received nil (protocol.go:154-158) -/
  | stopped
  /-- a step of the `k`-th polling goroutine, or the end of its context -/
  | poll (k : Nat) (a : PollAct)

/-- What receiving from the channel of a polling goroutine yields: `none` while it blocks; `some none` is the nil of a closed
channel. -/
def Poll.recv (p : Poll) : Option (Option Metrics × Poll) :=
  match p.buf with
  | some m => some (some m, { p with buf := none })
  | none => if p.closed then some (none, p) else none

/-- One step. `StartMeasuring` and `StopMeasuring` are called one after the other, as all callers do. -/
def Measurer.step (s : Measurer) : MeasAct → Option Measurer
  | .start => if s.stopping then none else some { s with polls := s.polls ++ [{}], current := some s.polls.length }
  | .stop =>
    if s.stopping then none
    else
      match s.current with
      | none => some { s with stopping := true }
      | some k => some { s with stopping := true, polls := s.polls.modify k fun p => { p with cancelled := true } }
  | .stopped =>
    if s.stopping then
      match s.current with
      | none => some { s with stopping := false, returned := s.returned ++ [none] }
      | some k =>
        match s.polls[k]? with
        | none => none
        | some p => p.recv.map fun x =>
          { s with stopping := false, polls := s.polls.set k x.2, returned := s.returned ++ [x.1] }
    else none
  | .poll k a =>
    match s.polls[k]? with
    | none => none
    | some p => (p.step a).map fun p' => { s with polls := s.polls.set k p' }

/-- A measurer from `newMeasurer` (protocol.go:141-145) on. -/
def measurer : LTS Measurer MeasAct where
  init := {}
  step := Measurer.step

end Verif.Ndt5
