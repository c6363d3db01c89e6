import Verif.Ndt7.Types
import Verif.Go.LTS

/-!
# ndt7/measurer/measurer.go

The goroutine of the measurer, the goroutine of the ticker of github.com/m-lab/go/memoryless that it creates, and the sender, which
receives measurements and in the end calls `Stop`. Everything runs concurrently.
-/

namespace Verif.Ndt7
open Verif.Go Verif.Ndt5 Verif.Netx

/-- `measure` and the next statement of the loop (measurer.go:61-76 and 109-111). `info` is the outcome of `ci.ReadInfo`, `elapsed` is
in nanoseconds. -/
def measure (conn : ConnectionInfo) (elapsed : Int) (info : Except Err (BbrInfo × TcpInfo)) : Measurement :=
  let t := Int.tdiv elapsed 1000
  match info with
  | .error _ => { conn := some conn }
  | .ok (b, c) => { conn := some conn, bbr := some { info := b, elapsed := t }, tcp := some { info := c, elapsed := t } }

/-- Where the goroutine of the measurer is. Times are nanoseconds. -/
inductive MPos
  /-- before `start := time.Now()` -/
  | setup
  /-- before `memoryless.NewTicker` -/
  | started (start : Int)
  /-- before `m.ticker = ticker` -/
  | made (start : Int)
  /-- receiving from `ticker.C` -/
  | ranging (start : Int)
  /-- got a tick -/
  | have (start now : Int)
  /-- at `dst <- measurement` -/
  | sending (start : Int) (m : Measurement)
  | exited

/-- Where the goroutine of the ticker is. -/
inductive TPos
  /-- not created -/
  | none
  /-- before the check that its context has not ended -/
  | check
  /-- waiting for the timer or the end of the context -/
  | waiting
  | exited
deriving DecidableEq

/-- Where the sender is. -/
inductive SPos
  /-- in its loop -/
  | running
  /-- `Stop` has been called, before `if m.ticker != nil` -/
  | stopping
  /-- before `m.ticker.Stop()` -/
  | cancelling
  /-- in `for range src` -/
  | draining
  /-- `Stop` returned -/
  | done
deriving DecidableEq

/-- The state of the three goroutines. -/
structure MState where
  /-- the last reading of the clock -/
  clock : Int := 0
  /-- `measurerctx` has ended: timeout, end of `ctx`, or `cancel()` -/
  expired : Bool := false
  /-- `ticker.Stop()` has been called -/
  stopped : Bool := false
  m : MPos := .setup
  t : TPos := .none
  s : SPos := .running
  /-- `m.ticker` is not nil -/
  ticker : Bool := false
  /-- the ticks in the buffer of `ticker.C` -/
  buf : List Int := []
  /-- how often `ticker.C` has been closed -/
  tickClosed : Nat := 0
  /-- how often `dst` has been closed -/
  dstClosed : Nat := 0
  /-- what the loop of the sender received -/
  delivered : List Measurement := []
  /-- what `Stop` received and dropped -/
  drained : List Measurement := []

/-- The steps. -/
inductive MAct
  /-- the timeout or the end of the parent context -/
  | expire
  /-- `start := time.Now()` -/
  | start (now : Int)
  /-- `memoryless.NewTicker` -/
  | newTicker (ok : Bool)
  /-- `m.ticker = ticker` -/
  | assign
  /-- receive a buffered tick -/
  | take
  /-- `measure` -/
  | measure (info : Except Err (BbrInfo × TcpInfo))
  /-- `ticker.C` is closed and empty: leave the loop and the function -/
  | exit
  /-- the ticker finds its context alive or ended -/
  | check
  /-- the ticker stops waiting since its context has ended -/
  | wakeUp
  /-- the timer fires and the tick is passed to the measurer directly -/
  | tickHand (now : Int)
  /-- the timer fires and the tick goes to the buffer -/
  | tickBuffer (now : Int)
  /-- the timer fires and the tick is lost -/
  | tickDrop (now : Int)
  /-- the sender receives a measurement in its loop -/
  | receive
  /-- the sender calls `Stop` -/
  | stop
  /-- `if m.ticker != nil` -/
  | lookAtTicker
  /-- `m.ticker.Stop()` -/
  | cancelTicker
  /-- `Stop` receives a measurement -/
  | drain
  /-- `Stop` finds the channel closed and returns -/
  | drained

/-- The context of the ticker has ended. -/
def MState.over (s : MState) : Bool := s.expired || s.stopped

/-- What the connection information holds (measurer.go:90-95). -/
structure MConfig where
  client : Bytes
  server : Bytes
  uuid : Bytes
  /-- capacity of `ticker.C` -/
  cap : Nat

/-- The value of `connectionInfo`. -/
def MConfig.conn (c : MConfig) (start : Int) : ConnectionInfo := { client := c.client, server := c.server, uuid := c.uuid, startTime := start }

/-- `loop` (measurer.go:78-114), `Stop` (measurer.go:132-139), and the ticker (memoryless.go: `runTicker`, `singleIteration`, `Stop`;
the library is not part of the repository). `getSocketAndPossiblyEnableBBR` never fails (measurer.go:45-59). The clock is monotonic.
The sender may receive from the channel or call `Stop` at any time. -/
def mStep (c : MConfig) (s : MState) : MAct → Option MState
  | .expire => if s.expired then none else some { s with expired := true }
  | .start now => match s.m with
    | .setup => if s.clock ≤ now then some { s with clock := now, m := .started now } else none
    | _ => none
  | .newTicker ok => match s.m with
    | .started st => if ok then some { s with m := .made st, t := .check }
        else some { s with m := .exited, expired := true, dstClosed := s.dstClosed + 1 }
    | _ => none
  | .assign => match s.m with
    | .made st => some { s with m := .ranging st, ticker := true }
    | _ => none
  | .take => match s.m, s.buf with
    | .ranging st, now :: rest => some { s with m := .have st now, buf := rest }
    | _, _ => none
  | .measure info => match s.m with
    | .have st now => some { s with m := .sending st (measure (c.conn st) (now - st) info) }
    | _ => none
  | .exit => match s.m, s.buf with
    | .ranging _, [] => if 0 < s.tickClosed then some { s with m := .exited, expired := true, dstClosed := s.dstClosed + 1 } else none
    | _, _ => none
  | .check => match s.t with
    | .check => if s.over then some { s with t := .exited, tickClosed := s.tickClosed + 1 } else some { s with t := .waiting }
    | _ => none
  | .wakeUp => match s.t with
    | .waiting => if s.over then some { s with t := .check } else none
    | _ => none
  | .tickHand now => match s.t, s.m, s.buf with
    | .waiting, .ranging st, [] => if s.clock ≤ now then some { s with clock := now, t := .check, m := .have st now } else none
    | _, _, _ => none
  | .tickBuffer now => match s.t with
    | .waiting => if s.clock ≤ now ∧ s.buf.length < c.cap then some { s with clock := now, t := .check, buf := s.buf ++ [now] } else none
    | _ => none
  | .tickDrop now => match s.t with
    | .waiting => if s.clock ≤ now ∧ c.cap ≤ s.buf.length then some { s with clock := now, t := .check } else none
    | _ => none
  | .receive => match s.m, s.s with
    | .sending st m, .running => some { s with m := .ranging st, delivered := s.delivered ++ [m] }
    | _, _ => none
  | .stop => match s.s with
    | .running => some { s with s := .stopping }
    | _ => none
  | .lookAtTicker => match s.s with
    | .stopping => some { s with s := if s.ticker then .cancelling else .draining }
    | _ => none
  | .cancelTicker => match s.s with
    | .cancelling => some { s with s := .draining, stopped := true }
    | _ => none
  | .drain => match s.m, s.s with
    | .sending st m, .draining => some { s with m := .ranging st, drained := s.drained ++ [m] }
    | _, _ => none
  | .drained => match s.s with
    | .draining => if 0 < s.dstClosed then some { s with s := .done } else none
    | _ => none

/-- The measurer, its ticker and the sender. -/
def measurer (c : MConfig) : LTS MState MAct := { init := {}, step := mStep c }

end Verif.Ndt7
