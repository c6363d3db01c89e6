import Verif.Ndt7.Measurer
import Verif.Ndt7.Receiver
import Verif.Ndt7.Results
import Verif.Ndt7.Sender

/-!
# A whole ndt7 subtest

`Do` of ndt7/download/download.go and ndt7/upload/upload.go with everything that runs during a subtest: the goroutine of the handler, which is in the sender and then
waits for the receiver; the goroutine of the receiver; the goroutines of the measurer and of its ticker. The steps of the goroutines are those of `Ndt7/Sender`, `Ndt7/Receiver` and
`Ndt7/Measurer`; here they share the channel of measurements, the contexts, the archival data and a clock.
-/

namespace Verif.Ndt7
open Verif.Go

/-- What a subtest is given. -/
structure TestCfg where
  kind : Subtest
  /-- `params` of the download -/
  params : Params := {}
  /-- what the measurer knows of the connection -/
  m : MConfig
  /-- `json.Unmarshal` into a measurement -/
  parse : Bytes → Option Measurement

/-- Where the goroutine of the handler is. -/
inductive TestPos
  /-- before the first `makePreparedMessage` (download/sender/sender.go:54) -/
  | prepare
  /-- before `SetWriteDeadline` (download/sender/sender.go:61-62, upload/sender/sender.go:34-35) -/
  | deadline
  /-- before `data.StartTime = time.Now().UTC()` (download/sender/sender.go:71, upload/sender/sender.go:44) -/
  | stamp
  /-- before the `select`, or before receiving from `src` -/
  | loop (s : DlState)
  /-- has received a measurement -/
  | got (s : DlState) (m : Measurement)
  /-- leaves the loop with this result: before the deferred `data.EndTime = time.Now().UTC()` -/
  | leaving (r : Option Err)
  /-- in the deferred `mr.Stop(src)` -/
  | stopping (r : Option Err)
  /-- at `<-recv.Done()` -/
  | waiting (r : Option Err)
  /-- `Do` returned -/
  | returned (r : Option Err)
  /-- the handler has written the result -/
  | written

/-- Where the goroutine of the receiver is. -/
inductive RxPos
  /-- before `SetReadDeadline` (receiver.go:37) -/
  | deadline
  /-- before the check of `receiverctx.Err()` (receiver.go:55) -/
  | top
  /-- reading and decoding a message (receiver.go:58-90) -/
  | reading
  /-- before the assignment of this list to `data.ClientMeasurements` (receiver.go:91) -/
  | appending (l : List Measurement)
  /-- `start` returned, before `cancel2()` -/
  | returned
  | exited

/-- The state of a subtest. -/
structure TestState where
  /-- the latest reading of the clock -/
  clock : Int := 0
  /-- the measurer, its ticker and the channel -/
  m : MState := {}
  pos : TestPos
  r : RxPos := .deadline
  /-- `ctx` has ended: `MaxRuntime` has passed, or the request was cancelled -/
  ctxDone : Bool := false
  /-- `cancel2` has been called -/
  cancelled : Bool := false
  /-- the own timeout of `receiverctx` has passed -/
  timedOut : Bool := false
  /-- `data.StartTime` and `data.EndTime` -/
  startTime : Int := 0
  endTime : Int := 0
  /-- `data.ServerMeasurements` -/
  server : List Measurement := []
  /-- `data.ClientMeasurements` -/
  client : List Measurement := []
  /-- what the sender did -/
  sent : List SendEv := []
  /-- what the receiver did -/
  heard : List RecvEv := []
  /-- what the handler found when it wrote the result -/
  file : Option SubtestEnd := none

/-- The steps. -/
inductive TAct
  /-- the measurer or its ticker -/
  | measurer (a : MAct)
  /-- the first `makePreparedMessage` -/
  | prepare (e : Option Err)
  /-- `SetWriteDeadline` -/
  | deadline (e : Option Err)
  /-- `data.StartTime = time.Now().UTC()` -/
  | stamp (now : Int)
  /-- receive a measurement -/
  | receive
  /-- send it, record it, send a ping, with these outcomes -/
  | output (json ping : Option Err)
  /-- the channel is closed -/
  | closed
  /-- nothing is ready: send a bulk message -/
  | bulk (write prepare : Option Err)
  /-- `data.EndTime = time.Now().UTC()` -/
  | finish (now : Int)
  /-- a step of `mr.Stop` -/
  | stopping (a : MAct)
  /-- `<-recv.Done()` returns -/
  | received
  /-- the handler writes the result -/
  | write
  | ctxEnd
  | receiverTimeout
  /-- `SetReadDeadline` -/
  | rxDeadline (e : Option Err)
  /-- the receiver finds its context alive -/
  | rxCheck
  /-- the receiver finds that its context has ended -/
  | rxExpired
  /-- the receiver gets the next message or an error, after these pongs -/
  | rxNext (pongs : List Pong) (i : Incoming)
  /-- `data.ClientMeasurements = append(…)` -/
  | rxAppend
  /-- `cancel2()` -/
  | rxCancel

/-- `recv.Done()` is closed (receiver.go:107-112). -/
def TestState.recvDone (s : TestState) : Bool := s.cancelled || s.ctxDone

/-- `receiverctx` has ended (receiver.go:35). -/
def TestState.rxDone (s : TestState) : Bool := s.recvDone || s.timedOut

/-- The steps of the goroutines of the measurer and of its ticker. -/
def MAct.own : MAct → Bool
  | .receive | .stop | .lookAtTicker | .cancelTicker | .drain | .drained => false
  | _ => true

/-- The steps of `Stop` (measurer.go:132-139) after it is called. -/
def MAct.ofStop : MAct → Bool
  | .lookAtTicker | .cancelTicker | .drain | .drained => true
  | _ => false

/-- The reading of the clock in a step. -/
def MAct.now : MAct → Option Int
  | .start n | .tickHand n | .tickBuffer n | .tickDrop n => some n
  | _ => none

/-- One iteration of the loop of the sender; the upload uses only the recorded measurements of the variables. -/
def sendStep (c : TestCfg) (s : DlState) (a : DlAns) : Iter SendEv DlState (Option Err) :=
  match c.kind with
  | .download => dlStep c.params s a
  | .upload =>
    match a with
    | .measurement m json ping => let x := ulStep s.recorded (.measurement m json ping); (x.1, { s with recorded := x.2.1 }, x.2.2)
    | .closed => let x := ulStep s.recorded .closed; (x.1, { s with recorded := x.2.1 }, x.2.2)
    | .bulk _ _ => ([], s, none)

/-- What the handler's goroutine does with the outcome of an iteration. -/
def TestState.iterated (s : TestState) (x : Iter SendEv DlState (Option Err)) : TestState :=
  { s with sent := s.sent ++ x.1, server := x.2.1.recorded,
           pos := match x.2.2 with
             | none => .loop x.2.1
             | some r => .leaving r }

/-- The variables of the loop at its beginning. -/
def loopStart : DlState := { size := 2 ^ 13, prepared := 2 ^ 13, totalSent := 0, recorded := [] }

/-- The steps of a subtest (download.go:18-32, upload.go:18-32, the senders, receiver.go:27-95 and 106-125, measurer.go:78-139, handler.go:117-145). `mr.Start` and the start of the receiver come
first, so both goroutines run from the beginning. A sender that fails before `StartTime` is set leaves both times at zero. -/
def testStep (c : TestCfg) (s : TestState) : TAct → Option TestState
  | .measurer a =>
    if a.own ∧ s.clock ≤ a.now.getD s.clock then (mStep c.m s.m a).map fun m => { s with m := m, clock := a.now.getD s.clock } else none
  | .prepare e => match s.pos, e with
    | .prepare, none => some { s with pos := .deadline, sent := s.sent ++ [.prepare (2 ^ 13) none] }
    | .prepare, some e => (mStep c.m s.m .stop).map fun m =>
        { s with m := m, pos := .stopping (some e), sent := s.sent ++ .prepare (2 ^ 13) (some e) :: leave c.kind "make-prepared-message" }
    | _, _ => none
  | .deadline e => match s.pos, e with
    | .deadline, none => some { s with pos := .stamp, sent := s.sent ++ [.setDeadline none] }
    | .deadline, some e => (mStep c.m s.m .stop).map fun m =>
        { s with m := m, pos := .stopping (some e), sent := s.sent ++ .setDeadline (some e) :: leave c.kind "set-write-deadline" }
    | _, _ => none
  | .stamp now => match s.pos with
    | .stamp => if s.clock ≤ now then some { s with clock := now, startTime := now, pos := .loop loopStart } else none
    | _ => none
  | .receive => match s.pos, s.m.m with
    | .loop l, .sending _ x => (mStep c.m s.m .receive).map fun m => { s with m := m, pos := .got l x }
    | _, _ => none
  | .output json ping => match s.pos with
    | .got l x => some (s.iterated (sendStep c l (.measurement x json ping)))
    | _ => none
  | .closed => match s.pos with
    | .loop l => if 0 < s.m.dstClosed then some (s.iterated (sendStep c l .closed)) else none
    | _ => none
  | .bulk write prepare => match s.pos, s.m.m, c.kind with
    | .loop _, .sending _ _, _ => none
    | .loop l, _, .download => if s.m.dstClosed = 0 then some (s.iterated (sendStep c l (.bulk write prepare))) else none
    | _, _, _ => none
  | .finish now => match s.pos with
    | .leaving r => if s.clock ≤ now then (mStep c.m s.m .stop).map fun m => { s with m := m, clock := now, endTime := now, pos := .stopping r } else none
    | _ => none
  | .stopping a => match s.pos with
    | .stopping r => if a.ofStop then (mStep c.m s.m a).map fun m => { s with m := m, pos := if m.s = .done then .waiting r else .stopping r } else none
    | _ => none
  | .received => match s.pos with
    | .waiting r => if s.recvDone then some { s with pos := .returned r } else none
    | _ => none
  | .write => match s.pos with
    | .returned r => some { s with pos := .written, file := some { err := r, startTime := s.startTime, endTime := s.endTime, serverMeasurements := s.server, clientMeasurements := s.client } }
    | _ => none
  | .ctxEnd => if s.ctxDone then none else some { s with ctxDone := true }
  | .receiverTimeout => if s.timedOut then none else some { s with timedOut := true }
  | .rxDeadline e => match s.r, e with
    | .deadline, none => some { s with r := .top, heard := s.heard ++ [.setDeadline none] }
    | .deadline, some e => some { s with r := .returned, heard := s.heard ++ [.setDeadline (some e), rxCount c.kind "set-read-deadline"] }
    | _, _ => none
  | .rxCheck => match s.r with
    | .top => if s.rxDone then none else some { s with r := .reading }
    | _ => none
  | .rxExpired => match s.r with
    | .top => if s.rxDone then some { s with r := .returned, heard := s.heard ++ (rxStep c.parse c.kind s.client .expired).1 } else none
    | _ => none
  | .rxNext pongs i => match s.r with
    | .reading =>
      let x := rxStep c.parse c.kind s.client (.next pongs i)
      some { s with heard := s.heard ++ x.1,
                    r := match x.2.2 with
                      | some _ => .returned
                      | none => if x.2.1.length = s.client.length then .top else .appending x.2.1 }
    | _ => none
  | .rxAppend => match s.r with
    | .appending l => some { s with r := .top, client := l }
    | _ => none
  | .rxCancel => match s.r with
    | .returned => some { s with r := .exited, cancelled := true }
    | _ => none

/-- A subtest. -/
def test (c : TestCfg) : LTS TestState TAct where
  init := { pos := match c.kind with
              | .download => .prepare
              | .upload => .deadline }
  step := testStep c

end Verif.Ndt7
