import Verif.Go.Bytes
import Verif.Go.LTS

/-!
# ndt5/plain/plain.go: forwarding of websocket clients and the accept loop
-/

namespace Verif.Ndt5
open Verif.Go

/-! ## Forwarding (plain.go:62-112) -/

/-- One `io.Copy` (plain.go:80 and 85): reading, writing what was read, or ended with `wg.Done()` called. The optimisations of `io.Copy`
(`WriteTo`, `ReadFrom`) move the same bytes in the same order. -/
inductive CopyPc | read | write (data : Bytes) | ended
deriving DecidableEq, Repr

/-- Where `sniffThenHandle` stands: at `<-ctx.Done()` (106), at the check of the error (107-110), at `fwd.Close()` (111), at the
deferred `cancel` (54), at the deferred `conn.Close()` (51), returned. -/
inductive FwdPc | wait | report | closeFwd | cancel | closeConn | returned
deriving DecidableEq, Repr

/-- How a context ended. -/
inductive CtxEnd | cancelled | deadline
deriving DecidableEq, Repr

/-- A forwarded connection after the dial succeeded. -/
structure Forward where
  /-- client to upstream -/
  inbound : CopyPc := .read
  /-- upstream to client -/
  outbound : CopyPc := .read
  /-- has the goroutine of 89-92 called `cancel` -/
  waited : Bool := false
  ctx : Option CtxEnd := none
  pc : FwdPc := .wait
  connOpen : Bool := true
  fwdOpen : Bool := true
  connCloses : Nat := 0
  fwdCloses : Nat := 0
  /-- `ClientForwardingTimeouts` -/
  timeouts : Nat := 0
  /-- what was written to upstream -/
  up : Bytes := []
  /-- what was written to the client -/
  down : Bytes := []
deriving DecidableEq, Repr

/-- Steps of the five goroutines and of the environment. -/
inductive FwdAct
  /-- reading from the client (or the buffer) yields data -/
  | inData (data : Bytes)
  /-- reading from the client ends or fails -/
  | inEnd
  /-- writing to upstream works; only while it is open -/
  | inWrite
  /-- writing to upstream fails after `n` bytes -/
  | inWriteFails (n : Nat)
  /-- the same four for the other direction -/
  | outData (data : Bytes)
  | outEnd
  | outWrite
  | outWriteFails (n : Nat)
  /-- `wg.Wait()` returns and `cancel()` is called (90-91) -/
  | waiter
  /-- the timeout of two minutes -/
  | deadline
  /-- shutdown of the server -/
  | shutdown
  /-- the next step of `sniffThenHandle` -/
  | main
deriving DecidableEq, Repr

/-- A context ends once. -/
def Forward.endCtx (s : Forward) (e : CtxEnd) : Forward := { s with ctx := some (s.ctx.getD e) }

/-- One step. Data may come from the client's buffer even after the connection is closed; from upstream only while it is open. -/
def Forward.step (s : Forward) : FwdAct → Option Forward
  | .inData d => if s.inbound = .read then some { s with inbound := .write d } else none
  | .inEnd => if s.inbound = .read then some { s with inbound := .ended } else none
  | .inWrite => match s.inbound with
    | .write d => if s.fwdOpen then some { s with inbound := .read, up := s.up ++ d } else none
    | _ => none
  | .inWriteFails n => match s.inbound with
    | .write d => some { s with inbound := .ended, up := s.up ++ d.take (if s.fwdOpen then n else 0) }
    | _ => none
  | .outData d => if s.outbound = .read ∧ s.fwdOpen then some { s with outbound := .write d } else none
  | .outEnd => if s.outbound = .read then some { s with outbound := .ended } else none
  | .outWrite => match s.outbound with
    | .write d => if s.connOpen then some { s with outbound := .read, down := s.down ++ d } else none
    | _ => none
  | .outWriteFails n => match s.outbound with
    | .write d => some { s with outbound := .ended, down := s.down ++ d.take (if s.connOpen then n else 0) }
    | _ => none
  | .waiter =>
    if s.inbound = .ended ∧ s.outbound = .ended ∧ s.waited = false then some ({ s with waited := true }.endCtx .cancelled) else none
  | .deadline => some (s.endCtx .deadline)
  | .shutdown => some (s.endCtx .cancelled)
  | .main => match s.pc with
    | .wait => if s.ctx.isSome then some { s with pc := .report } else none
    | .report => some { s with pc := .closeFwd, timeouts := s.timeouts + if s.ctx = some .deadline then 1 else 0 }
    | .closeFwd => some { s with pc := .cancel, fwdOpen := false, fwdCloses := s.fwdCloses + 1 }
    | .cancel => some ({ s with pc := .closeConn }.endCtx .cancelled)
    | .closeConn => some { s with pc := .returned, connOpen := false, connCloses := s.connCloses + 1 }
    | .returned => none

/-- `sniffThenHandle` for a client that starts with "GET", from the successful dial on. -/
def forwarding : LTS Forward FwdAct where
  init := {}
  step := Forward.step

/-! ## The accept loop (plain.go:147-166) -/

/-- The goroutine of one connection (151-163): in `sniffThenHandle`, after its body (crashed or not) at the deferred `conn.Close()`
(51), at the deferred function with `recover` (153-160), ended. -/
inductive ServePc | handling | closing (crashed : Bool) | recovering (crashed : Bool) | ended
deriving DecidableEq, Repr

/-- One accepted connection. -/
structure RawConn where
  pc : ServePc := .handling
  /-- how often `Close` was called on it -/
  closes : Nat := 0
  recovered : Bool := false
deriving DecidableEq, Repr

/-- At the loop condition (148), in `Accept` (149), with an accepted connection before the `go` statement (154), ended. -/
inductive LoopPc | check | accept | spawn | ended
deriving DecidableEq, Repr

/-- The raw port. -/
structure RawPort where
  pc : LoopPc := .check
  ctxDone : Bool := false
  listenerOpen : Bool := true
  conns : List RawConn := []
  /-- how many connections `Accept` returned -/
  accepted : Nat := 0
  /-- did a panic reach the top of a goroutine, ending the process -/
  crashed : Bool := false
deriving DecidableEq, Repr

/-- Steps. -/
inductive RawAct
  | check
  | acceptOk
  | acceptFails
  | spawn
  /-- the body of `sniffThenHandle` of connection `i` ends, with a crash or not; a control session closes the connection itself
  (ndt5.go:125) -/
  | handled (i : Nat) (closesItself crash : Bool)
  /-- the deferred functions of connection `i` -/
  | deferred (i : Nat)
  /-- the context is cancelled -/
  | shutdown
  /-- the goroutine of 142-145 closes the listener -/
  | closeListener
deriving DecidableEq, Repr

/-- One step. Accepting succeeds only while the listener is open. `recover()` returns the value of the panic, so that a crash goes no
further. -/
def RawPort.step (s : RawPort) : RawAct → Option RawPort
  | .check => if s.pc = .check then some { s with pc := if s.ctxDone then .ended else .accept } else none
  | .acceptOk => if s.pc = .accept ∧ s.listenerOpen then some { s with pc := .spawn, accepted := s.accepted + 1 } else none
  | .acceptFails => if s.pc = .accept then some { s with pc := .check } else none
  | .spawn => if s.pc = .spawn then some { s with pc := .check, conns := s.conns ++ [{}] } else none
  | .handled i self crash => match s.conns[i]? with
    | some c =>
      if c.pc = .handling then
        some { s with conns := s.conns.set i { c with pc := .closing crash, closes := c.closes + if self then 1 else 0 } }
      else none
    | none => none
  | .deferred i => match s.conns[i]? with
    | some c => match c.pc with
      | .closing crash => some { s with conns := s.conns.set i { c with pc := .recovering crash, closes := c.closes + 1 } }
      | .recovering crash =>
        let recovered := crash
        some { s with conns := s.conns.set i { c with pc := .ended, recovered := recovered }, crashed := s.crashed || (crash && !recovered) }
      | _ => none
    | none => none
  | .shutdown => some { s with ctxDone := true }
  | .closeListener => if s.ctxDone then some { s with listenerOpen := false } else none

/-- `ListenAndServe` after listening succeeded. -/
def rawPort : LTS RawPort RawAct where
  init := {}
  step := RawPort.step

end Verif.Ndt5
