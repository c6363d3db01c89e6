import Verif.Go.LTS

/-!
# netx/net.go: accepting and closing connections
-/

namespace Verif.Netx
open Verif.Go

/-- Where `Listener.Accept` (net.go:90-109) stands for one TCP connection. -/
inductive AcceptPc
  /-- `AcceptTCP` returned it; at `DupFile` -/
  | dup
  /-- `DupFile` failed; at `tc.Close()` -/
  | dupFailed
  /-- returned the error -/
  | failed
  /-- at `CurrentOpenConns.Inc()` -/
  | inc
  /-- about to return the connection -/
  | ret
  /-- returned the connection -/
  | returned
deriving DecidableEq, Repr

/-- Where one call of `Conn.Close` (net.go:113-117) stands: before one of its three statements, or returned. -/
inductive ClosePc
  | fp | once | tcp | returned
deriving DecidableEq, Repr

/-- One TCP connection. -/
structure ConnState where
  accept : AcceptPc := .dup
  tcpOpen : Bool := true
  fpOpen : Bool := false
  /-- has `mc.once` run -/
  once : Bool := false
  /-- the calls of `Close` -/
  closes : List ClosePc := []
deriving DecidableEq, Repr

/-- All connections of the process and the gauge `CurrentOpenConns`. -/
structure NetState where
  conns : List ConnState := []
  gauge : Int := 0
deriving DecidableEq, Repr

/-- Steps of any number of goroutines calling `Accept` and `Close`. -/
inductive NetAct
  /-- `AcceptTCP` returns a connection -/
  | acceptTCP
  /-- `AcceptTCP` fails -/
  | acceptFails
  /-- `DupFile` for connection `i` succeeds or fails -/
  | dupFile (i : Nat) (ok : Bool)
  /-- `tc.Close()` after a failed `DupFile` (net.go:99) -/
  | closeTCP (i : Nat)
  /-- `CurrentOpenConns.Inc()` (net.go:102) -/
  | inc (i : Nat)
  /-- `return mc, nil` (net.go:108) -/
  | ret (i : Nat)
  /-- somebody calls `Close` on a connection that `Accept` returned -/
  | callClose (i : Nat)
  /-- the next statement of the `j`-th call of `Close` on connection `i` -/
  | closeStep (i j : Nat)
deriving DecidableEq, Repr

/-- One step. The increment, the once together with the decrement it runs, and closing a file are atomic. -/
def NetState.step (s : NetState) : NetAct → Option NetState
  | .acceptTCP => some { s with conns := s.conns ++ [{}] }
  | .acceptFails => some s
  | .dupFile i ok => match s.conns[i]? with
    | some c =>
      if c.accept = .dup then
        some { s with conns := s.conns.set i (if ok then { c with accept := .inc, fpOpen := true } else { c with accept := .dupFailed }) }
      else none
    | none => none
  | .closeTCP i => match s.conns[i]? with
    | some c => if c.accept = .dupFailed then some { s with conns := s.conns.set i { c with accept := .failed, tcpOpen := false } } else none
    | none => none
  | .inc i => match s.conns[i]? with
    | some c => if c.accept = .inc then some { conns := s.conns.set i { c with accept := .ret }, gauge := s.gauge + 1 } else none
    | none => none
  | .ret i => match s.conns[i]? with
    | some c => if c.accept = .ret then some { s with conns := s.conns.set i { c with accept := .returned } } else none
    | none => none
  | .callClose i => match s.conns[i]? with
    | some c => if c.accept = .returned then some { s with conns := s.conns.set i { c with closes := c.closes ++ [.fp] } } else none
    | none => none
  | .closeStep i j => match s.conns[i]? with
    | some c => match c.closes[j]? with
      | some .fp => some { s with conns := s.conns.set i { c with closes := c.closes.set j .once, fpOpen := false } }
      | some .once =>
        some { conns := s.conns.set i { c with closes := c.closes.set j .tcp, once := true }
               gauge := if c.once then s.gauge else s.gauge - 1 }
      | some .tcp => some { s with conns := s.conns.set i { c with closes := c.closes.set j .returned, tcpOpen := false } }
      | _ => none
    | none => none

/-- The process with respect to its connections. -/
def netx : LTS NetState NetAct where
  init := {}
  step := NetState.step

end Verif.Netx
