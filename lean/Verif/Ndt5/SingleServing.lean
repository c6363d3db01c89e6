import Verif.Go.LTS

/-!
# ndt5/singleserving/server.go

Clients are numbered by the order of their requests (websocket) or of their acceptance (plain).
-/

namespace Verif.Ndt5
open Verif.Go

/-- The errors `ServeOnce` returns. -/
inductive ServeErr
  /-- "Server did not close correctly" (server.go:70) -/
  | badClose
  /-- "No connection created" (server.go:76), for the plain server "nil conn, nil err: …" (server.go:195) -/
  | noConn
  /-- the error of the handshake of a client (server.go:80), for the plain server the error of `Accept` (server.go:192) -/
  | handshake (client : Nat)
deriving DecidableEq, Repr

/-! ## The websocket server -/

/-- Where `ServeHTTP` stands for one request (server.go:32-43). -/
inductive HandlerPc
  /-- in `Upgrade` -/
  | upgrading
  /-- the handshake failed and `newConnErr` was set -/
  | failed
  /-- the handshake is complete, the connection is hijacked, `newConn` not yet set -/
  | upgraded
  /-- `newConn` is set, the goroutine closing the server not yet started -/
  | assigned
  /-- the goroutine closing the server has been started -/
  | done
deriving DecidableEq, Repr

/-- The `sync.Once` of `Close` (server.go:83-89): not started, before one of its three statements, done. -/
inductive Once
  | idle | counting | closingListener | closingServer | done
deriving DecidableEq, Repr

/-- The goroutine running `serve` (server.go:55-58). `true` stands for `http.ErrServerClosed`, `false` for any other error; the
function never returns nil. -/
inductive ServeGo
  | serving | returned (closed : Bool) | assigned | ended
deriving DecidableEq, Repr

/-- Where `ServeOnce` stands (server.go:62-80). Every read of a shared variable is a step of its own. -/
inductive OncePc
  | wait
  /-- at `err := closeErr` (67) -/
  | loadErr
  /-- at the first condition (68) -/
  | check1 (err : Option Bool)
  /-- at `s.newConn == nil` of the second condition (75) -/
  | check2
  /-- at `s.newConnErr == nil` of the second condition (75) -/
  | check3
  /-- at the counter (79) and the evaluation of `s.newConn` (80) -/
  | load
  /-- at the evaluation of `s.newConnErr` (80) -/
  | load2 (c : Option Nat)
  /-- the results are set, at the deferred `Close` (51) -/
  | closing (c : Option Nat) (e : Option ServeErr)
  | returned (c : Option Nat) (e : Option ServeErr)
deriving DecidableEq, Repr

/-- A websocket single-serving server during `ServeOnce`. -/
structure WsServer where
  clients : List HandlerPc := []
  /-- `newConn`: the client whose connection it is -/
  newConn : Option Nat := none
  /-- `newConnErr`: the client whose handshake failed -/
  newConnErr : Option Nat := none
  /-- goroutines `go s.Close()` that have not yet called `once.Do` -/
  closers : Nat := 0
  once : Once := .idle
  /-- how often `MeasurementServerStop` was incremented -/
  stops : Nat := 0
  /-- how often `s.listener.Close()` was called -/
  listenerCloses : Nat := 0
  /-- how often `s.srv.Close()` was called -/
  srvCloses : Nat := 0
  /-- how often `MeasurementServerAccept` was incremented: server.go:79 selects the labels of the counter, but lacks `.Inc()` -/
  accepts : Nat := 0
  serve : ServeGo := .serving
  closeErr : Option Bool := none
  /-- is `derivedCtx` done -/
  ctxDone : Bool := false
  pc : OncePc := .wait
deriving DecidableEq, Repr

/-- The steps of the goroutines and of the environment. -/
inductive WsAct
  /-- a client's request reaches `ServeHTTP` -/
  | request
  /-- its handshake fails -/
  | upgradeFails (i : Nat)
  /-- its handshake succeeds -/
  | upgradeOk (i : Nat)
  /-- `s.newConn = …` (39) -/
  | assign (i : Nat)
  /-- `go s.Close()` (42) -/
  | spawn (i : Nat)
  /-- a goroutine started in 42 calls `Close` -/
  | closeCall
  /-- `Close` is called from elsewhere -/
  | closeElsewhere
  /-- the next statement inside `once.Do` -/
  | onceStep
  /-- `serve` returns -/
  | serveReturns (closed : Bool)
  /-- `closeErr = …` (56) -/
  | serveAssigns
  /-- `derivedCancel()` (57) -/
  | serveCancels
  /-- the parent context is cancelled or times out -/
  | parentDone
  /-- the next step of `ServeOnce` -/
  | main
deriving DecidableEq, Repr

/-- Calling `Close`: the first call runs the function, the others wait for it. -/
def WsServer.callClose (s : WsServer) : WsServer := if s.once = .idle then { s with once := .counting } else s

/-- The steps of `ServeOnce` itself, server.go:62-80. Line 79 adds nothing to its counter. -/
def WsServer.main (s : WsServer) : Option WsServer :=
  match s.pc with
  | .wait => if s.ctxDone then some { s with pc := .loadErr } else none
  | .loadErr => some { s with pc := .check1 s.closeErr }
  | .check1 err =>
    if s.newConn = none ∧ err = some false then some { s with pc := .closing none (some .badClose) } else some { s with pc := .check2 }
  | .check2 => if s.newConn = none then some { s with pc := .check3 } else some { s with pc := .load }
  | .check3 => if s.newConnErr = none then some { s with pc := .closing none (some .noConn) } else some { s with pc := .load }
  | .load => some { s with pc := .load2 s.newConn, accepts := s.accepts + 0 }
  | .load2 c => some { s with pc := .closing c (s.newConnErr.map .handshake) }
  | .closing c e =>
    match s.once with
    | .idle => some s.callClose
    | .done => some { s with pc := .returned c e }
    | _ => none
  | .returned _ _ => none

/-- One step. Requests arrive only while the listener is open; handshakes in progress can end at any time. -/
def WsServer.step (s : WsServer) : WsAct → Option WsServer
  | .request => if s.listenerCloses = 0 then some { s with clients := s.clients ++ [.upgrading] } else none
  | .upgradeFails i =>
    if s.clients[i]? = some .upgrading then some { s with clients := s.clients.set i .failed, newConnErr := some i } else none
  | .upgradeOk i => if s.clients[i]? = some .upgrading then some { s with clients := s.clients.set i .upgraded } else none
  | .assign i =>
    if s.clients[i]? = some .upgraded then some { s with clients := s.clients.set i .assigned, newConn := some i } else none
  | .spawn i =>
    if s.clients[i]? = some .assigned then some { s with clients := s.clients.set i .done, closers := s.closers + 1 } else none
  | .closeCall => if s.closers = 0 then none else some { s.callClose with closers := s.closers - 1 }
  | .closeElsewhere => some s.callClose
  | .onceStep =>
    match s.once with
    | .counting => some { s with once := .closingListener, stops := s.stops + 1 }
    | .closingListener => some { s with once := .closingServer, listenerCloses := s.listenerCloses + 1 }
    | .closingServer => some { s with once := .done, srvCloses := s.srvCloses + 1 }
    | _ => none
  | .serveReturns c => if s.serve = .serving then some { s with serve := .returned c } else none
  | .serveAssigns => match s.serve with
    | .returned c => some { s with serve := .assigned, closeErr := some c }
    | _ => none
  | .serveCancels => if s.serve = .assigned then some { s with serve := .ended, ctxDone := true } else none
  | .parentDone => some { s with ctxDone := true }
  | .main => s.main

/-- `wsServer.ServeOnce` with its handlers (server.go:32-89); `wssServer` (131-163) differs only in `serve`. -/
def wsServer : LTS WsServer WsAct where
  init := {}
  step := WsServer.step

/-! ## The plain server -/

/-- The goroutine accepting the connection (server.go:185-188). -/
inductive AcceptGo
  | accepting
  /-- `Accept` returned a connection (`true`) or an error, not yet assigned -/
  | returned (ok : Bool)
  | assigned
  | ended
deriving DecidableEq, Repr

/-- Where `plainServer.ServeOnce` stands (server.go:189-199). -/
inductive PlainPc
  | wait
  /-- at `err != nil` (191) -/
  | checkErr
  /-- at `conn == nil` (194) -/
  | checkConn
  /-- the results are set, at the deferred `Close` (181): before the increment and before closing the listener -/
  | counting (c : Option Nat) (e : Option ServeErr)
  | closing (c : Option Nat) (e : Option ServeErr)
  | returned (c : Option Nat) (e : Option ServeErr)
deriving DecidableEq, Repr

/-- A plain single-serving server during `ServeOnce`; its only client has number 0. -/
structure PlainServer where
  acc : AcceptGo := .accepting
  conn : Option Nat := none
  err : Option Nat := none
  stops : Nat := 0
  listenerCloses : Nat := 0
  /-- how often `MeasurementServerAccept` was incremented: server.go:198 lacks `.Inc()` as well -/
  accepts : Nat := 0
  ctxDone : Bool := false
  pc : PlainPc := .wait
deriving DecidableEq, Repr

/-- The steps of the goroutines and of the environment. -/
inductive PlainAct
  | acceptOk
  | acceptFails
  /-- `conn, err = …` (186) -/
  | assign
  /-- `derivedCancel()` (187) -/
  | cancel
  /-- the timeout of one minute or the parent context -/
  | timeout
  /-- the next step of `ServeOnce` -/
  | main
deriving DecidableEq, Repr

/-- One step, server.go:169-200. `Accept` succeeds only while the listener is open. Line 198 adds nothing to its counter. -/
def PlainServer.step (s : PlainServer) : PlainAct → Option PlainServer
  | .acceptOk => if s.acc = .accepting ∧ s.listenerCloses = 0 then some { s with acc := .returned true } else none
  | .acceptFails => if s.acc = .accepting then some { s with acc := .returned false } else none
  | .assign => match s.acc with
    | .returned true => some { s with acc := .assigned, conn := some 0 }
    | .returned false => some { s with acc := .assigned, err := some 0 }
    | _ => none
  | .cancel => if s.acc = .assigned then some { s with acc := .ended, ctxDone := true } else none
  | .timeout => some { s with ctxDone := true }
  | .main => match s.pc with
    | .wait => if s.ctxDone then some { s with pc := .checkErr } else none
    | .checkErr => match s.err with
      | some i => some { s with pc := .counting none (some (.handshake i)) }
      | none => some { s with pc := .checkConn }
    | .checkConn => match s.conn with
      | none => some { s with pc := .counting none (some .noConn) }
      | some i => some { s with pc := .counting (some i) none, accepts := s.accepts + 0 }
    | .counting c e => some { s with pc := .closing c e, stops := s.stops + 1 }
    | .closing c e => some { s with pc := .returned c e, listenerCloses := s.listenerCloses + 1 }
    | .returned _ _ => none

/-- `plainServer.ServeOnce` (server.go:178-200). -/
def plainServer : LTS PlainServer PlainAct where
  init := {}
  step := PlainServer.step

end Verif.Ndt5
