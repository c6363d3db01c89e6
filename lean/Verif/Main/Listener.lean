import Verif.Go.LTS
import Verif.Main.Config

/-!
# The running process: main, its listening sockets and the goroutines that serve them (ndt-server.go, ndt7/listener/listener.go)

`main` runs beside the goroutine of every service it started. Clients come at any time and wait in the kernel's queue of the socket until they are accepted.
From the library the model has `http.Server.Serve`: it accepts one connection after the other, tries again after errors that are temporary (such as having no free
file descriptor), and returns `ErrServerClosed` if the server has been closed and the error otherwise.
-/

namespace Verif.Main
open Verif.Go

/-- What a service is: the raw port of ndt5 (ndt5/plain/plain.go:133-166), or an HTTP server with or without TLS. -/
inductive Kind
  | raw
  | http (secure : Bool) (server : HttpServer) (cert key : Bytes)

/-- Where the goroutine of a service stands. -/
inductive ServePc
  /-- `go serve(…)` or `go serveTLS(…)` has been executed, ndt7/listener/listener.go:54 and 90 -/
  | spawned
  /-- in `server.Serve(listener)` or `server.ServeTLS(…)`, listener.go:26 and 59, or in the loop of the raw port -/
  | serving
  /-- returned -/
  | ended
deriving DecidableEq

/-- One service. -/
structure Service where
  kind : Kind
  /-- the address in the configuration -/
  addr : Bytes
  /-- `server.Addr` after the call: the caller can read it -/
  shown : Bytes
  /-- the address of the socket -/
  bound : Bytes
  /-- is the socket closed -/
  closed : Bool := false
  pc : ServePc := .spawned
  /-- clients that are connected and wait to be accepted -/
  queue : List Nat := []
  /-- clients that were accepted, in this order: given to the handler, or (`false`) closed because their file descriptor could not be duplicated, netx/net.go:97-101 -/
  taken : List (Nat × Bool) := []

/-- How the process ended. -/
inductive Cause
  /-- `main` returned or ended the process -/
  | main (x : Exit)
  /-- `logFatalf` in the goroutine of the service, listener.go:28 and 61 -/
  | serve (i : Nat)

/-- The process. -/
structure Running where
  /-- what `main` has still to do -/
  main : Prog mainSig Exit
  /-- what `main` has done (not in the program; for the statements) -/
  log : List (Event mainSig) := []
  services : List Service := []
  /-- is the context of the program cancelled -/
  cancelled : Bool := false
  over : Option Cause := none

/-- Steps. -/
inductive RunAct
  /-- the call at which `main` stands returns; a socket that is opened gets an address -/
  | returns (r : Outcome (Option Err)) (bound : Bytes)
  /-- the next notification of `main` -/
  | next
  /-- `main` ends -/
  | exit
  /-- the context is cancelled -/
  | cancel
  /-- a client connects to the socket of a service -/
  | connect (i : Nat) (client : Nat)
  /-- the connection of a client to an address is refused, for lack of a socket there -/
  | refused (bound : Bytes)
  /-- the goroutine of a service begins to serve; for TLS the key pair can be loaded or not -/
  | serve (i : Nat) (keyPair : Bool)
  /-- `Accept` returns the next client, or closes it because the file descriptor could not be duplicated -/
  | accept (i : Nat) (dup : Bool)
  /-- `Accept` fails; the error is temporary or not -/
  | acceptFails (i : Nat) (temporary : Bool)
  /-- the raw port is closed after the end of the context, plain.go:141-144 -/
  | rawClose (i : Nat)

/-- `strings.HasSuffix(server.Addr, ":0")`, listener.go:48 -/
def anyPort (addr : Bytes) : Bool := (str ":0").isSuffixOf addr

/-- The service that a successful call of `main` starts: `plainServer.ListenAndServe` (ndt5/plain/plain.go:133-144), `ListenAndServeAsync` (listener.go:42-56; only here the
address of the server is replaced by that of the socket, if the port was left open) and `ListenAndServeTLSAsync` (listener.go:73-92). -/
def startedBy (bound : Bytes) : MainCall → Option Service
  | .listenRaw addr _ _ _ _ => some { kind := .raw, addr := addr, shown := addr, bound := bound, pc := .serving }
  | .listen s => some { kind := .http false s [] [], addr := s.addr, shown := if anyPort s.addr then bound else s.addr, bound := bound }
  | .listenTLS s cert key => some { kind := .http true s cert key, addr := s.addr, shown := s.addr, bound := bound }
  | _ => none

/-- `server.Close()` for the server started last among those with this address that are still open: deferred calls run last first. -/
def closeLast (addr : Bytes) : List Service → List Service
  | [] => []
  | s :: ss =>
    if ss.any (fun t => t.addr = addr && !t.closed) then s :: closeLast addr ss
    else if s.addr = addr then { s with closed := true } :: ss
    else s :: ss

/-- Does `ServeTLS` return an error because it has no certificate: the files cannot be loaded, or (see `serveTLSDies`) there are none. -/
def noCertificate (keyPair : Bool) : Kind → Bool
  | .http true s cert key => if s.tls.autocertFor.isSome ∧ cert = [] ∧ key = [] then false else !keyPair || cert = [] || key = []
  | _ => false

/-- One step. Nothing happens after the end of the process. -/
def Running.step (p : Running) (a : RunAct) : Option Running :=
  if p.over.isSome then none else
  match a with
  | .returns r bound => match p.main with
    | .call q k => some { p with
        main := k r
        log := p.log ++ [.call q r]
        services := match r with
          | .ok none => p.services ++ (startedBy bound q).toList
          | _ => p.services }
    | _ => none
  | .next => match p.main with
    | .emit .wait k => if p.cancelled then some { p with main := k, log := p.log ++ [.emit .wait] } else none
    | .emit (.close addr) k => some { p with main := k, log := p.log ++ [.emit (.close addr)], services := closeLast addr p.services }
    | _ => none
  | .exit => match p.main with
    | .ret x => some { p with over := some (.main x) }
    | _ => none
  | .cancel => some { p with cancelled := true }
  | .connect i c => match p.services[i]? with
    | some s => if s.closed then none else some { p with services := p.services.set i { s with queue := s.queue ++ [c] } }
    | none => none
  | .refused bound => if p.services.any (fun s => s.bound = bound && !s.closed) then none else some p
  | .serve i keyPair => match p.services[i]? with
    | some s =>
      if s.pc ≠ .spawned then none
      else if noCertificate keyPair s.kind then some { p with over := some (.serve i) }
      else if s.closed then some { p with services := p.services.set i { s with pc := .ended } }
      else some { p with services := p.services.set i { s with pc := .serving } }
    | none => none
  | .accept i dup => match p.services[i]? with
    | some s =>
      if s.pc ≠ .serving ∨ s.closed then none
      else match s.queue with
        | c :: cs => some { p with services := p.services.set i { s with queue := cs, taken := s.taken ++ [(c, dup)] } }
        | [] => none
    | none => none
  | .acceptFails i temporary => match p.services[i]? with
    | some s =>
      if s.pc ≠ .serving then none
      else match s.kind with
        | .raw => if p.cancelled then some { p with services := p.services.set i { s with pc := .ended } } else some p
        | .http .. =>
          if s.closed then some { p with services := p.services.set i { s with pc := .ended } }
          else if temporary then some p
          else some { p with over := some (.serve i) }
    | none => none
  | .rawClose i => match p.services[i]? with
    | some s => match s.kind with
      | .raw => if p.cancelled then some { p with services := p.services.set i { s with closed := true } } else none
      | .http .. => none
    | none => none

/-- The process with these flags. -/
def running (f : Flags) (ver : Bytes) : LTS Running RunAct where
  init := { main := main f ver }
  step := Running.step

end Verif.Main
