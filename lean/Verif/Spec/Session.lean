import Verif.Ndt5.Upload
import Verif.Spec.Ndt5Names

/-!
# Reading the events of an ndt5 session

Small vocabulary for statements about executions: what was sent, counted, opened and closed.
-/

namespace Verif.Spec
open Verif.Go Verif.Ndt5

/-- The counter update (or other note) of an event. -/
def noteOf : Ev → Option Note
  | .emit o => some o
  | _ => none

/-- Counter updates, in order. -/
def notes (evs : List Ev) : List Note := evs.filterMap noteOf

/-- The frame an event tried to send on the control connection. -/
def attemptOf : Ev → Option Bytes
  | .call (.send f) _ => some f
  | _ => none

/-- Frames the session tried to send, in order. -/
def attempts (evs : List Ev) : List Bytes := evs.filterMap attemptOf

/-- The frame an event sent successfully. -/
def sentOf : Ev → Option Bytes
  | .call (.send f) (.ok none) => some f
  | _ => none

/-- Frames sent successfully, in order. -/
def sent (evs : List Ev) : List Bytes := evs.filterMap sentOf

/-- A call into the environment that panicked. -/
def crashed : Ev → Bool
  | .call _ (.panic _) => true
  | _ => false

/-- No call into the environment panicked. -/
def NoCrash (evs : List Ev) : Prop := ∀ e ∈ evs, crashed e = false

/-- A listener of test `d` was opened. -/
def opensListener (d : Dir) : Ev → Bool
  | .call (.listen d') (.ok (.ok _)) => d' = d
  | _ => false

/-- The listener of test `d` was closed. -/
def closesListener (d : Dir) : Ev → Bool
  | .emit (.closeListener d') => d' = d
  | _ => false

/-- A connection of test `d` was handed to the server, possibly together with an error. -/
def handsConn (d : Dir) : Ev → Bool
  | .call (.accept d') (.ok (true, _)) => d' = d
  | _ => false

/-- A connection of test `d` was handed to the server together with an error. -/
def handsConnAndError (d : Dir) : Ev → Bool
  | .call (.accept d') (.ok (true, some _)) => d' = d
  | _ => false

/-- Waiting for the client of test `d` returned neither a connection nor an error. -/
def handsNothing (d : Dir) : Ev → Bool
  | .call (.accept d') (.ok (false, none)) => d' = d
  | _ => false

/-- The connection of test `d` is closed, or a goroutine that closes it is started. -/
def closesConn (d : Dir) : Ev → Bool
  | .call (.close (.test d')) _ => d' = d
  | .emit (.closeLater d') => d' = d
  | _ => false

/-- An error of a direction is counted. -/
def countsError (label direction : Bytes) : Ev → Bool
  | .emit (.testError l d _) => l = label && d = direction
  | _ => false

/-- A result of a direction is counted. -/
def countsResult (label direction : Bytes) : Ev → Bool
  | .emit (.testResult l d _) => l = label && d = direction
  | _ => false

/-- An erroneous result of a direction is counted. -/
def countsErrorResult (label direction : Bytes) : Ev → Bool
  | .emit (.testResult l d r) => l = label && d = direction && (str "error").isPrefixOf r
  | _ => false

/-- The error a test returned, if it returned one. -/
def errorOf {α : Type} : Outcome (α × Option Err) → Option Err
  | .ok r => r.2
  | .panic _ => none

/-- How many events satisfy a predicate. -/
def count (p : Ev → Bool) (evs : List Ev) : Nat := evs.countP p

/-- What an upload test measured: the time the measurement started, how the upload ended (`none`: the
server's timeout), the kernel's measurement and the time after the measurement. -/
def uploadMeasurement : List Ev → Option (Int × Option Err × Except Err Metrics × Int)
  | .clock t0 :: .call (.startMeasuring .c2s) _ :: .call .drain (.ok sel) :: .call (.stopMeasuring .c2s) (.ok st) :: .clock t1 :: _ =>
    some (t0, sel, st, t1)
  | _ :: rest => uploadMeasurement rest
  | [] => none

/-- The port of the listener of test `d`. -/
def portAnswer (d : Dir) : Ev → Option Nat
  | .call (.listen d') (.ok (.ok port)) => if d' = d then some port else none
  | _ => none

/-- The port on which test `d` was offered (zero if no listener was opened). -/
def portOf (d : Dir) (evs : List Ev) : Nat := (evs.findSome? (portAnswer d)).getD 0

/-- The UUID answered for a connection. -/
def uuidAnswer (c : ConnId) : Ev → Option Bytes
  | .call (.uuid c') (.ok u) => if c' = c then some u else none
  | _ => none

/-- The UUID of a connection (empty if it was never asked for). -/
def uuidOf (c : ConnId) (evs : List Ev) : Bytes := (evs.findSome? (uuidAnswer c)).getD []

/-- The addresses answered for a connection. -/
def addrsAnswer (c : ConnId) : Ev → Option Addrs
  | .call (.addrs c') (.ok a) => if c' = c then some a else none
  | _ => none

/-- The addresses of a connection (empty if they were never asked for). -/
def addrsOf (c : ConnId) (evs : List Ev) : Addrs := (evs.findSome? (addrsAnswer c)).getD ⟨[], 0, [], 0⟩

/-- The rate in kbit/s of an upload: eight times the received bytes, divided by 1000 and by the seconds of the test, each operation
rounded as floating point arithmetic does it. -/
def measuredUpload (evs : List Ev) : F64 :=
  match uploadMeasurement evs with
  | some (t0, _, .ok w, t1) => .div (.div (.mul (.ofInt 8) (.ofInt w.tcpInfo.bytesReceived)) (.ofInt 1000)) (F64.seconds (t1 - t0))
  | _ => .fin 0

/-- The upload ended with an error too early: before nine seconds, or without a byte received. -/
def uploadTooShort (evs : List Ev) : Bool :=
  match uploadMeasurement evs with
  | some (t0, some _, .ok w, t1) => w.tcpInfo.bytesReceived = 0 ∨ F64.lt (F64.seconds (t1 - t0)) (.ofInt 9) = true
  | _ => false

/-- The archival record of an upload test with these events, apart from the error. There is a rate unless the upload ended too
early. -/
def uploadRecord (evs : List Ev) : C2SRecord :=
  let a := addrsOf (.test .c2s) evs
  let base : C2SRecord :=
    { uuid := uuidOf (.test .c2s) evs, serverIP := a.serverIP, serverPort := a.serverPort, clientIP := a.clientIP, clientPort := a.clientPort }
  match uploadMeasurement evs with
  | none => base
  | some (t0, _, _, t1) =>
    { base with
      startTime := t0, endTime := t1
      mean := if uploadTooShort evs then .fin 0 else .div (measuredUpload evs) (.ofInt 1000) }

/-- An event that belongs to test `d` alone: its listener, its connection, its measurement, its transfer, its errors. -/
def ofTest (d : Dir) : Ev → Bool
  | .call (.listen d') _ => d' = d
  | .call (.accept d') _ => d' = d
  | .call (.uuid (.test d')) _ => d' = d
  | .call (.addrs (.test d')) _ => d' = d
  | .call (.close (.test d')) _ => d' = d
  | .call (.startMeasuring d') _ => d' = d
  | .call (.stopMeasuring d') _ => d' = d
  | .call .drain _ => d = .c2s
  | .call (.fill _) _ => d = .s2c
  | .emit (.closeListener d') => d' = d
  | .emit (.closeLater d') => d' = d
  | .emit (.testError _ w _) => w = testText d
  | _ => false

end Verif.Spec
