import Verif.Go.LTS
import Verif.Go.Bytes
import Mathlib.Algebra.Order.Field.Rat

/-!
# The worker that runs an ndt7 upload in the browser: html/ndt7-upload-worker.js

One JavaScript task is one step: the handlers of the socket and the turns of the loop, which `setTimeout` puts into the queue. Between two tasks the browser sends buffered data, so `bufferedAmount` changes; within a
task it changes by `send` only, as the WebSocket standard has it. Times are readings of `now()`, in milliseconds; numbers are exact where JavaScript has 64-bit floating point, and `MeanClientMbps` is left out.
-/

namespace Verif.Web
open Verif.Go

/-- What the worker posts to the page. -/
inductive Post
  /-- `start`: in an upload with the start and the expected end, in seconds; in a download with the start, in milliseconds -/
  | start (start : Rat) («end» : Option Rat)
  /-- a measurement of the client: seconds since the start, and bytes -/
  | client (elapsed : Rat) (numBytes : Int)
  /-- a message of the server -/
  | server (message : Bytes)
  | complete
  | error
deriving DecidableEq

/-- What the worker does. -/
inductive UpEv
  /-- `sock.send` of a message of this many bytes, in a turn that read this time -/
  | send (at' : Rat) (size : Nat)
  /-- `sock.close()` -/
  | close
  | post (p : Post)
deriving DecidableEq

/-- The arguments of `uploader` (ndt7-upload-worker.js:73); of `data` only the length counts. -/
structure Loop where
  size : Nat
  start : Rat
  «end» : Rat
  previous : Rat
  total : Nat
deriving DecidableEq

/-- `maxMessageSize` (ndt7-upload-worker.js:87). -/
def maxUpload : Nat := 8388608

/-- `postClientMeasurement` when `now()` gives `t` (ndt7-upload-worker.js:121-138). -/
def clientMeasurement (total buffered : Nat) (start t : Rat) : UpEv := .post (.client ((t - start) / 1000) (total - buffered))

/-- The size of the next message (ndt7-upload-worker.js:92-96): `Infinity` is never reached. -/
def nextSize (l : Loop) (buffered : Nat) : Nat :=
  if l.size ≥ maxUpload then l.size
  else if (l.total : Int) - buffered ≥ 16 * l.size then l.size * 2 else l.size

/-- `uploader` (ndt7-upload-worker.js:73-113), when the clock reads `t` at its start and `t2` when it makes a measurement: what it does, `bufferedAmount` after it, and the arguments of the next turn, if there is one. -/
def uploader (closed : Bool) (buffered : Nat) (l : Loop) (t t2 : Rat) : List UpEv × Nat × Option Loop :=
  if closed then ([], buffered, none)
  else if t ≥ l.end then ([.close, clientMeasurement l.total buffered l.start t2], buffered, none)
  else
    let size := nextSize l buffered
    let sends := buffered < 7 * size
    let total := if sends then l.total + size else l.total
    let buffered := if sends then buffered + size else buffered
    let measures := t ≥ l.previous + 250
    ((if sends then [.send t size] else []) ++ (if measures then [clientMeasurement total buffered l.start t2] else []), buffered,
      some { l with size, total, previous := if measures then t else l.previous })

/-- The worker and its socket. -/
structure Up where
  /-- `onopen` has happened -/
  opened : Bool
  /-- the variable `closed` (ndt7-upload-worker.js:18) -/
  closed : Bool
  /-- the turn of the loop that waits in the queue -/
  loop : Option Loop
  /-- `sock.bufferedAmount` -/
  buffered : Nat
  /-- what was done so far -/
  log : List UpEv

/-- The tasks of the worker, and what the browser does between them. -/
inductive UpAct
  /-- `onopen`, with the readings of the clock in it -/
  | open (start t t2 : Rat)
  /-- the next turn of the loop -/
  | turn (t t2 : Rat)
  /-- the browser changes `bufferedAmount` -/
  | buffer (n : Nat)
  | onclose
  | onerror
  /-- `onmessage`; `none` if `ev.data` is undefined -/
  | onmessage (data : Option Bytes)

/-- Run `uploader` in this state. -/
def Up.run (s : Up) (before : List UpEv) (l : Loop) (t t2 : Rat) : Up :=
  let r := uploader s.closed s.buffered l t t2
  { s with opened := true, loop := r.2.2, buffered := r.2.1, log := s.log ++ before ++ r.1 }

/-- One step: ndt7-upload-worker.js:19-26 for `onclose`, 28-33 for `onerror`, 35-43 for `onmessage`, 73-113 for a turn, 140-158 for `onopen`. A socket opens once. -/
def upStep (s : Up) : UpAct → Option Up
  | .open start t t2 =>
    if s.opened then none
    else some (s.run [.post (.start (start / 1000) (some ((start + 10000) / 1000)))] ⟨8192, start, start + 10000, start, 0⟩ t t2)
  | .turn t t2 => s.loop.map fun l => s.run [] l t t2
  | .buffer n => some { s with buffered := n }
  | .onclose => some (if s.closed then s else { s with closed := true, log := s.log ++ [.post .complete] })
  | .onerror => some { s with log := s.log ++ [.post .error] }
  | .onmessage (some d) => some { s with log := s.log ++ [.post (.server d)] }
  | .onmessage none => some s

/-- The worker from the moment at which it has made its socket (ndt7-upload-worker.js:17-18). -/
def uploadWorker : LTS Up UpAct where
  init := ⟨false, false, none, 0, []⟩
  step := upStep

/-- The subprotocol that both workers ask for (ndt7-upload-worker.js:6, ndt7-download-worker.js:7). -/
def subprotocol : Bytes := str "net.measurementlab.ndt.v7"

end Verif.Web
