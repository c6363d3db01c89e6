import Verif.Ndt7.Types
import Verif.Go.Script

/-!
# The senders: ndt7/download/sender/sender.go, ndt7/upload/sender/sender.go

What the environment decides (which case of the `select` is taken, the measurements, the outcomes of the writes) is a script.
-/

namespace Verif.Ndt7
open Verif.Go

/-- What a sender does. -/
inductive SendEv
  /-- `makePreparedMessage(size)` (download/sender/sender.go:25-32) -/
  | prepare (size : Nat) (err : Option Err)
  /-- `conn.SetWriteDeadline` -/
  | setDeadline (err : Option Err)
  /-- `conn.WriteJSON(m)` -/
  | json (m : Measurement) (err : Option Err)
  /-- `ping.SendTicks` -/
  | ping (err : Option Err)
  /-- `conn.WritePreparedMessage` of a binary message of this size -/
  | binary (size : Nat) (err : Option Err)
  /-- `closer.StartClosing`, which ignores failures -/
  | close
  /-- `ndt7metrics.ClientSenderErrors.Inc` -/
  | count (direction reason : Bytes)
  /-- `mr.Stop(src)` -/
  | stopMeasurer

/-- What happens in one iteration of the download loop: the case taken by the `select` and the outcomes of what is done then. -/
inductive DlAns
  /-- a measurement is received -/
  | measurement (m : Measurement) (json ping : Option Err)
  /-- the channel is closed -/
  | closed
  /-- nothing is ready: a bulk message is sent, and possibly a bigger one prepared -/
  | bulk (write prepare : Option Err)

/-- The variables of the download loop. `totalSent` is an `int64` in Go; it is only read while it is small (`download_sent_small`). -/
structure DlState where
  size : Nat
  /-- the size of the prepared message -/
  prepared : Nat
  totalSent : Nat
  /-- `data.ServerMeasurements` -/
  recorded : List Measurement

/-- Counting the reason for leaving, and the deferred `mr.Stop`. -/
def leave (kind : Subtest) (reason : String) : List SendEv := [.count kind.name (str reason), .stopMeasurer]

/-- Has the limit been reached (download/sender/sender.go:101-102). -/
def reached (params : Params) (m : Measurement) : Bool :=
  params.isEarlyExit && (match m.tcp with
    | none => false
    | some t => decide (t.info.bytesAcked ≥ params.maxBytes))

/-- One iteration of the download loop (download/sender/sender.go:76-137). -/
def dlStep (params : Params) (s : DlState) : DlAns → Iter SendEv DlState (Option Err)
  | .closed => (.close :: leave .download "measurer-closed", s, some none)
  | .measurement m json ping =>
    match json with
    | some e => (.json m (some e) :: leave .download "write-json", s, some (some e))
    | none =>
      let s := { s with recorded := s.recorded ++ [m] }
      match ping with
      | some e => (.json m none :: .ping (some e) :: leave .download "ping-send-ticks", s, some (some e))
      | none =>
        if reached params m then
          (.json m none :: .ping none :: .close :: leave .download "measurer-closed-early", s, some none)
        else ([.json m none, .ping none], s, none)
  | .bulk write prepare =>
    match write with
    | some e => (.binary s.prepared (some e) :: leave .download "write-prepared-message", s, some (some e))
    | none =>
      let ev : SendEv := .binary s.prepared none
      let s := { s with totalSent := s.totalSent + s.size }
      if s.size ≥ maxScaledMessageSize then ([ev], s, none)
      else if s.size > s.totalSent / scalingFraction then ([ev], s, none)
      else
        let s := { s with size := s.size * 2 }
        match prepare with
        | some e => (ev :: .prepare s.size (some e) :: leave .download "make-prepared-message", s, some (some e))
        | none => ([ev, .prepare s.size none], { s with prepared := s.size }, none)

/-- `sender.Start` of the download (download/sender/sender.go:41-138): what happens, `data.ServerMeasurements` and the error returned,
if it returned. `prepare` and `deadline` are the outcomes of the first `makePreparedMessage` and of `SetWriteDeadline`. -/
def downloadSender (params : Params) (prepare deadline : Option Err) (as : List DlAns) : List SendEv × List Measurement × Option (Option Err) :=
  match prepare with
  | some e => (.prepare (2 ^ 13) (some e) :: leave .download "make-prepared-message", [], some (some e))
  | none =>
    match deadline with
    | some e => (.prepare (2 ^ 13) none :: .setDeadline (some e) :: leave .download "set-write-deadline", [], some (some e))
    | none =>
      let r := runScript (dlStep params) { size := 2 ^ 13, prepared := 2 ^ 13, totalSent := 0, recorded := [] } as
      (.prepare (2 ^ 13) none :: .setDeadline none :: r.1, r.2.1.recorded, r.2.2)

/-- What happens in one iteration of the upload loop. -/
inductive UlAns
  | measurement (m : Measurement) (json ping : Option Err)
  | closed

/-- One iteration of the upload loop (upload/sender/sender.go:52-73); the state is `data.ServerMeasurements`. -/
def ulStep (recorded : List Measurement) : UlAns → Iter SendEv (List Measurement) (Option Err)
  | .closed => (.close :: leave .upload "measurer-closed", recorded, some none)
  | .measurement m json ping =>
    match json with
    | some e => (.json m (some e) :: leave .upload "write-json", recorded, some (some e))
    | none =>
      match ping with
      | some e => (.json m none :: .ping (some e) :: leave .upload "ping-send-ticks", recorded ++ [m], some (some e))
      | none => ([.json m none, .ping none], recorded ++ [m], none)

/-- `sender.Start` of the upload (upload/sender/sender.go:24-75). -/
def uploadSender (deadline : Option Err) (as : List UlAns) : List SendEv × List Measurement × Option (Option Err) :=
  match deadline with
  | some e => (.setDeadline (some e) :: leave .upload "set-write-deadline", [], some (some e))
  | none =>
    let r := runScript ulStep [] as
    (.setDeadline none :: r.1, r.2.1, r.2.2)

end Verif.Ndt7
