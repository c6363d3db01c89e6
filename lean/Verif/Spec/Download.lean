import Verif.Ndt5.Download
import Verif.Spec.Script

/-! # What a download test should report, read off the events -/

namespace Verif.Spec
open Verif.Go Verif.Ndt5

/-- What a download test measured: the time before and after filling the connection, and the kernel's measurement. -/
def downloadMeasurement : List Ev → Option (Int × Int × Except Err Metrics)
  | .clock t0 :: .clock _ :: .call (.fill _) (.ok _) :: .clock t1 :: .call (.stopMeasuring .s2c) (.ok st) :: _ => some (t0, t1, st)
  | _ :: rest => downloadMeasurement rest
  | [] => none

/-- What was read from the control connection after the results of the download were sent. -/
def clientReply : List Ev → Option (Except Err Bytes)
  | .call (.close (.test .s2c)) (.ok _) :: .call (.send _) (.ok none) :: .call .recv (.ok r) :: _ => some r
  | _ :: rest => clientReply rest
  | [] => none

/-- The client's own figure in Mbit/s: zero if it sent nothing readable as a number. -/
def clientMbps (lib : Lib) (m : Messager) (evs : List Ev) : F64 :=
  match clientReply evs with
  | none => .fin 0
  | some r =>
    match m.receive r MsgType.testMsg with
    | (none, some _) => .fin 0
    | (msg, _) =>
      match lib.parseFloat (msg.getD []) with
      | none => .fin 0
      | some kbps => .div kbps (.ofInt 1000)

/-- The rate in kbit/s of a download: eight times the acknowledged bytes, divided by the seconds of the test and by 1000. -/
def measuredDownload (evs : List Ev) : F64 :=
  match downloadMeasurement evs with
  | some (t0, t1, .ok w) =>
    .div (.div (.mul (.ofInt 8) (.ofInt w.tcpInfo.bytesAcked)) (F64.seconds (t1 - t0))) (.ofInt 1000)
  | _ => .fin 0

/-- The kernel's measurement of a download (empty if there was none). -/
def downloadKernel (evs : List Ev) : Metrics :=
  match downloadMeasurement evs with
  | some (_, _, .ok w) => w
  | _ => {}

/-- The archival record of a download test with these events, apart from the error. -/
def downloadRecord (lib : Lib) (m : Messager) (evs : List Ev) : S2CRecord :=
  let a := addrsOf (.test .s2c) evs
  let base : S2CRecord :=
    { uuid := uuidOf (.test .s2c) evs, serverIP := a.serverIP, serverPort := a.serverPort, clientIP := a.clientIP, clientPort := a.clientPort }
  match downloadMeasurement evs with
  | none => base
  | some (t0, t1, .error _) => { base with startTime := t0, endTime := t1 }
  | some (t0, t1, .ok w) =>
    { base with
      startTime := t0, endTime := t1
      minRTT := (w.minRTT.toNat : Int) * 1000000
      maxRTT := (w.maxRTT.toNat : Int) * 1000000
      sumRTT := (w.sumRTT.toNat : Int) * 1000000
      countRTT := w.countRTT
      mean := .div (measuredDownload evs) (.ofInt 1000)
      clientMbps := clientMbps lib m evs
      tcpInfo := some w.tcpInfo }

/-- The frames of this download test. -/
def downloadScript (lib : Lib) (m : Messager) (evs : List Ev) : List Bytes :=
  s2cScript m (portOf .s2c evs) (measuredDownload evs).toInt64 (downloadKernel evs).tcpInfo.bytesAcked
    (resultLines lib (downloadKernel evs) (downloadRecord lib m evs))

end Verif.Spec
