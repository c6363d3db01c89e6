import Verif.Ndt5.World

/-! # The upload test (ndt5/c2s/c2s.go) -/

namespace Verif.Ndt5
open Verif.Go

/-- `drainForeverButMeasureFor` (c2s.go:142-176): the measurement (`none` = nil pointer) and the error. The goroutine that reads the
connection is only visible through which branch of the `select` is taken. -/
def drainAndMeasure {σ : Type} : P σ (Option Metrics × Option Err) := do
  Ask.startMeasuring .c2s
  let sel ← Ask.drain
  let stats ← Ask.stopMeasuring .c2s
  match sel, stats with
  | none, .ok w => pure (some w, none)
  | none, .error e => pure (none, some e)
  | some e, .ok w => pure (some w, some e)
  | some e, .error _ => pure (none, some e)

/-- `throughputValue` (c2s.go:117): kbit/s. -/
def uploadKbps (bytesReceived : Int) (seconds : F64) : F64 :=
  .div (.div (.mul (.ofInt 8) (.ofInt bytesReceived)) (.ofInt 1000)) seconds

/-- The rest of the upload test after the measurement (c2s.go:117-135). -/
def uploadReport {σ : Type} (cfg : Cfg) (m : Messager) (rd : C2SRecord) (w : Metrics) (seconds : F64) :
    P σ (C2SRecord × Option Err) := do
  let kbps := uploadKbps w.tcpInfo.bytesReceived seconds
  let rd := { rd with mean := .div kbps (.ofInt 1000) }
  let e ← sendMsg m MsgType.testMsg (itoa kbps.toInt64)
  match e with
  | some e => do
    countError cfg (str "c2s") (str "TestMsg")
    pure (rd, some e)
  | none => do
    let e ← sendMsg m MsgType.testFinalize []
    match e with
    | some e => do
      countError cfg (str "c2s") (str "TestFinalize")
      pure (rd, some e)
    | none => pure (rd, none)

/-- The upload test once a test connection is there (c2s.go:85-135). -/
def uploadRun {σ : Type} (cfg : Cfg) (m : Messager) : P σ (C2SRecord × Option Err) := do
  let uuid ← Ask.uuid (.test .c2s)
  let a ← Ask.addrs (.test .c2s)
  let rd : C2SRecord := { uuid := uuid, serverIP := a.serverIP, serverPort := a.serverPort, clientIP := a.clientIP, clientPort := a.clientPort }
  let e ← sendMsg m MsgType.testStart []
  match e with
  | some e => do
    countError cfg (str "c2s") (str "TestStart")
    pure (rd, some e)
  | none => do
    let start ← M.now
    let d ← drainAndMeasure
    let end_ ← M.now
    let rd := { rd with startTime := start, endTime := end_ }
    let seconds := F64.seconds (end_ - start)
    match d.1 with
    | none => M.panic nilDeref
    | some w =>
      match d.2 with
      | none => uploadReport cfg m rd w seconds
      | some e =>
        if w.tcpInfo.bytesReceived = 0 then do
          countError cfg (str "c2s") (str "Drain")
          pure (rd, some e)
        else if F64.lt seconds (.ofInt 9) then do
          countError cfg (str "c2s") (str "EarlyExit")
          pure (rd, some e)
        else uploadReport cfg m rd w seconds

/-- The body of `c2s.ManageTest` (c2s.go:48-135) without the deferred function that stores the error. -/
def uploadBody {σ : Type} (cfg : Cfg) (m : Messager) : P σ (C2SRecord × Option Err) := do
  let rd : C2SRecord := {}
  let srv ← startServer cfg .c2s
  match srv with
  | .error e => do
    countError cfg (str "c2s") (str "StartSingleServingServer")
    pure (rd, some e)
  | .ok port => do
    let e ← sendMsg m MsgType.testPrepare (itoa port)
    match e with
    | some e => do
      countError cfg (str "c2s") (str "TestPrepare")
      pure (rd, some e)
    | none => do
      let r ← serveOnce cfg .c2s
      match r.2 with
      | some e => do
        countError cfg (str "c2s") (str "ServeOnce")
        pure (rd, some e)
      | none =>
        M.defer (note (.closeLater .c2s))
          (if r.1 then uploadRun cfg m else M.panic nilDeref)

/-- `c2s.ManageTest` (c2s.go:40-136). The deferred function of c2s.go:43-47 stores the error in the returned record; after a panic
the record is not returned to anyone, so only the normal return matters. -/
def uploadManage {σ : Type} (cfg : Cfg) (m : Messager) : P σ (C2SRecord × Option Err) := do
  let r ← uploadBody cfg m
  match r.2 with
  | some e => pure ({ r.1 with error := e }, some e)
  | none => pure (r.1, none)

end Verif.Ndt5
