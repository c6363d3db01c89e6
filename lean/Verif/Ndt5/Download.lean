import Verif.Ndt5.SendMetrics

/-! # The download test (ndt5/s2c/s2c.go) -/

namespace Verif.Ndt5
open Verif.Go

/-- `dataToSend` (s2c.go:88-91). -/
def dataToSend : Bytes := (List.range 8192).map fun i => UInt8.ofNat ((i * 101) % (122 - 33) + 33)

/-- `kbps` (s2c.go:125-126). -/
def downloadKbps (bytesAcked : Int) (seconds : F64) : F64 :=
  .div (.div (.mul (.ofInt 8) (.ofInt bytesAcked)) seconds) (.ofInt 1000)

/-- The record fields taken from the measurement (s2c.go:127-132). -/
def S2CRecord.withMetrics (r : S2CRecord) (w : Metrics) (kbps : F64) : S2CRecord :=
  { r with
    minRTT := (w.minRTT.toNat : Int) * 1000000
    maxRTT := (w.maxRTT.toNat : Int) * 1000000
    sumRTT := (w.sumRTT.toNat : Int) * 1000000
    countRTT := w.countRTT
    mean := .div kbps (.ofInt 1000)
    tcpInfo := some w.tcpInfo }

/-- The record after the client's reply (s2c.go:150-156). -/
def S2CRecord.withClientRate (lib : Lib) (r : S2CRecord) (clientRateMsg : Bytes) : S2CRecord :=
  match lib.parseFloat clientRateMsg with
  | some kbps => { r with clientMbps := .div kbps (.ofInt 1000) }
  | none => r

/-- The last part of the download test (s2c.go:158-178). -/
def downloadMetrics {σ : Type} (cfg : Cfg) (m : Messager) (rd : S2CRecord) (w : Metrics) :
    P σ (S2CRecord × Option Err) := do
  let e ← sendFields m [] w.reflect
  match e with
  | some e => do
    countError cfg (str "s2c") (str "SendMetricsLegacy")
    pure (rd, some e)
  | none => do
    let e ← sendFields m (str "NDTResult.S2C.") (rd.reflect cfg.lib)
    match e with
    | some e => do
      countError cfg (str "s2c") (str "SendMetricsArchival")
      pure (rd, some e)
    | none => do
      let e ← sendMsg m MsgType.testFinalize []
      match e with
      | some e => do
        countError cfg (str "s2c") (str "TestFinalize")
        pure (rd, some e)
      | none => pure (rd, none)

/-- The part of the download test after the measurement (s2c.go:119-178). -/
def downloadReport {σ : Type} (cfg : Cfg) (m : Messager) (rd : S2CRecord) (w : Metrics) :
    P σ (S2CRecord × Option Err) := do
  Ask.close (.test .s2c)
  let kbps := downloadKbps w.tcpInfo.bytesAcked (F64.seconds (rd.endTime - rd.startTime))
  let rd := rd.withMetrics w kbps
  let e ← sendS2CResults m kbps.toInt64 0 w.tcpInfo.bytesAcked
  match e with
  | some e => do
    countError cfg (str "s2c") (str "TestMsgSend")
    pure (rd, some e)
  | none => do
    let r ← receiveMsg m MsgType.testMsg
    match r with
    | (none, some e) => do
      countError cfg (str "s2c") (str "TestMsgRcv")
      pure (rd, some e)
    | (msg, _) => downloadMetrics cfg m (rd.withClientRate cfg.lib (msg.getD [])) w

/-- The download test once a test connection is there (s2c.go:84-178). -/
def downloadRun {σ : Type} (cfg : Cfg) (m : Messager) : P σ (S2CRecord × Option Err) := do
  let uuid ← Ask.uuid (.test .s2c)
  let a ← Ask.addrs (.test .s2c)
  let rd : S2CRecord := { uuid := uuid, serverIP := a.serverIP, serverPort := a.serverPort, clientIP := a.clientIP, clientPort := a.clientPort }
  let e ← sendMsg m MsgType.testStart []
  match e with
  | some e => do
    Ask.close (.test .s2c)
    countError cfg (str "s2c") (str "TestStart")
    pure (rd, some e)
  | none => do
    Ask.startMeasuring .s2c
    let start ← M.now
    let _ ← M.now
    Ask.fill dataToSend
    let end_ ← M.now
    let rd := { rd with startTime := start, endTime := end_ }
    let stats ← Ask.stopMeasuring .s2c
    match stats with
    | .error e => do
      Ask.close (.test .s2c)
      countError cfg (str "s2c") (str "web100Metrics")
      pure (rd, some e)
    | .ok w => downloadReport cfg m rd w

/-- The body of `s2c.ManageTest` (s2c.go:59-178) without the deferred function that stores the error. -/
def downloadBody {σ : Type} (cfg : Cfg) (m : Messager) : P σ (S2CRecord × Option Err) := do
  let rd : S2CRecord := {}
  let srv ← startServer cfg .s2c
  match srv with
  | .error e => do
    countError cfg (str "s2c") (str "StartSingleServingServer")
    pure (rd, some e)
  | .ok port => do
    let e ← sendMsg m MsgType.testPrepare (itoa port)
    match e with
    | some e => do
      countError cfg (str "s2c") (str "TestPrepare")
      pure (rd, some e)
    | none => do
      let r ← serveOnce cfg .s2c
      match r.2 with
      | some e => do
        countError cfg (str "s2c") (str "ServeOnce")
        pure (rd, some e)
      | none =>
        if r.1 then downloadRun cfg m
        else do
          countError cfg (str "s2c") (str "ServeOnce")
          pure (rd, some (str "nil testConn, but also a nil error"))

/-- `s2c.ManageTest` (s2c.go:49-179), with the deferred function of s2c.go:53-57. -/
def downloadManage {σ : Type} (cfg : Cfg) (m : Messager) : P σ (S2CRecord × Option Err) := do
  let r ← downloadBody cfg m
  match r.2 with
  | some e => pure ({ r.1 with error := e }, some e)
  | none => pure (r.1, none)

end Verif.Ndt5
