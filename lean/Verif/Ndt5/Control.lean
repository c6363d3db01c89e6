import Verif.Ndt5.Meta
import Verif.Ndt5.Upload
import Verif.Ndt5.Download
import Verif.Go.Path

/-! # The control channel (ndt5/ndt5.go) -/

namespace Verif.Ndt5
open Verif.Go

/-- `badUUID` (protocol.go:101). -/
def badUUID : Bytes := str "ERROR_DISCOVERING_UUID"

/-- `UUIDToFile` (protocol.go:104-114): the path of the opened file. -/
def uuidToFile {σ : Type} (dir uuid : Bytes) : P σ (Except Err Bytes) := do
  if uuid = badUUID then
    Ask.tempFile dir
  else
    let path := pathJoin [dir, uuid ++ str ".json"]
    let e ← Ask.create path
    match e with
    | some e => pure (.error e)
    | none => pure (.ok path)

/-- Whether `json.Encoder.Encode` accepts the record: all `float64` members are finite. Everything else in the record can
always be encoded (times are assumed to lie in the years 0 to 9999). -/
def Record.encodable (r : Record) : Bool :=
  (match r.c2s with
    | none => true
    | some c => c.mean.isFinite) &&
  (match r.s2c with
    | none => true
    | some s => s.mean.isFinite && s.clientMbps.isFinite)

/-- `SaveData` (ndt5.go:41-65). The encoder writes the whole document with one `Write`, after encoding succeeded. Errors are
only logged. The nil check of ndt5.go:42 never applies: the only caller passes a non-nil record. -/
def saveData {σ : Type} (cfg : Cfg) (r : Record) : P σ Unit := do
  let dir := pathJoin [cfg.dataDir, cfg.lib.dateDir r.startTime]
  let e ← Ask.mkdirAll dir
  match e with
  | some _ => pure ()
  | none => do
    let f ← uuidToFile dir r.uuid
    match f with
    | .error _ => pure ()
    | .ok path =>
      M.defer (Ask.closeFile path)
        (if r.encodable then do
          let _ ← Ask.write path r
          pure ()
        else pure ())

/-- `panicMsgToErrType` (ndt5.go:67-88). -/
def panicMsgToErrType (msg : Bytes) : Bytes :=
  let word := firstWord 32 msg
  if word ∈ [str "Login", str "ParseInt", str "SrvQueue", str "MsgLoginVersion", str "MsgLoginTests", str "C2S", str "S2C",
      str "MsgResults", str "MsgLogout", str "META"] then word
  else str "panic"

/-- `metrics.GetResultLabel` (metrics/metrics.go:34-44). -/
def resultLabel (err : Option Err) (rate : F64) : Bytes :=
  (if err ≠ none then str "error" else str "okay") ++
    (if rate.isZero then str "-without-rate" else str "-with-rate")

/-- Local state of `handleControlChannel`: the record and the encoding set on the connection. -/
structure Ctl where
  record : Record := {}
  encoding : Encoding := .unknown

/-- The message of `rtx.PanicOnError(err, "<text> (uuid: %s)", uuid)` (package m-lab/go/rtx). -/
def panicText (text uuid : Bytes) (e : Err) : Bytes :=
  text ++ str " (uuid: " ++ uuid ++ str ")" ++ str " (error: " ++ e ++ str ")"

/-- `rtx.PanicOnError(err, "<text> (uuid: %s)", record.Control.UUID)`. -/
def panicOnError (e : Option Err) (text : Bytes) : P Ctl Unit :=
  match e with
  | none => pure ()
  | some e => do
    let c ← M.get
    M.panic (panicText text c.record.uuid e)

/-- `s.LoginCeremony(conn)` (plain.go:173-200, wshandler.go:45-52). Websocket connections always use JSON (protocol.go:238-240). -/
def login (cfg : Cfg) : P Ctl (Except Err Int) := do
  let frame ← Ask.recv
  match cfg.kind with
  | .plain => do
    let r := plainLogin frame
    M.modify fun c => { c with encoding := r.1 }
    pure r.2
  | _ => do
    M.modify fun c => { c with encoding := .json }
    match wsLogin frame with
    | .ok r => pure r
    | .panic msg => M.panic msg

/-- `tests & bit != 0` on a 64-bit Go `int` (ndt5.go:154-164). -/
def hasBit (tests : Int) (bit : Nat) : Bool :=
  (BitVec.ofInt 64 tests &&& BitVec.ofNat 64 bit) != 0#64

/-- `cTestMID` (ndt5.go:32) -/ def bitMID : Nat := 1
/-- `cTestC2S` (ndt5.go:33) -/ def bitC2S : Nat := 2
/-- `cTestS2C` (ndt5.go:34) -/ def bitS2C : Nat := 4
/-- `cTestSFW` (ndt5.go:35) -/ def bitSFW : Nat := 8
/-- `cTestStatus` (ndt5.go:36) -/ def bitStatus : Nat := 16
/-- `cTestMETA` (ndt5.go:37) -/ def bitMETA : Nat := 32

/-- `testsToRun` (ndt5.go:159, 171-189). -/
def testsToRun (tests : Int) : List Bytes :=
  (if hasBit tests bitC2S then [itoa bitC2S] else []) ++
  (if hasBit tests bitS2C then [itoa bitS2C] else []) ++
  (if hasBit tests bitMETA then [itoa bitMETA] else [])

/-- `suites` (ndt5.go:166-189). -/
def suites (tests : Int) : List Bytes :=
  [str "status"] ++
  (if hasBit tests bitMID then [str "mid"] else []) ++
  (if hasBit tests bitC2S then [str "c2s"] else []) ++
  (if hasBit tests bitS2C then [str "s2c"] else []) ++
  (if hasBit tests bitSFW then [str "sfw"] else []) ++
  (if hasBit tests bitMETA then [str "meta"] else [])

/-- `ClientRequestedTests.WithLabelValues(connType, test).Inc()` if the bit is set (ndt5.go:167-189). -/
def countRequested (cfg : Cfg) (tests : Int) (bit : Nat) (test : Bytes) : P Ctl Unit :=
  if hasBit tests bit then note (.requested cfg.label test) else pure ()

/-- The counters of ndt5.go:167-191. -/
def countRequests (cfg : Cfg) (tests : Int) : P Ctl Unit := do
  countRequested cfg tests bitMID (str "mid")
  countRequested cfg tests bitC2S (str "c2s")
  countRequested cfg tests bitS2C (str "s2c")
  countRequested cfg tests bitSFW (str "sfw")
  countRequested cfg tests bitMETA (str "meta")
  note (.suite cfg.label (join [45] (suites tests)))

/-- The upload test within a session (ndt5.go:206-215): the rate for the results message. -/
def runUpload (cfg : Cfg) (m : Messager) : P Ctl F64 := do
  let r ← uploadManage cfg m
  M.modify fun c => { c with record := { c.record with c2s := some r.1 } }
  if r.1.mean.isZero then pure () else note (.testRate cfg.label (str "c2s") cfg.isMon r.1.mean)
  note (.testResult cfg.label (str "c2s") (resultLabel r.2 r.1.mean))
  panicOnError r.2 (str "C2S - Could not run c2s test")
  pure (if r.1.mean.isZero then .fin 0 else r.1.mean)

/-- The download test within a session (ndt5.go:216-225). -/
def runDownload (cfg : Cfg) (m : Messager) : P Ctl F64 := do
  let r ← downloadManage cfg m
  M.modify fun c => { c with record := { c.record with s2c := some r.1 } }
  if r.1.mean.isZero then pure () else note (.testRate cfg.label (str "s2c") cfg.isMon r.1.mean)
  note (.testResult cfg.label (str "s2c") (resultLabel r.2 r.1.mean))
  panicOnError r.2 (str "S2C - Could not run s2c test")
  pure (if r.1.mean.isZero then .fin 0 else r.1.mean)

/-- The meta test within a session (ndt5.go:226-229). -/
def runMeta (cfg : Cfg) (m : Messager) : P Ctl Unit := do
  let r ← metaManage cfg m
  M.modify fun c => { c with record := { c.record with clientMetadata := r.1 } }
  panicOnError r.2 (str "META - Could not run meta test")

/-- `speedMsg` (ndt5.go:230). -/
def speedMsg (c2sRate s2cRate : F64) : Bytes :=
  str "You uploaded at " ++ F64.fmt4 (.mul c2sRate (.ofInt 1000)) ++ str " and downloaded at " ++
    F64.fmt4 (.mul s2cRate (.ofInt 1000))

/-- Send a message; an error is a panic. -/
def sendOrPanic (m : Messager) (t : MsgType) (contents : Bytes) (text : Bytes) : P Ctl Unit := do
  let e ← sendMsg m t contents
  panicOnError e text

/-- The beginning of a session after the login (ndt5.go:193-205). -/
def greet (tests : Int) (m : Messager) : P Ctl Unit := do
  M.modify fun c => { c with record := { c.record with messageProtocol := encodingName m.encoding.toInt } }
  sendOrPanic m MsgType.srvQueue (str "0") (str "SrvQueue - Could not send SrvQueue")
  sendOrPanic m MsgType.msgLogin (str "v5.0-NDTinGO") (str "MsgLoginVersion - Could not send MsgLogin with version")
  sendOrPanic m MsgType.msgLogin (join [32] (testsToRun tests)) (str "MsgLoginTests - Could not send MsgLogin with the tests")

/-- The end of a session (ndt5.go:230-238). -/
def farewell (m : Messager) (c2sRate s2cRate : F64) : P Ctl Unit := do
  sendOrPanic m MsgType.msgResults (speedMsg c2sRate s2cRate) (str "MsgResults - Could not send test results message")
  sendOrPanic m MsgType.msgLogout [] (str "MsgLogout - Could not send MsgLogout")

/-- The session after a successful login that requested TestStatus (ndt5.go:193-238). -/
def runSuite (cfg : Cfg) (tests : Int) (m : Messager) : P Ctl Unit := do
  greet tests m
  let c2sRate ← if hasBit tests bitC2S then runUpload cfg m else pure (.fin 0)
  let s2cRate ← if hasBit tests bitS2C then runDownload cfg m else pure (.fin 0)
  if hasBit tests bitMETA then runMeta cfg m else pure ()
  farewell m c2sRate s2cRate

/-- The session after the record was created (ndt5.go:148-238). A nil `Messager` (unknown encoding) would crash at ndt5.go:194. -/
def session (cfg : Cfg) : P Ctl Unit := do
  let r ← login cfg
  match r with
  | .error e => do
    countError cfg (str "control") (str "LoginCeremony")
    panicOnError (some e) (str "Login - error reading JSON message")
  | .ok tests =>
    if hasBit tests bitStatus then do
      countRequests cfg tests
      let c ← M.get
      match c.encoding.messager with
      | none => M.panic nilDeref
      | some m => runSuite cfg tests m
    else countError cfg (str "control") (str "TestStatus")

/-- The deferred function of ndt5.go:143-146. -/
def finishRecord (cfg : Cfg) : P Ctl Unit := do
  let t ← M.now
  M.modify fun c => { c with record := { c.record with endTime := t } }
  let c ← M.get
  saveData cfg c.record

/-- `handleControlChannel` (ndt5.go:118-239). The 45-second context of ndt5.go:121 only bounds the environment's answers. -/
def handleControlChannel (cfg : Cfg) : P Ctl Unit :=
  M.defer (Ask.close .control) do
    let a ← Ask.addrs .control
    let t ← M.now
    let uuid ← Ask.uuid .control
    M.modify fun c => { c with record := {
      gitShortCommit := cfg.gitShortCommit, version := cfg.version, startTime := t, uuid := uuid,
      protocol := cfg.kind.name, serverMetadata := cfg.metadata,
      serverIP := a.serverIP, serverPort := a.serverPort, clientIP := a.clientIP, clientPort := a.clientPort } }
    M.defer (finishRecord cfg) (session cfg)

/-- The deferred function of ndt5.go:103-114. -/
def countControl (cfg : Cfg) (recovered : Option Bytes) : P Unit Unit := do
  match recovered with
  | none => note (.controlCount cfg.label (str "okay"))
  | some msg => do
    note (.panicCount cfg.label (panicMsgToErrType msg))
    note (.controlCount cfg.label (str "panic"))

/-- `HandleControlChannel` (ndt5.go:95-116). -/
def HandleControlChannel (cfg : Cfg) : P Unit Unit := do
  note (.activeTests cfg.label 1)
  M.defer (note (.activeTests cfg.label (-1))) do
    let start ← M.now
    M.defer (do
        let t ← M.now
        note (.duration cfg.label (t - start)))
      (M.recovering (countControl cfg) (M.withState {} (handleControlChannel cfg)))

end Verif.Ndt5
