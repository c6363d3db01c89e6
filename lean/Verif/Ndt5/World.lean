import Verif.Go.Prog
import Verif.Go.Float
import Verif.Ndt5.Login

/-!
# The environment of an ndt5 session

Data types of ndt5 sessions, the calls a session makes into its environment, and the counters it updates.
-/

namespace Verif.Ndt5
open Verif.Go

/-- `ndt.ConnectionType` (ndt/server.go:12, 34-38): the three kinds of servers. -/
inductive Kind | plain | ws | wss
  deriving DecidableEq, Repr

/-- The string values of ndt/server.go:35-37. -/
def Kind.name : Kind → Bytes
  | .plain => str "PLAIN"
  | .ws => str "WS"
  | .wss => str "WSS"

/-- `ConnectionType.Label` (ndt/server.go:20-31) on an arbitrary connection type string. -/
def connLabel (c : Bytes) : Bytes :=
  if c = str "WSS" then str "ndt5+wss"
  else if c = str "WS" then str "ndt5+ws"
  else if c = str "PLAIN" then str "ndt5+plain"
  else str "ndt5+unknown"

/-- `s.ConnectionType().Label()`. -/
def Kind.label (k : Kind) : Bytes := connLabel k.name

/-- The two throughput tests. -/
inductive Dir | c2s | s2c
  deriving DecidableEq, Repr

/-- The direction label. -/
def Dir.name : Dir → Bytes
  | .c2s => str "c2s"
  | .s2c => str "s2c"

/-- The connections of a session: the control connection and the connection of each throughput test. -/
inductive ConnId | control | test (d : Dir)
  deriving DecidableEq, Repr

/-- A value as seen by `reflect` in `SendMetrics` (messager.go:139-168). -/
inductive MVal
  /-- an integer kind; the text is what `%v` prints (messager.go:142-147) -/
  | num (text : Bytes)
  /-- a string (messager.go:148-153) -/
  | text (s : Bytes)
  /-- a struct with a `String` method (messager.go:157-159) -/
  | stringer (s : Bytes)
  /-- any other struct (messager.go:160-162) -/
  | struct (fields : List (Bytes × MVal))
  /-- every other kind (messager.go:166-167) -/
  | other

/-- `tcp.LinuxTCPInfo` (package m-lab/tcp-info, not part of the repository): the members read by ndt5 and all members as
`reflect` lists them. -/
structure TcpInfo where
  bytesAcked : Int := 0
  bytesReceived : Int := 0
  reflected : List (Bytes × MVal) := []

/-- `web100.Metrics` (web100/web100.go:11-29): the fields that `summarize` sets; all others stay zero. -/
structure Metrics where
  maxRTT : UInt32 := 0
  minRTT : UInt32 := 0
  sumRTT : UInt32 := 0
  pktsOut : UInt32 := 0
  countRTT : UInt32 := 0
  curMSS : UInt32 := 0
  tcpInfo : TcpInfo := {}

/-- `c2s.ArchivalData` (c2s/c2s.go:18-37). Times are nanoseconds. -/
structure C2SRecord where
  serverIP : Bytes := []
  serverPort : Int := 0
  clientIP : Bytes := []
  clientPort : Int := 0
  uuid : Bytes := []
  startTime : Int := 0
  endTime : Int := 0
  mean : F64 := .fin 0
  error : Bytes := []

/-- `s2c.ArchivalData` (s2c/s2c.go:19-46). Times and durations are nanoseconds. -/
structure S2CRecord where
  uuid : Bytes := []
  serverIP : Bytes := []
  serverPort : Int := 0
  clientIP : Bytes := []
  clientPort : Int := 0
  startTime : Int := 0
  endTime : Int := 0
  mean : F64 := .fin 0
  minRTT : Int := 0
  maxRTT : Int := 0
  sumRTT : Int := 0
  countRTT : UInt32 := 0
  clientMbps : F64 := .fin 0
  tcpInfo : Option TcpInfo := none
  error : Bytes := []

/-- `metadata.NameValue` (metadata/metadata.go:4-7). -/
structure NameValue where
  name : Bytes
  value : Bytes
  deriving DecidableEq, Repr

/-- `data.NDT5Result` with its `control.ArchivalData` (data/result.go, control/data.go). -/
structure Record where
  gitShortCommit : Bytes := []
  version : Bytes := []
  serverIP : Bytes := []
  serverPort : Int := 0
  clientIP : Bytes := []
  clientPort : Int := 0
  startTime : Int := 0
  endTime : Int := 0
  uuid : Bytes := []
  protocol : Bytes := []
  messageProtocol : Bytes := []
  clientMetadata : List NameValue := []
  serverMetadata : List NameValue := []
  c2s : Option C2SRecord := none
  s2c : Option S2CRecord := none

/-- Calls into the environment. Any of them may panic. -/
inductive Call
  /-- `conn.WriteMessage(frame)` on the control connection; answers the error -/
  | send (frame : Bytes)
  /-- `conn.ReadMessage()` on the control connection -/
  | recv
  /-- `ServerIPAndPort` and `ClientIPAndPort` of a connection -/
  | addrs (c : ConnId)
  /-- `UUID()` of a connection -/
  | uuid (c : ConnId)
  /-- `conn.Close()`; its error is only logged (warnonerror.Close) -/
  | close (c : ConnId)
  /-- `net.Listen` in `ListenPlain`, `ListenWS` or `ListenWSS`; answers the port -/
  | listen (d : Dir)
  /-- waiting for the test connection in `ServeOnce`: whether a connection is returned, and the error -/
  | accept (d : Dir)
  /-- `testConn.StartMeasuring` -/
  | startMeasuring (d : Dir)
  /-- `testConn.StopMeasuring` -/
  | stopMeasuring (d : Dir)
  /-- `testConn.FillUntil` of the download test; both its results are ignored (s2c.go:103) -/
  | fill (data : Bytes)
  /-- the `select` of `drainForeverButMeasureFor` (c2s.go:163-170): `none` for the timeout, otherwise the read error -/
  | drain
  /-- `localCtx.Err()` in the meta test -/
  | ctxErr
  /-- `os.MkdirAll` -/
  | mkdirAll (dir : Bytes)
  /-- `os.Create` -/
  | create (path : Bytes)
  /-- `ioutil.TempFile(dir, badUUID+"*.json")`; answers the path -/
  | tempFile (dir : Bytes)
  /-- writing the JSON text of the record to the file -/
  | write (path : Bytes) (record : Record)
  /-- `file.Close()`; the error is ignored (ndt5.go:57) -/
  | closeFile (path : Bytes)

/-- Addresses of a connection. -/
structure Addrs where
  serverIP : Bytes
  serverPort : Int
  clientIP : Bytes
  clientPort : Int

/-- The answers of the calls. -/
@[reducible] def Call.Answer : Call → Type
  | .send _ => Option Err
  | .recv => Except Err Bytes
  | .addrs _ => Addrs
  | .uuid _ => Bytes
  | .close _ => Unit
  | .listen _ => Except Err Nat
  | .accept _ => Bool × Option Err
  | .startMeasuring _ => Unit
  | .stopMeasuring _ => Except Err Metrics
  | .fill _ => Unit
  | .drain => Option Err
  | .ctxErr => Option Err
  | .mkdirAll _ => Option Err
  | .create _ => Option Err
  | .tempFile _ => Except Err Bytes
  | .write _ _ => Option Err
  | .closeFile _ => Unit

/-- Counter updates and other actions without an answer. -/
inductive Note
  /-- `metrics.ActiveTests` incremented by `delta` (ndt5.go:97-98) -/
  | activeTests (label : Bytes) (delta : Int)
  /-- `ControlChannelDuration.Observe` (ndt5.go:100-101), with the duration in nanoseconds -/
  | duration (label : Bytes) (ns : Int)
  /-- `ControlPanicCount.Inc` (ndt5.go:110) -/
  | panicCount (label : Bytes) (errType : Bytes)
  /-- `ControlCount.Inc` (ndt5.go:113) -/
  | controlCount (label : Bytes) (result : Bytes)
  /-- `ClientTestErrors.Inc` -/
  | testError (label : Bytes) (direction : Bytes) (error : Bytes)
  /-- `ClientRequestedTests.Inc` (ndt5.go:168-187) -/
  | requested (label : Bytes) (test : Bytes)
  /-- `ClientRequestedTestSuites.Inc` (ndt5.go:191) -/
  | suite (label : Bytes) (suite : Bytes)
  /-- `metrics.TestRate.Observe` (ndt5.go:210, 220) -/
  | testRate (label : Bytes) (direction : Bytes) (isMon : Bytes) (rate : F64)
  /-- `ClientTestResults.Inc` (ndt5.go:213, 223) -/
  | testResult (label : Bytes) (direction : Bytes) (result : Bytes)
  /-- `SubmittedMetaValues.Observe` (meta.go:76) -/
  | metaValues (count : Nat)
  /-- `MeasurementServerStart.Inc` (singleserving/server.go:98, 145, 209) -/
  | serverStart (kind : Bytes)
  /-- `MeasurementServerStop.Inc` (singleserving/server.go:85, 170) -/
  | serverStop (kind : Bytes)
  /-- the listener of a test is closed (singleserving/server.go:86, 171) -/
  | closeListener (d : Dir)
  /-- a goroutine is started that closes the test connection after three seconds (c2s.go:79-82) -/
  | closeLater (d : Dir)
  deriving DecidableEq

/-- The signature of ndt5 sessions. -/
abbrev sig : Sig := { Q := Call, A := Call.Answer, O := Note }

/-- Programs of ndt5 sessions with local state `σ`. -/
abbrev P (σ α : Type) := M sig σ α

/-- Events of ndt5 sessions. -/
abbrev Ev := Event sig

/-- Parts of the Go standard library that are left abstract. -/
structure Lib where
  /-- `strconv.ParseFloat(s, 64)`; `none` is an error -/
  parseFloat : Bytes → Option F64
  /-- `Time.String()` -/
  timeText : Int → Bytes
  /-- `Duration.String()` -/
  durationText : Int → Bytes
  /-- `Time.Format("2006/01/02")` -/
  dateDir : Int → Bytes

/-- What a server is configured with. -/
structure Cfg where
  kind : Kind
  dataDir : Bytes
  metadata : List NameValue
  gitShortCommit : Bytes
  version : Bytes
  isMon : Bytes
  lib : Lib

/-- `s.ConnectionType().Label()`. -/
def Cfg.label (c : Cfg) : Bytes := c.kind.label

section
variable {σ : Type}

/-! Calls into the environment, with the types of their answers; the constructors of `Call` cite the code. -/

/-- Sending one message on the control connection. -/
def Ask.send (f : Bytes) : P σ (Option Err) := M.call (S := sig) (Call.send f)
/-- Reading one message from the control connection. -/
def Ask.recv : P σ (Except Err Bytes) := M.call (S := sig) Call.recv
/-- The addresses of a connection. -/
def Ask.addrs (c : ConnId) : P σ (Addrs) := M.call (S := sig) (Call.addrs c)
/-- `UUID()` of a connection. -/
def Ask.uuid (c : ConnId) : P σ (Bytes) := M.call (S := sig) (Call.uuid c)
/-- `Close()` of a connection. -/
def Ask.close (c : ConnId) : P σ (Unit) := M.call (S := sig) (Call.close c)
/-- Opening the listener of a test. -/
def Ask.listen (d : Dir) : P σ (Except Err Nat) := M.call (S := sig) (Call.listen d)
/-- Waiting for the client of a test. -/
def Ask.accept (d : Dir) : P σ (Bool × Option Err) := M.call (S := sig) (Call.accept d)
/-- `StartMeasuring` of a test connection. -/
def Ask.startMeasuring (d : Dir) : P σ (Unit) := M.call (S := sig) (Call.startMeasuring d)
/-- `StopMeasuring` of a test connection. -/
def Ask.stopMeasuring (d : Dir) : P σ (Except Err Metrics) := M.call (S := sig) (Call.stopMeasuring d)
/-- `FillUntil` of the download connection. -/
def Ask.fill (b : Bytes) : P σ (Unit) := M.call (S := sig) (Call.fill b)
/-- The `select` of the upload test. -/
def Ask.drain : P σ (Option Err) := M.call (S := sig) Call.drain
/-- `localCtx.Err()`. -/
def Ask.ctxErr : P σ (Option Err) := M.call (S := sig) Call.ctxErr
/-- `os.MkdirAll`. -/
def Ask.mkdirAll (d : Bytes) : P σ (Option Err) := M.call (S := sig) (Call.mkdirAll d)
/-- `os.Create`. -/
def Ask.create (p : Bytes) : P σ (Option Err) := M.call (S := sig) (Call.create p)
/-- `ioutil.TempFile`. -/
def Ask.tempFile (d : Bytes) : P σ (Except Err Bytes) := M.call (S := sig) (Call.tempFile d)
/-- Writing the JSON text of a record to a file. -/
def Ask.write (p : Bytes) (r : Record) : P σ (Option Err) := M.call (S := sig) (Call.write p r)
/-- `file.Close()`. -/
def Ask.closeFile (p : Bytes) : P σ (Unit) := M.call (S := sig) (Call.closeFile p)

/-- A counter update or another action without an answer. -/
def note (o : Note) : P σ Unit := M.emit (S := sig) o

/-- `m.SendMessage(t, contents)` (messager.go:78-80, 112-114). -/
def sendMsg (m : Messager) (t : MsgType) (contents : Bytes) : P σ (Option Err) :=
  Ask.send (m.frame t contents)

/-- `m.SendS2CResults(...)` (messager.go:82-89, 116-119). -/
def sendS2CResults (m : Messager) (kbps unsent total : Int) : P σ (Option Err) :=
  Ask.send (m.s2cFrame kbps unsent total)

/-- `m.ReceiveMessage(t)` (messager.go:91-100, 121-124). -/
def receiveMsg (m : Messager) (t : MsgType) : P σ (Option Bytes × Option Err) := do
  let r ← Ask.recv
  pure (m.receive r t)

/-- `metrics.ClientTestErrors.WithLabelValues(connType, direction, error).Inc()`. -/
def countError (cfg : Cfg) (direction error : Bytes) : P σ Unit :=
  note (.testError cfg.label direction error)

/-- `s.SingleServingServer(direction)`: `ListenPlain`, `ListenWS`, `ListenWSS` (singleserving/server.go:97-129, 144-160, 208-222; wshandler.go:28-30, 91-93; plain.go:36-38).
The start is counted before the listener is opened. -/
def startServer (cfg : Cfg) (d : Dir) : P σ (Except Err Nat) := do
  note (.serverStart cfg.kind.name)
  Ask.listen d

/-- `srv.ServeOnce(ctx)` (singleserving/server.go:49-81, 178-200): whether a connection is returned, and the error. The deferred
`Close` counts the stop and closes the listener; that it does so only once is the subject of the server model. -/
def serveOnce (cfg : Cfg) (d : Dir) : P σ (Bool × Option Err) :=
  M.defer (do
      note (.serverStop cfg.kind.name)
      note (.closeListener d))
    (Ask.accept d)

end

end Verif.Ndt5
