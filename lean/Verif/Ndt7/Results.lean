import Verif.Ndt7.Types
import Verif.Go.Path

/-!
# ndt7/results/file.go, and the calls of an ndt7 request into its environment
-/

namespace Verif.Ndt7
open Verif.Go Verif.Ndt5 Verif.Netx

/-- How a subtest (`download.Do` or `upload.Do`) ended, and what it stored in the archival data. -/
structure SubtestEnd where
  /-- the message of a panic in the handler's goroutine -/
  crash : Option Bytes := none
  /-- the error returned -/
  err : Option Err := none
  startTime : Int := 0
  endTime : Int := 0
  serverMeasurements : List Measurement := []
  clientMeasurements : List Measurement := []

/-- Calls into the environment. Any of them may panic. -/
inductive Call
  /-- `upgrader.Upgrade` (handler.go:165); on failure it answers the request itself -/
  | upgrade
  /-- `netx.ToConnInfo(conn.UnderlyingConn()).GetUUID()` (handler.go:215-216) -/
  | uuid
  /-- `netx.ToTCPAddr(conn.RemoteAddr())` (handler.go:178) -/
  | remoteAddr
  /-- `netx.ToTCPAddr(conn.LocalAddr())` (handler.go:182) -/
  | localAddr
  /-- `download.Do` or `upload.Do`; only the former gets the parameters (handler.go:130, 134) -/
  | subtest (kind : Subtest) (params : Option Params)
  /-- `conn.LocalAddr().String()` (ndt7/metrics/metrics.go:49-52) -/
  | localText
  /-- `controller.IsMonitoring(controller.GetClaim(req.Context()))` (handler.go:142) -/
  | isMonitoring
  /-- `os.MkdirAll(dir, 0755)` (file.go:36) -/
  | mkdirAll (dir : Bytes)
  /-- `os.OpenFile(name, O_WRONLY|O_CREATE|O_EXCL, 0644)` (file.go:46) -/
  | openExcl (path : Bytes)
  /-- `json.Marshal(result)` and `fp.Writer.Write(data)` (file.go:94-100), to the file or into the gzip writer -/
  | write (path : Bytes) (compress : Bool) (r : Result)
  /-- `fp.gzip.Close()` (file.go:83) -/
  | gzipClose (path : Bytes)
  /-- `fp.fp.Close()` (file.go:85, 89) -/
  | fileClose (path : Bytes)

/-- The answers of the calls. -/
@[reducible] def Call.Answer : Call → Type
  | .upgrade => Option Err
  | .uuid => Except Err Bytes
  | .remoteAddr => Option TcpAddr
  | .localAddr => Option TcpAddr
  | .subtest _ _ => SubtestEnd
  | .localText => Bytes
  | .isMonitoring => Bool
  | .mkdirAll _ => Option Err
  | .openExcl _ => Option Err
  | .write _ _ _ => Option Err
  | .gzipClose _ => Option Err
  | .fileClose _ => Option Err

/-- Actions without an answer. -/
inductive Note
  /-- `writer.WriteHeader(status)` (handler.go:59) -/
  | respond (status : Nat)
  /-- `ndt7metrics.ClientConnections.Inc` (handler.go:86, 105, 109) -/
  | connection (kind status : Bytes)
  /-- `ndt7metrics.ClientTestResults.Inc` (handler.go:139) -/
  | testResult (proto kind result : Bytes)
  /-- `metrics.TestRate.Observe` (handler.go:144) -/
  | testRate (proto kind isMon : Bytes) (rate : F64)
  /-- `h.Events.FlowCreated` (handler.go:117) -/
  | flowCreated (t : Int) (uuid : Bytes) (id : SockId)
  /-- `h.Events.FlowDeleted` (handler.go:123) -/
  | flowDeleted (t : Int) (uuid : Bytes)
  /-- the goroutine is started that closes the connection when the context ends (handler.go:97-100) -/
  | startCloser
  /-- `cancel()` (handler.go:96), which makes that goroutine close the connection -/
  | cancel
  /-- `rtx.Must` ends the process -/
  | exit (msg : Bytes)
deriving DecidableEq

/-- The signature of ndt7 requests. -/
abbrev sig : Sig := { Q := Call, A := Call.Answer, O := Note }

/-- Programs of ndt7 requests with local state `σ`. -/
abbrev P (σ α : Type) := M sig σ α

/-- Events of ndt7 requests. -/
abbrev Ev := Event sig

/-- What depends on the calendar: the two `Format` calls of file.go:35 and 40. -/
structure Lib where
  /-- `timestamp.Format("2006/01/02")` -/
  dateDir : Int → Bytes
  /-- `timestamp.Format("20060102T150405.000000000Z")` -/
  stamp : Int → Bytes

section
variable {σ : Type}

/-- `upgrader.Upgrade`. -/
def Ask.upgrade : P σ (Option Err) := M.call (S := sig) Call.upgrade
/-- `GetUUID`. -/
def Ask.uuid : P σ (Except Err Bytes) := M.call (S := sig) Call.uuid
/-- The client's address. -/
def Ask.remoteAddr : P σ (Option TcpAddr) := M.call (S := sig) Call.remoteAddr
/-- The server's address. -/
def Ask.localAddr : P σ (Option TcpAddr) := M.call (S := sig) Call.localAddr
/-- The subtest. -/
def Ask.subtest (kind : Subtest) (params : Option Params) : P σ SubtestEnd := M.call (S := sig) (Call.subtest kind params)
/-- The text of the server's address. -/
def Ask.localText : P σ Bytes := M.call (S := sig) Call.localText
/-- Is the client a monitoring client. -/
def Ask.isMonitoring : P σ Bool := M.call (S := sig) Call.isMonitoring
/-- `os.MkdirAll`. -/
def Ask.mkdirAll (dir : Bytes) : P σ (Option Err) := M.call (S := sig) (Call.mkdirAll dir)
/-- `os.OpenFile`. -/
def Ask.openExcl (path : Bytes) : P σ (Option Err) := M.call (S := sig) (Call.openExcl path)
/-- Writing the JSON text of the result. -/
def Ask.write (path : Bytes) (compress : Bool) (r : Result) : P σ (Option Err) := M.call (S := sig) (Call.write path compress r)
/-- Closing the gzip writer. -/
def Ask.gzipClose (path : Bytes) : P σ (Option Err) := M.call (S := sig) (Call.gzipClose path)
/-- Closing the file. -/
def Ask.fileClose (path : Bytes) : P σ (Option Err) := M.call (S := sig) (Call.fileClose path)

/-- An action without an answer. -/
def note (o : Note) : P σ Unit := M.emit (S := sig) o

/-- `rtx.Must(err, msg)`: ends the process if there is an error. -/
def must (err : Option Err) (msg : String) : P σ Unit :=
  match err with
  | none => pure ()
  | some _ => do
    note (.exit (str msg))
    M.panic (str msg)

/-- The directory of a result of time `t` (file.go:34). -/
def resultDir (lib : Lib) (datadir : Bytes) (t : Int) : Bytes := pathJoin [datadir, str "ndt7", lib.dateDir t]

/-- The name of the file (file.go:40-43). -/
def resultName (lib : Lib) (datadir what uuid : Bytes) (compress : Bool) (t : Int) : Bytes :=
  resultDir lib datadir t ++ str "/ndt7-" ++ what ++ str "-" ++ lib.stamp t ++ str "." ++ uuid ++ str ".json" ++
    (if compress then str ".gz" else [])

/-- An open result file: `results.File` (file.go:15-28). -/
structure File where
  path : Bytes
  gzip : Bool

/-- `newFile` and `NewFile` (file.go:33-78). `gzip.NewWriterLevel` fails only for invalid levels, so lines 57-61 are left out. -/
def newFile (lib : Lib) (datadir what uuid : Bytes) (compress : Bool) : P σ (Except Err File) := do
  let t ← M.now
  match ← Ask.mkdirAll (resultDir lib datadir t) with
  | some e => pure (.error e)
  | none =>
    let name := resultName lib datadir what uuid compress t
    match ← Ask.openExcl name with
    | some e => pure (.error e)
    | none => pure (.ok { path := name, gzip := compress })

/-- `File.WriteResult` (file.go:93-101). -/
def File.writeResult (f : File) (r : Result) : P σ (Option Err) := Ask.write f.path f.gzip r

/-- `File.Close` (file.go:81-90). -/
def File.close (f : File) : P σ (Option Err) := do
  if f.gzip then
    match ← Ask.gzipClose f.path with
    | some e =>
      let _ ← Ask.fileClose f.path
      pure (some e)
    | none => Ask.fileClose f.path
  else Ask.fileClose f.path

end

end Verif.Ndt7
