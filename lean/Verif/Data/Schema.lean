import Verif.Go.Prog

/-!
# The schema generator: cmd/generate-schemas/main.go, data/result.go and the types they refer to
-/

namespace Verif.Data
open Verif.Go

/-! ## Types -/

/-- Go types as far as they occur in results. All integer types, `time.Duration` included, are `integer`; fields of embedded structures are promoted, so they are listed
among the fields. `unsupported` stands for types without a column type, such as `uint64` and maps. -/
inductive GoType
  | string | integer | float | timestamp | unsupported
  | pointer (to : GoType)
  | slice (of : GoType)
  | struct (fields : List (Bytes × GoType))

/-- metadata/namevalue.go:4-7 -/
def nameValue : GoType := .struct [(str "Name", .string), (str "Value", .string)]

/-- ndt7/model/archivaldata.go:34-37 -/
def appInfo : GoType := .struct [(str "NumBytes", .integer), (str "ElapsedTime", .integer)]

/-- ndt7/model/archivaldata.go:41-46 -/
def connectionInfo : GoType := .struct [(str "Client", .string), (str "Server", .string), (str "UUID", .string), (str "StartTime", .timestamp)]

/-- ndt7/model/archivaldata.go:25-30, 51-61; `tcp` and `bbr` are the fields of the library's `tcp.LinuxTCPInfo` and `inetdiag.BBRInfo`. -/
def measurement (tcp bbr : List (Bytes × GoType)) : GoType :=
  .struct [(str "AppInfo", .pointer appInfo), (str "ConnectionInfo", .pointer connectionInfo),
    (str "BBRInfo", .pointer (.struct (bbr ++ [(str "ElapsedTime", .integer)]))), (str "TCPInfo", .pointer (.struct (tcp ++ [(str "ElapsedTime", .integer)])))]

/-- ndt7/model/archivaldata.go:12-20 -/
def archival7 (tcp bbr : List (Bytes × GoType)) : GoType :=
  .struct [(str "UUID", .string), (str "StartTime", .timestamp), (str "EndTime", .timestamp), (str "ServerMeasurements", .slice (measurement tcp bbr)),
    (str "ClientMeasurements", .slice (measurement tcp bbr)), (str "ClientMetadata", .slice nameValue), (str "ServerMetadata", .slice nameValue)]

/-- The fields that both results begin with, data/result.go:31-44 and 55-68. -/
def resultHead : List (Bytes × GoType) :=
  [(str "GitShortCommit", .string), (str "Version", .string), (str "ServerIP", .string), (str "ServerPort", .integer), (str "ClientIP", .string),
    (str "ClientPort", .integer), (str "StartTime", .timestamp), (str "EndTime", .timestamp)]

/-- `NDT7Result`, data/result.go:53-73. -/
def ndt7Result (tcp bbr : List (Bytes × GoType)) : GoType :=
  .struct (resultHead ++ [(str "Upload", .pointer (archival7 tcp bbr)), (str "Download", .pointer (archival7 tcp bbr))])

/-- ndt5/control/data.go:8-16 -/
def controlData : GoType :=
  .struct [(str "UUID", .string), (str "Protocol", .string), (str "MessageProtocol", .string), (str "ClientMetadata", .slice nameValue),
    (str "ServerMetadata", .slice nameValue)]

/-- ndt5/c2s/c2s.go:17-36 -/
def c2sData : GoType :=
  .struct [(str "ServerIP", .string), (str "ServerPort", .integer), (str "ClientIP", .string), (str "ClientPort", .integer), (str "UUID", .string),
    (str "StartTime", .timestamp), (str "EndTime", .timestamp), (str "MeanThroughputMbps", .float), (str "Error", .string)]

/-- ndt5/s2c/s2c.go:17-44 -/
def s2cData (tcp : List (Bytes × GoType)) : GoType :=
  .struct [(str "UUID", .string), (str "ServerIP", .string), (str "ServerPort", .integer), (str "ClientIP", .string), (str "ClientPort", .integer),
    (str "StartTime", .timestamp), (str "EndTime", .timestamp), (str "MeanThroughputMbps", .float), (str "MinRTT", .integer), (str "MaxRTT", .integer),
    (str "SumRTT", .integer), (str "CountRTT", .integer), (str "ClientReportedMbps", .float), (str "TCPInfo", .pointer (.struct tcp)), (str "Error", .string)]

/-- `NDT5Result`, data/result.go:29-49. -/
def ndt5Result (tcp : List (Bytes × GoType)) : GoType :=
  .struct (resultHead ++ [(str "Control", .pointer controlData), (str "C2S", .pointer c2sData), (str "S2C", .pointer (s2cData tcp))])

/-! ## Schemas -/

/-- The column types of BigQuery. -/
inductive ColType | string | integer | float | timestamp | record
deriving DecidableEq

/-- A `bigquery.FieldSchema`: name, type, `Repeated`, `Required`, and the columns of a record. -/
inductive Column
  | mk (name : Bytes) (type : ColType) (repeated required : Bool) (columns : List Column)

mutual
/-- `inferFieldSchema` of cloud.google.com/go/bigquery for a field of this name (from knowledge of the library): structures are records, pointers to them nullable records,
slices repeated columns; slices of slices and pointers to other types are refused. -/
def inferField (name : Bytes) : GoType → Option Column
  | .string => some (.mk name .string false true [])
  | .integer => some (.mk name .integer false true [])
  | .float => some (.mk name .float false true [])
  | .timestamp => some (.mk name .timestamp false true [])
  | .unsupported => none
  | .struct fs => (inferFields fs).map (.mk name .record false true)
  | .pointer (.struct fs) => (inferFields fs).map (.mk name .record false false)
  | .pointer _ => none
  | .slice .string => some (.mk name .string true false [])
  | .slice .integer => some (.mk name .integer true false [])
  | .slice .float => some (.mk name .float true false [])
  | .slice .timestamp => some (.mk name .timestamp true false [])
  | .slice (.struct fs) => (inferFields fs).map (.mk name .record true false)
  | .slice _ => none

/-- The fields of a structure. -/
def inferFields : List (Bytes × GoType) → Option (List Column)
  | [] => some []
  | (n, t) :: fs => do
    let c ← inferField n t
    let cs ← inferFields fs
    return c :: cs
end

/-- `bigquery.InferSchema(row)`. -/
def inferSchema : GoType → Option (List Column)
  | .struct fs => inferFields fs
  | _ => none

mutual
/-- `bqx.RemoveRequired` for one column. -/
def removeRequired1 : Column → Column
  | .mk n t rep _ cs => .mk n t rep false (removeRequired cs)

/-- `bqx.RemoveRequired`. -/
def removeRequired : List Column → List Column
  | [] => []
  | c :: cs => removeRequired1 c :: removeRequired cs
end

/-! ## The generator -/

/-- `ioutil.WriteFile(name, schema as JSON)`; the answer is the error. -/
inductive GenCall
  | writeFile (name : Bytes) (schema : List Column)

/-- The environment of the generator. -/
abbrev genSig : Sig := ⟨GenCall, fun _ => Option Err, Unit⟩

/-- How the generator ends. -/
inductive GenExit | ok | fatal | crash
deriving DecidableEq

/-- One half of `main`: infer, remove, write; the error of `WriteFile` is ignored (main.go:33, 42). That `ToJSONFields` fails is left out. -/
def generate (row : GoType) (file : Bytes) (k : Prog genSig GenExit) : Prog genSig GenExit :=
  match inferSchema row with
  | none => .ret .fatal
  | some sch => .call (.writeFile file (removeRequired sch)) fun r => match r with
    | .ok _ => k
    | .panic _ => .ret .crash

/-- `main`, main.go:24-43. `row5` is a `data.NDT7Result` (line 36). -/
def generateSchemas (tcp bbr : List (Bytes × GoType)) (ndt7schema ndt5schema : Bytes) : Prog genSig GenExit :=
  generate (ndt7Result tcp bbr) ndt7schema <|
  generate (ndt7Result tcp bbr) ndt5schema <|
  .ret .ok

end Verif.Data
