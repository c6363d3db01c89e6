import Verif.Ndt7.Types
import Verif.Go.Marshal

/-!
# The JSON of ndt7: measurement messages (ndt7/model) and results (data/result.go)
-/

namespace Verif.Ndt7
open Verif.Go Verif.Ndt5 Verif.Netx

/-- A field without a tag. -/
def field (name : String) (t : Ty) : TyField := (str name, false, t)

/-- A field with the tag `json:",omitempty"`. -/
def optional (name : String) (t : Ty) : TyField := (str name, true, t)

/-- `int64`, and `int` on the machines the server runs on. -/
def int64 : Ty := .int true 64
/-- `uint32`. -/
def uint32 : Ty := .int false 32

/-- `tcp.LinuxTCPInfo` is a library structure of integers. Its fields (name, signed, bits) are a parameter, and so is how it is made of integers. -/
structure Layout where
  fields : List (Bytes × Bool × Nat)
  ints : TcpInfo → List Int
  ofInts : List Int → TcpInfo

/-- The fields of the library structure as fields of a type. -/
def Layout.tys (K : Layout) : List TyField := K.fields.map fun f => (f.1, false, .int f.2.1 f.2.2)

/-! ## Types -/

/-- `metadata.NameValue` (metadata/metadata.go:4-7). -/
def nameValueTy : Ty := .struct [field "Name" .string, field "Value" .string]

/-- `model.AppInfo` (archivaldata.go:34-37). -/
def appInfoTy : Ty := .struct [field "NumBytes" int64, field "ElapsedTime" int64]

/-- `model.ConnectionInfo` (archivaldata.go:41-46). -/
def connInfoTy : Ty := .struct [field "Client" .string, field "Server" .string, optional "UUID" .string, optional "StartTime" .time]

/-- `model.BBRInfo` (archivaldata.go:51-54) with the promoted fields of `inetdiag.BBRInfo`. -/
def bbrInfoTy : Ty :=
  .struct [field "BW" int64, field "MinRTT" uint32, field "PacingGain" uint32, field "CwndGain" uint32, field "ElapsedTime" int64]

/-- `model.TCPInfo` (archivaldata.go:58-61) with the promoted fields of `tcp.LinuxTCPInfo`. -/
def tcpInfoTy (K : Layout) : Ty := .struct (K.tys ++ [field "ElapsedTime" int64])

/-- `model.Measurement` (archivaldata.go:25-30). -/
def measurementTy (K : Layout) : Ty :=
  .struct [optional "AppInfo" (.ptr appInfoTy), optional "ConnectionInfo" (.ptr connInfoTy), optional "BBRInfo" (.ptr bbrInfoTy),
    optional "TCPInfo" (.ptr (tcpInfoTy K))]

/-- `model.ArchivalData` (archivaldata.go:12-20). -/
def archivalTy (K : Layout) : Ty :=
  .struct [field "UUID" .string, field "StartTime" .time, field "EndTime" .time, field "ServerMeasurements" (.slice (measurementTy K)),
    field "ClientMeasurements" (.slice (measurementTy K)), optional "ClientMetadata" (.slice nameValueTy), optional "ServerMetadata" (.slice nameValueTy)]

/-- `data.NDT7Result` (data/result.go:53-73). -/
def resultTy (K : Layout) : Ty :=
  .struct [field "GitShortCommit" .string, field "Version" .string, field "ServerIP" .string, field "ServerPort" int64, field "ClientIP" .string,
    field "ClientPort" int64, field "StartTime" .time, field "EndTime" .time, optional "Upload" (.ptr (archivalTy K)), optional "Download" (.ptr (archivalTy K))]

/-! ## Values -/

/-- A pointer. -/
def ptrVal {α : Type} (f : α → Val) : Option α → Val
  | none => .nil
  | some a => .ref (f a)

/-- A slice that was made by appending to a nil slice. -/
def sliceVal {α : Type} (f : α → Val) (l : List α) : Val := if l.isEmpty then .nil else .list (l.map f)

/-- `metadata.NameValue`. -/
def nameValueVal (x : NameValue) : Val := .struct [.str x.name, .str x.value]

/-- `model.AppInfo`. -/
def AppInfo.toVal (a : AppInfo) : Val := .struct [.int a.numBytes, .int a.elapsed]

/-- `model.ConnectionInfo`. -/
def ConnectionInfo.toVal (c : ConnectionInfo) : Val := .struct [.str c.client, .str c.server, .str c.uuid, .time ⟨c.startTime, c.startZone⟩]

/-- `model.BBRInfo`. -/
def BbrSample.toVal (b : BbrSample) : Val :=
  .struct [.int b.info.bw.toInt, .int b.info.minRTT.toNat, .int b.info.pacingGain.toNat, .int b.info.cwndGain.toNat, .int b.elapsed]

/-- `model.TCPInfo`. -/
def TcpSample.toVal (K : Layout) (t : TcpSample) : Val := .struct ((K.ints t.info).map .int ++ [.int t.elapsed])

/-- `model.Measurement`. -/
def Measurement.toVal (K : Layout) (m : Measurement) : Val :=
  .struct [ptrVal AppInfo.toVal m.app, ptrVal ConnectionInfo.toVal m.conn, ptrVal BbrSample.toVal m.bbr, ptrVal (TcpSample.toVal K) m.tcp]

/-- `model.ArchivalData`; its times are made by `time.Now().UTC()` (download/sender/sender.go:71, upload/sender/sender.go:45). Times that were never set are the zero time in
the code and 1970 here; both can be written. -/
def ArchivalData.toVal (K : Layout) (d : ArchivalData) : Val :=
  .struct [.str d.uuid, .time ⟨d.startTime, 0⟩, .time ⟨d.endTime, 0⟩, sliceVal (Measurement.toVal K) d.serverMeasurements,
    sliceVal (Measurement.toVal K) d.clientMeasurements, sliceVal nameValueVal d.clientMetadata, sliceVal nameValueVal d.serverMetadata]

/-- `data.NDT7Result`; its times are made by `time.Now().UTC()` (handler.go:115, 120). -/
def Result.toVal (K : Layout) (r : Result) : Val :=
  .struct [.str r.gitShortCommit, .str r.version, .str r.serverIP, .int r.serverPort, .str r.clientIP, .int r.clientPort, .time ⟨r.startTime, 0⟩,
    .time ⟨r.endTime, 0⟩, ptrVal (ArchivalData.toVal K) r.upload, ptrVal (ArchivalData.toVal K) r.download]

/-! ## Values back -/

/-- `model.AppInfo`. -/
def appOfVal : Val → Option AppInfo
  | .ref (.struct [.int n, .int e]) => some ⟨n, e⟩
  | _ => none

/-- `model.ConnectionInfo`. -/
def connOfVal : Val → Option ConnectionInfo
  | .ref (.struct [.str c, .str s, .str u, .time t]) => some ⟨c, s, u, t.ns, t.zone⟩
  | _ => none

/-- `model.BBRInfo`. -/
def bbrOfVal : Val → Option BbrSample
  | .ref (.struct [.int bw, .int r, .int p, .int c, .int e]) => some ⟨⟨Int64.ofInt bw, UInt32.ofNat r.toNat, UInt32.ofNat p.toNat, UInt32.ofNat c.toNat⟩, e⟩
  | _ => none

/-- The integer in a value. -/
def Val.toInt : Val → Int
  | .int n => n
  | _ => 0

/-- `model.TCPInfo`. -/
def tcpOfVal (K : Layout) : Val → Option TcpSample
  | .ref (.struct vs) => some ⟨K.ofInts (vs.dropLast.map Val.toInt), (vs.getLast?.map Val.toInt).getD 0⟩
  | _ => none

/-- `model.Measurement`. -/
def measurementOfVal (K : Layout) : Val → Measurement
  | .struct [a, c, b, t] => ⟨appOfVal a, connOfVal c, bbrOfVal b, tcpOfVal K t⟩
  | _ => {}

/-! ## Reading and writing -/

/-- The messages have no floating point numbers. -/
def noFloats : FloatText := ⟨fun _ => [], fun _ => none⟩

/-- `conn.WriteJSON(m)` (download/sender/sender.go:85, upload/sender/sender.go:57): `json.NewEncoder(w).Encode(m)`, which ends the text with a newline. `none` for an error. -/
def encodeMeasurement (K : Layout) (m : Measurement) : Option Bytes := (marshal noFloats (measurementTy K) (m.toVal K)).map (· ++ [10])

/-- `json.Unmarshal(mdata, &measurement)` (receiver.go:83-84). -/
def decodeMeasurement (K : Layout) (data : Bytes) : Option Measurement := (unmarshal noFloats (measurementTy K) data).map (measurementOfVal K)

/-- `json.Marshal(result)` (results/file.go:94). -/
def encodeResult (K : Layout) (r : Result) : Option Bytes := marshal noFloats (resultTy K) (r.toVal K)

end Verif.Ndt7
