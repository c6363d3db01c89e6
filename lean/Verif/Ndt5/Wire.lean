import Verif.Ndt5.World
import Verif.Ndt7.Wire

/-!
# The JSON of ndt5 records (data/result.go, ndt5/control/data.go, ndt5/c2s/c2s.go, ndt5/s2c/s2c.go)
-/

namespace Verif.Ndt5
open Verif.Go
open Verif.Ndt7 (Layout field optional int64 uint32 nameValueTy nameValueVal ptrVal sliceVal)

/-- `control.ArchivalData` (control/data.go:8-16). -/
def controlTy : Ty :=
  .struct [field "UUID" .string, field "Protocol" .string, field "MessageProtocol" .string, optional "ClientMetadata" (.slice nameValueTy),
    optional "ServerMetadata" (.slice nameValueTy)]

/-- `c2s.ArchivalData` (c2s/c2s.go:17-36). -/
def c2sTy : Ty :=
  .struct [field "ServerIP" .string, field "ServerPort" int64, field "ClientIP" .string, field "ClientPort" int64, field "UUID" .string, field "StartTime" .time,
    field "EndTime" .time, field "MeanThroughputMbps" .float, optional "Error" .string]

/-- `s2c.ArchivalData` (s2c/s2c.go:17-44). Durations are `int64`. -/
def s2cTy (K : Layout) : Ty :=
  .struct [field "UUID" .string, field "ServerIP" .string, field "ServerPort" int64, field "ClientIP" .string, field "ClientPort" int64, field "StartTime" .time,
    field "EndTime" .time, field "MeanThroughputMbps" .float, field "MinRTT" int64, field "MaxRTT" int64, field "SumRTT" int64, field "CountRTT" uint32,
    field "ClientReportedMbps" .float, optional "TCPInfo" (.ptr (.struct K.tys)), optional "Error" .string]

/-- `data.NDT5Result` (data/result.go:29-49). -/
def recordTy (K : Layout) : Ty :=
  .struct [field "GitShortCommit" .string, field "Version" .string, field "ServerIP" .string, field "ServerPort" int64, field "ClientIP" .string,
    field "ClientPort" int64, field "StartTime" .time, field "EndTime" .time, optional "Control" (.ptr controlTy), optional "C2S" (.ptr c2sTy), optional "S2C" (.ptr (s2cTy K))]

/-- `c2s.ArchivalData`; times are made by `time.Now()` in the zone of the server, `z` minutes from UTC. -/
def C2SRecord.toVal (z : Int) (c : C2SRecord) : Val :=
  .struct [.str c.serverIP, .int c.serverPort, .str c.clientIP, .int c.clientPort, .str c.uuid, .time ⟨c.startTime, z⟩, .time ⟨c.endTime, z⟩, .float c.mean, .str c.error]

/-- `tcp.LinuxTCPInfo`. -/
def tcpVal (K : Layout) (t : TcpInfo) : Val := .struct ((K.ints t).map .int)

/-- `s2c.ArchivalData`. -/
def S2CRecord.toVal (K : Layout) (z : Int) (d : S2CRecord) : Val :=
  .struct [.str d.uuid, .str d.serverIP, .int d.serverPort, .str d.clientIP, .int d.clientPort, .time ⟨d.startTime, z⟩, .time ⟨d.endTime, z⟩, .float d.mean, .int d.minRTT,
    .int d.maxRTT, .int d.sumRTT, .int d.countRTT.toNat, .float d.clientMbps, ptrVal (tcpVal K) d.tcpInfo, .str d.error]

/-- `control.ArchivalData`; it is always there (ndt5.go:150-160). -/
def controlVal (r : Record) : Val :=
  .ref (.struct [.str r.uuid, .str r.protocol, .str r.messageProtocol, sliceVal nameValueVal r.clientMetadata, sliceVal nameValueVal r.serverMetadata])

/-- `data.NDT5Result`. Times that were never set are the zero time in the code and 1970 here; both can be written. -/
def Record.toVal (K : Layout) (z : Int) (r : Record) : Val :=
  .struct [.str r.gitShortCommit, .str r.version, .str r.serverIP, .int r.serverPort, .str r.clientIP, .int r.clientPort, .time ⟨r.startTime, z⟩, .time ⟨r.endTime, z⟩,
    controlVal r, ptrVal (C2SRecord.toVal z) r.c2s, ptrVal (S2CRecord.toVal K z) r.s2c]

/-- `enc := json.NewEncoder(file); enc.Encode(record)` in `SaveData` (ndt5.go:60-62): the text with a newline, or an error (`none`). -/
def encodeRecord (ft : FloatText) (K : Layout) (z : Int) (r : Record) : Option Bytes := (marshal ft (recordTy K) (r.toVal K z)).map (· ++ [10])

end Verif.Ndt5
