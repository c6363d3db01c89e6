import Verif.Ndt5.World

/-! # `SendMetrics` (ndt5/protocol/messager.go:131-171) -/

namespace Verif.Ndt5
open Verif.Go

mutual
/-- The loop over the fields of a struct (messager.go:139-169): the first error ends it. -/
def sendFields {σ : Type} (m : Messager) (pre : Bytes) : List (Bytes × MVal) → P σ (Option Err)
  | [] => pure none
  | (name, v) :: rest => do
    let e ← sendField m pre name v
    match e with
    | some e => pure (some e)
    | none => sendFields m pre rest

/-- One field (messager.go:140-168). -/
def sendField {σ : Type} (m : Messager) (pre name : Bytes) : MVal → P σ (Option Err)
  | .num text => sendMsg m MsgType.testMsg (pre ++ name ++ str ": " ++ text ++ [10])
  | .text s => sendMsg m MsgType.testMsg (pre ++ name ++ str ": " ++ s ++ [10])
  | .stringer s => sendMsg m MsgType.testMsg (pre ++ name ++ str ": " ++ s ++ [10])
  | .struct fields => sendFields m (pre ++ name ++ [46]) fields
  | .other => pure none
end

/-- Decimal text of an unsigned integer field. -/
def numField (name : String) (n : Nat) : Bytes × MVal := (str name, .num (natDec n))

/-- The fields of `web100.Metrics` in declaration order (web100/web100.go:11-29), as `reflect` lists them. -/
def Metrics.reflect (w : Metrics) : List (Bytes × MVal) :=
  [numField "MaxRTT" w.maxRTT.toNat, numField "MinRTT" w.minRTT.toNat, numField "SumRTT" w.sumRTT.toNat, numField "CurRTO" 0,
   numField "SndLimTimeCwnd" 0, numField "SndLimTimeRwin" 0, numField "SndLimTimeSender" 0, numField "DataBytesOut" 0,
   numField "DupAcksIn" 0, numField "PktsOut" w.pktsOut.toNat, numField "PktsRetrans" 0, numField "Timeouts" 0,
   numField "CountRTT" w.countRTT.toNat, numField "CongestionSignals" 0, numField "AckPktsIn" 0, numField "MaxCwnd" 0,
   numField "MaxRwinRcvd" 0, numField "CurMSS" w.curMSS.toNat, numField "Sndbuf" 0, numField "RcvWinScale" 0,
   numField "SndWinScale" 0, (str "BytesPerSecond", .other), (str "TCPInfo", .struct w.tcpInfo.reflected)]

/-- The fields of `s2c.ArchivalData` in declaration order (s2c/s2c.go:19-46), as `reflect` lists them: floats and the
pointer are skipped, times and durations print their `String()`. -/
def S2CRecord.reflect (lib : Lib) (r : S2CRecord) : List (Bytes × MVal) :=
  [(str "UUID", .text r.uuid), (str "ServerIP", .text r.serverIP), (str "ServerPort", .num (itoa r.serverPort)),
   (str "ClientIP", .text r.clientIP), (str "ClientPort", .num (itoa r.clientPort)),
   (str "StartTime", .stringer (lib.timeText r.startTime)), (str "EndTime", .stringer (lib.timeText r.endTime)),
   (str "MeanThroughputMbps", .other), (str "MinRTT", .num (lib.durationText r.minRTT)),
   (str "MaxRTT", .num (lib.durationText r.maxRTT)), (str "SumRTT", .num (lib.durationText r.sumRTT)),
   numField "CountRTT" r.countRTT.toNat, (str "ClientReportedMbps", .other), (str "TCPInfo", .other),
   (str "Error", .text r.error)]

end Verif.Ndt5
