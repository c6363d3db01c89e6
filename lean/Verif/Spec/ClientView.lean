import Verif.Spec.SessionScript

/-!
# Specification: what the client of an ndt5 session reads

In terms of the numbers of the NDT protocol and of the grammar of JSON, independent of how the server builds its messages.
-/

namespace Verif.Spec
open Verif.Go Verif.Ndt5

/-- The contents of a message: a text, a decimal number, the three numbers of a download (rate, unsent bytes, sent bytes), or a line `name: value` whose value is a decimal
number or a text. -/
inductive Shown
  | text (s : Bytes)
  | number (n : Int)
  | results (kbps unsent total : Int)
  | entry (name : Bytes) (n : Int)
  | textEntry (name s : Bytes)

/-- The frame is a message of type `t` that carries the text `s`: as it is, or as member `msg` of a JSON object. -/
def Carries : Messager → Bytes → UInt8 → Bytes → Prop
  | .tlv, frame, t, s => IsFrame frame t s
  | .json, frame, t, s => ∃ doc s', IsFrame frame t doc ∧ Repaired s s' ∧ IsJson doc (.obj [(str "msg", .str s')])

/-- What a client finds in a frame: the type and the contents. -/
def Shows (m : Messager) (frame : Bytes) : UInt8 × Shown → Prop
  | (t, .text s) => Carries m frame t s
  | (t, .number n) => ∃ s, SignedDecimal s n ∧ Carries m frame t s
  | (t, .results a b c) => ∃ x y z, SignedDecimal x a ∧ SignedDecimal y b ∧ SignedDecimal z c ∧
      match m with
      | .tlv => IsFrame frame t (x ++ 32 :: (y ++ 32 :: z))
      | .json => ∃ doc, IsFrame frame t doc ∧
          IsJson doc (.obj [(str "ThroughputValue", .str x), (str "UnsentDataAmount", .str y), (str "TotalSentByte", .str z)])
  | (t, .entry name n) => ∃ s, SignedDecimal s n ∧ Carries m frame t (name ++ str ": " ++ s ++ [10])
  | (t, .textEntry name s) => Carries m frame t (name ++ str ": " ++ s ++ [10])

/-- The messages of an upload test: TestPrepare with the port, TestStart, TestMsg with the rate, TestFinalize. -/
def uploadView (port : Nat) (kbps : Int) : List (UInt8 × Shown) := [(3, .number port), (4, .text []), (5, .number kbps), (6, .text [])]

/-- The messages of a download test: TestPrepare with the port, TestStart, TestMsg with the results, TestMsg for every metric, TestFinalize. -/
def downloadView (port : Nat) (kbps acked : Int) (metrics : List Shown) : List (UInt8 × Shown) :=
  [(3, .number port), (4, .text []), (5, .results kbps 0 acked)] ++ metrics.map (fun x => (5, x)) ++ [(6, .text [])]

/-- The metrics of a download: the variables of web100, which the protocol requires (those not measured are zero), the fields of the kernel's TCP information, and the
record of the test. -/
def shownMetrics (lib : Lib) (w : Metrics) (r : S2CRecord) : List Shown :=
  [.entry (str "MaxRTT") w.maxRTT.toNat, .entry (str "MinRTT") w.minRTT.toNat, .entry (str "SumRTT") w.sumRTT.toNat, .entry (str "CurRTO") 0,
   .entry (str "SndLimTimeCwnd") 0, .entry (str "SndLimTimeRwin") 0, .entry (str "SndLimTimeSender") 0, .entry (str "DataBytesOut") 0, .entry (str "DupAcksIn") 0,
   .entry (str "PktsOut") w.pktsOut.toNat, .entry (str "PktsRetrans") 0, .entry (str "Timeouts") 0, .entry (str "CountRTT") w.countRTT.toNat,
   .entry (str "CongestionSignals") 0, .entry (str "AckPktsIn") 0, .entry (str "MaxCwnd") 0, .entry (str "MaxRwinRcvd") 0, .entry (str "CurMSS") w.curMSS.toNat,
   .entry (str "Sndbuf") 0, .entry (str "RcvWinScale") 0, .entry (str "SndWinScale") 0] ++
  (metricEntries (str "TCPInfo.") w.tcpInfo.reflected).map (fun e => .textEntry e.1 e.2) ++
  [.textEntry (str "NDTResult.S2C.UUID") r.uuid, .textEntry (str "NDTResult.S2C.ServerIP") r.serverIP, .entry (str "NDTResult.S2C.ServerPort") r.serverPort,
   .textEntry (str "NDTResult.S2C.ClientIP") r.clientIP, .entry (str "NDTResult.S2C.ClientPort") r.clientPort,
   .textEntry (str "NDTResult.S2C.StartTime") (lib.timeText r.startTime), .textEntry (str "NDTResult.S2C.EndTime") (lib.timeText r.endTime),
   .textEntry (str "NDTResult.S2C.MinRTT") (lib.durationText r.minRTT), .textEntry (str "NDTResult.S2C.MaxRTT") (lib.durationText r.maxRTT),
   .textEntry (str "NDTResult.S2C.SumRTT") (lib.durationText r.sumRTT), .entry (str "NDTResult.S2C.CountRTT") r.countRTT.toNat,
   .textEntry (str "NDTResult.S2C.Error") r.error]

/-- The messages of a meta test. -/
def metaView : List (UInt8 × Shown) := [(3, .text []), (4, .text []), (6, .text [])]

/-- The messages of a session: SrvQueue, twice MsgLogin, the tests in the order upload, download, meta, then MsgResults and MsgLogout. -/
def sessionView (lib : Lib) (m : Messager) (tests : Int) (evs : List Ev) : List (UInt8 × Shown) :=
  [(1, .text (str "0")), (2, .text (str "v5.0-NDTinGO")), (2, .text (announced tests))] ++
  ((if requested tests 1 then uploadView (portOf .c2s evs) (measuredUpload evs).toInt64 else []) ++
  ((if requested tests 2 then
      downloadView (portOf .s2c evs) (measuredDownload evs).toInt64 (downloadKernel evs).tcpInfo.bytesAcked (shownMetrics lib (downloadKernel evs) (downloadRecord lib m evs))
    else []) ++
  ((if requested tests 5 then metaView else []) ++
  [(8, .text (closingText (uploadRate tests evs) (downloadRate lib m tests evs))), (9, .text [])])))

/-- Texts of at most 10000 bytes, and numbers of 64 bits. -/
def Short : UInt8 × Shown → Prop
  | (_, .text s) => s.length ≤ 10000
  | (_, .number n) => -9223372036854775808 ≤ n ∧ n ≤ 9223372036854775807
  | (_, .results a b c) => (-9223372036854775808 ≤ a ∧ a ≤ 9223372036854775807) ∧ (-9223372036854775808 ≤ b ∧ b ≤ 9223372036854775807) ∧
      (-9223372036854775808 ≤ c ∧ c ≤ 9223372036854775807)
  | (_, .entry name n) => name.length ≤ 1000 ∧ -9223372036854775808 ≤ n ∧ n ≤ 9223372036854775807
  | (_, .textEntry name s) => name.length ≤ 1000 ∧ s.length ≤ 8000

end Verif.Spec
