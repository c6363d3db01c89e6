import Verif.Ndt7.Types
import Verif.Ndt7.Wire
import Verif.Ndt5.World
import Verif.Spec.Json
import Verif.Spec.Decimal
import Verif.Spec.TimeText

/-!
# Specification: the JSON documents of the server

The measurement messages of ndt7 (spec/ndt7-protocol.md, "Measurement message"), the results of ndt7 and the records of ndt5 (spec/data-format.md), member by member.
-/

namespace Verif.Spec
open Verif.Go
open Verif.Ndt7 (Layout AppInfo ConnectionInfo BbrSample TcpSample Measurement ArchivalData Result)
open Verif.Ndt5 (TcpInfo NameValue C2SRecord S2CRecord Record)

namespace Doc

/-- A string, in which bytes that are not UTF-8 became U+FFFD. -/
def text (s : Bytes) (j : Json) : Prop := ∃ t, Repaired s t ∧ j = .str t

/-- An integer in decimal. -/
def int (n : Int) (j : Json) : Prop := ∃ raw, SignedDecimal raw n ∧ j = .num raw

/-- An instant (nanoseconds since 1970) in RFC 3339, for a zone (minutes east of UTC). -/
def time (ns z : Int) (j : Json) : Prop := ∃ s, IsTimeText s ns z ∧ j = .str s

/-- A number that is read as this `float64`. -/
def float (ft : FloatText) (x : F64) (j : Json) : Prop := ∃ raw, ft.read raw = some x ∧ j = .num raw

/-- An array. -/
def array {α : Type} (P : α → Json → Prop) (l : List α) (j : Json) : Prop := ∃ js, List.Forall₂ P l js ∧ j = .arr js

/-- An array, with `null` for no elements. -/
def arrayOrNull {α : Type} (P : α → Json → Prop) (l : List α) (j : Json) : Prop := if l = [] then j = .null else array P l j

/-- Members of an object: names, and what there is to know about the values. -/
abbrev Members := List (Bytes × (Json → Prop))

/-- A member. -/
def must (name : String) (P : Json → Prop) : Members := [(str name, P)]

/-- A member, or nothing. -/
def may {α : Type} (name : String) (o : Option α) (P : α → Json → Prop) : Members :=
  match o with
  | none => []
  | some a => [(str name, P a)]

/-- A string, or nothing if it is empty. -/
def mayText (name : String) (s : Bytes) : Members := if s = [] then [] else [(str name, text s)]

/-- An array, or nothing if it is empty. -/
def mayArray {α : Type} (name : String) (l : List α) (P : α → Json → Prop) : Members := if l = [] then [] else [(str name, array P l)]

/-- An object with exactly these members, in this order. -/
def object (ms : List Members) (j : Json) : Prop :=
  ∃ kvs, List.Forall₂ (fun (m : Bytes × (Json → Prop)) (kv : Bytes × Json) => kv.1 = m.1 ∧ m.2 kv.2) ms.flatten kvs ∧ j = .obj kvs

end Doc

open Doc

/-- The integers of a `tcp.LinuxTCPInfo` under the names of its fields. -/
def tcpMembers (K : Layout) (t : TcpInfo) : Members := (K.fields.zip (K.ints t)).map fun x => (x.1.1, int x.2)

/-- A name with a value. -/
def pairDoc (x : NameValue) : Json → Prop := object [must "Name" (text x.name), must "Value" (text x.value)]

/-- `AppInfo`. -/
def appDoc (a : AppInfo) : Json → Prop := object [must "NumBytes" (int a.numBytes), must "ElapsedTime" (int a.elapsed)]

/-- `ConnectionInfo`. -/
def connDoc (c : ConnectionInfo) : Json → Prop :=
  object [must "Client" (text c.client), must "Server" (text c.server), mayText "UUID" c.uuid, must "StartTime" (time c.startTime c.startZone)]

/-- `BBRInfo`. -/
def bbrDoc (b : BbrSample) : Json → Prop :=
  object [must "BW" (int b.info.bw.toInt), must "MinRTT" (int b.info.minRTT.toNat), must "PacingGain" (int b.info.pacingGain.toNat),
    must "CwndGain" (int b.info.cwndGain.toNat), must "ElapsedTime" (int b.elapsed)]

/-- `TCPInfo`. -/
def tcpDoc (K : Layout) (t : TcpSample) : Json → Prop := object [tcpMembers K t.info, must "ElapsedTime" (int t.elapsed)]

/-- A measurement message of ndt7. -/
def measurementDoc (K : Layout) (m : Measurement) : Json → Prop :=
  object [may "AppInfo" m.app appDoc, may "ConnectionInfo" m.conn connDoc, may "BBRInfo" m.bbr bbrDoc, may "TCPInfo" m.tcp (tcpDoc K)]

/-- The data of a subtest of ndt7. -/
def archivalDoc (K : Layout) (d : ArchivalData) : Json → Prop :=
  object [must "UUID" (text d.uuid), must "StartTime" (time d.startTime 0), must "EndTime" (time d.endTime 0),
    must "ServerMeasurements" (arrayOrNull (measurementDoc K) d.serverMeasurements), must "ClientMeasurements" (arrayOrNull (measurementDoc K) d.clientMeasurements),
    mayArray "ClientMetadata" d.clientMetadata pairDoc, mayArray "ServerMetadata" d.serverMetadata pairDoc]

/-- A result of ndt7. -/
def resultDoc (K : Layout) (r : Result) : Json → Prop :=
  object [must "GitShortCommit" (text r.gitShortCommit), must "Version" (text r.version), must "ServerIP" (text r.serverIP), must "ServerPort" (int r.serverPort),
    must "ClientIP" (text r.clientIP), must "ClientPort" (int r.clientPort), must "StartTime" (time r.startTime 0), must "EndTime" (time r.endTime 0),
    may "Upload" r.upload (archivalDoc K), may "Download" r.download (archivalDoc K)]

/-- The control channel of an ndt5 session. -/
def controlDoc (r : Record) : Json → Prop :=
  object [must "UUID" (text r.uuid), must "Protocol" (text r.protocol), must "MessageProtocol" (text r.messageProtocol),
    mayArray "ClientMetadata" r.clientMetadata pairDoc, mayArray "ServerMetadata" r.serverMetadata pairDoc]

/-- An upload of ndt5. -/
def uploadDoc (ft : FloatText) (z : Int) (c : C2SRecord) : Json → Prop :=
  object [must "ServerIP" (text c.serverIP), must "ServerPort" (int c.serverPort), must "ClientIP" (text c.clientIP), must "ClientPort" (int c.clientPort),
    must "UUID" (text c.uuid), must "StartTime" (time c.startTime z), must "EndTime" (time c.endTime z), must "MeanThroughputMbps" (float ft c.mean),
    mayText "Error" c.error]

/-- A download of ndt5. -/
def downloadDoc (ft : FloatText) (K : Layout) (z : Int) (d : S2CRecord) : Json → Prop :=
  object [must "UUID" (text d.uuid), must "ServerIP" (text d.serverIP), must "ServerPort" (int d.serverPort), must "ClientIP" (text d.clientIP),
    must "ClientPort" (int d.clientPort), must "StartTime" (time d.startTime z), must "EndTime" (time d.endTime z), must "MeanThroughputMbps" (float ft d.mean),
    must "MinRTT" (int d.minRTT), must "MaxRTT" (int d.maxRTT), must "SumRTT" (int d.sumRTT), must "CountRTT" (int d.countRTT.toNat),
    must "ClientReportedMbps" (float ft d.clientMbps), may "TCPInfo" d.tcpInfo (fun t => object [tcpMembers K t]), mayText "Error" d.error]

/-- A record of ndt5; `z` is the zone of the server's clock. -/
def recordDoc (ft : FloatText) (K : Layout) (z : Int) (r : Record) : Json → Prop :=
  object [must "GitShortCommit" (text r.gitShortCommit), must "Version" (text r.version), must "ServerIP" (text r.serverIP), must "ServerPort" (int r.serverPort),
    must "ClientIP" (text r.clientIP), must "ClientPort" (int r.clientPort), must "StartTime" (time r.startTime z), must "EndTime" (time r.endTime z),
    must "Control" (controlDoc r), may "C2S" r.c2s (uploadDoc ft z), may "S2C" r.s2c (downloadDoc ft K z)]

end Verif.Spec
