import Verif.Ndt7.Wire
import Verif.Spec.Wire
import Verif.Spec.Ndt7

/-!
# Specification: ndt7 data as Go holds it and as a reader of its JSON sees it
-/

namespace Verif.Spec
open Verif.Go Verif.Ndt7
open Verif.Ndt5 (TcpInfo NameValue)

/-- What is assumed of the library structure `tcp.LinuxTCPInfo`: the names of its fields are distinct and ASCII, none is `ElapsedTime`, and its integers have at most 64
bits; and integers that fit the fields make a structure with these integers. -/
structure LayoutOk (K : Layout) : Prop where
  distinct : (K.fields.map Prod.fst).Nodup
  fresh : str "ElapsedTime" ∉ K.fields.map Prod.fst
  ascii : ∀ f ∈ K.fields, AsciiName f.1
  bits : ∀ f ∈ K.fields, 1 ≤ f.2.2 ∧ f.2.2 ≤ 64
  made : ∀ ns, List.Forall₂ (fun f n => IntRange f.2.1 f.2.2 n) K.fields ns → K.ints (K.ofInts ns) = ns

/-- A `LinuxTCPInfo` whose integers fit the fields, and which its integers determine. -/
structure Holds (K : Layout) (t : TcpInfo) : Prop where
  fits : List.Forall₂ (fun f n => IntRange f.2.1 f.2.2 n) K.fields (K.ints t)
  same : K.ofInts (K.ints t) = t

/-- The numbers of a measurement fit the types of the fields. -/
structure Typed (K : Layout) (m : Measurement) : Prop where
  app : ∀ a, m.app = some a → InInt64 a.numBytes ∧ InInt64 a.elapsed
  bbr : ∀ b, m.bbr = some b → InInt64 b.elapsed
  tcp : ∀ t, m.tcp = some t → Holds K t.info ∧ InInt64 t.elapsed

/-- The time in a measurement has a year of four digits and a zone less than 24 hours from UTC. -/
def TimeOk (m : Measurement) : Prop := ∀ c, m.conn = some c → Stamp.Writable ⟨c.startTime, c.startZone⟩

/-- A measurement as its reader sees it: bytes that are not UTF-8 are replaced by U+FFFD. -/
def seen (m : Measurement) : Measurement :=
  { m with conn := m.conn.map fun c => { c with client := toValid c.client, server := toValid c.server, uuid := toValid c.uuid } }

/-- Metadata as its reader sees it. -/
def seenPair (x : NameValue) : NameValue := ⟨toValid x.name, toValid x.value⟩

/-- Archival data as its reader sees it. -/
def seenData (d : ArchivalData) : ArchivalData :=
  { d with uuid := toValid d.uuid, serverMeasurements := d.serverMeasurements.map seen, clientMeasurements := d.clientMeasurements.map seen,
           clientMetadata := d.clientMetadata.map seenPair, serverMetadata := d.serverMetadata.map seenPair }

/-- A result as its reader sees it. -/
def seenResult (r : Result) : Result :=
  { r with gitShortCommit := toValid r.gitShortCommit, version := toValid r.version, serverIP := toValid r.serverIP, clientIP := toValid r.clientIP,
           upload := r.upload.map seenData, download := r.download.map seenData }

/-- The archival data fits the types of the fields and its times can be written, except perhaps those in the measurements that the client sent. -/
structure DataTyped (K : Layout) (d : ArchivalData) : Prop where
  start : FourDigitYear d.startTime
  stop : FourDigitYear d.endTime
  server : ∀ m ∈ d.serverMeasurements, Typed K m ∧ TimeOk m
  client : ∀ m ∈ d.clientMeasurements, Typed K m

/-- The same for a result. -/
structure ResultTyped (K : Layout) (r : Result) : Prop where
  ports : InInt64 r.serverPort ∧ InInt64 r.clientPort
  start : FourDigitYear r.startTime
  stop : FourDigitYear r.endTime
  upload : ∀ d, r.upload = some d → DataTyped K d
  download : ∀ d, r.download = some d → DataTyped K d

/-- The measurements that the client sent. -/
def fromClient (r : Result) : List Measurement :=
  ((r.upload.map (·.clientMeasurements)).getD []) ++ ((r.download.map (·.clientMeasurements)).getD [])

/-- A working disk: nothing fails or crashes except that a result that cannot be written as JSON cannot be written. -/
structure DiskInOrder (K : Layout) (evs : List Ev) : Prop where
  mkdir : ∀ d a, .call (.mkdirAll d) a ∈ evs → a = .ok none
  create : ∀ p a, .call (.openExcl p) a ∈ evs → a = .ok none
  write : ∀ p c r a, .call (.write p c r) a ∈ evs → ∃ e : Option Err, a = .ok e ∧ (e = none ↔ (encodeResult K r).isSome = true)
  flush : ∀ p a, .call (.gzipClose p) a ∈ evs → a = .ok none
  close : ∀ p a, .call (.fileClose p) a ∈ evs → a = .ok none

/-- The server's own part of a request is in order: its clock shows years of four digits, the ports of the connection are numbers, what the subtest measured on the server
fits its types, and what it got from the client are messages that the client sent. -/
structure InOrder (K : Layout) (evs : List Ev) : Prop where
  clock : ∀ t, .clock t ∈ evs → FourDigitYear t
  remote : ∀ a : TcpAddr, .call .remoteAddr (.ok (some a)) ∈ evs → InInt64 a.port
  local' : ∀ a : TcpAddr, .call .localAddr (.ok (some a)) ∈ evs → InInt64 a.port
  times : ∀ x ∈ subtests evs, FourDigitYear x.2.2.startTime ∧ FourDigitYear x.2.2.endTime
  server : ∀ x ∈ subtests evs, ∀ m ∈ x.2.2.serverMeasurements, Typed K m ∧ TimeOk m
  client : ∀ x ∈ subtests evs, ∀ m ∈ x.2.2.clientMeasurements, ∃ body, decodeMeasurement K body = some m

end Verif.Spec
