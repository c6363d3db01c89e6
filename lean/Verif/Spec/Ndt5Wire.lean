import Verif.Ndt5.Wire
import Verif.Spec.Ndt7Wire
import Verif.Spec.Archive

/-!
# Specification: ndt5 records as Go holds them and as a reader of their JSON sees them
-/

namespace Verif.Spec
open Verif.Go Verif.Ndt5
open Verif.Ndt7 (Layout)

/-- A number is a `float64`. -/
def IsDouble (x : F64) : Prop := ∀ q, x = .fin q → F64.round q = .fin q

/-- What is assumed of the library's writing of floating point numbers: a finite `float64` is written as a JSON number that reads back as the same number. -/
def FloatsOk (ft : FloatText) : Prop := ∀ q, F64.round q = .fin q → IsNumber (ft.write (.fin q)) ∧ ft.read (ft.write (.fin q)) = some (.fin q)

/-- The values of an upload fit the types of the fields, and its times can be written. -/
structure UploadTyped (z : Int) (c : C2SRecord) : Prop where
  ports : InInt64 c.serverPort ∧ InInt64 c.clientPort
  times : Stamp.Writable ⟨c.startTime, z⟩ ∧ Stamp.Writable ⟨c.endTime, z⟩
  rate : IsDouble c.mean

/-- The same for a download. -/
structure DownloadTyped (K : Layout) (z : Int) (d : S2CRecord) : Prop where
  ports : InInt64 d.serverPort ∧ InInt64 d.clientPort
  times : Stamp.Writable ⟨d.startTime, z⟩ ∧ Stamp.Writable ⟨d.endTime, z⟩
  rates : IsDouble d.mean ∧ IsDouble d.clientMbps
  rtts : InInt64 d.minRTT ∧ InInt64 d.maxRTT ∧ InInt64 d.sumRTT
  tcp : ∀ t, d.tcpInfo = some t → List.Forall₂ (fun f n => IntRange f.2.1 f.2.2 n) K.fields (K.ints t)

/-- The same for a record; `z` is the zone of the server's clock. -/
structure RecordTyped (K : Layout) (z : Int) (r : Record) : Prop where
  ports : InInt64 r.serverPort ∧ InInt64 r.clientPort
  times : Stamp.Writable ⟨r.startTime, z⟩ ∧ Stamp.Writable ⟨r.endTime, z⟩
  upload : ∀ c, r.c2s = some c → UploadTyped z c
  download : ∀ d, r.s2c = some d → DownloadTyped K z d

/-- An upload as its reader sees it: bytes that are not UTF-8 are replaced by U+FFFD. -/
def seenUpload (c : C2SRecord) : C2SRecord :=
  { c with serverIP := toValid c.serverIP, clientIP := toValid c.clientIP, uuid := toValid c.uuid, error := toValid c.error }

/-- A download as its reader sees it. -/
def seenDownload (d : S2CRecord) : S2CRecord :=
  { d with serverIP := toValid d.serverIP, clientIP := toValid d.clientIP, uuid := toValid d.uuid, error := toValid d.error }

/-- A record as its reader sees it. -/
def seenRecord (r : Record) : Record :=
  { r with
    gitShortCommit := toValid r.gitShortCommit, version := toValid r.version, serverIP := toValid r.serverIP, clientIP := toValid r.clientIP, uuid := toValid r.uuid
    protocol := toValid r.protocol, messageProtocol := toValid r.messageProtocol, clientMetadata := r.clientMetadata.map seenPair
    serverMetadata := r.serverMetadata.map seenPair, c2s := r.c2s.map seenUpload, s2c := r.s2c.map seenDownload }

end Verif.Spec
