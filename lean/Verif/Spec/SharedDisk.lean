import Verif.Spec.Ndt5Files
import Verif.Spec.Ndt7Files

/-!
# One file system for ndt5 and ndt7

The server stores the records of ndt5 and the results of ndt7 below the same directory. Here connections of both protocols run side by side on one file system.
-/

namespace Verif.Spec
open Verif.Go

/-- An event of the ndt5 connection or of the ndt7 request with this number. -/
inductive AnyEv
  | ndt5 (i : Nat) (e : Ndt5.Ev)
  | ndt7 (i : Nat) (e : Ndt7.Ev)

/-- The events of the ndt5 connections. -/
def ndt5Of (g : List AnyEv) : List (Nat × Ndt5.Ev) := g.filterMap fun
  | .ndt5 i e => some (i, e)
  | .ndt7 _ _ => none

/-- The events of the ndt7 requests. -/
def ndt7Of (g : List AnyEv) : List (Nat × Ndt7.Ev) := g.filterMap fun
  | .ndt5 _ _ => none
  | .ndt7 i e => some (i, e)

/-- What an event does to the file system, which is the same for both protocols. `json5` and `json7` are the documents of records and results, `gz` compresses. -/
inductive DiskStep (json5 : Ndt5.Record → Bytes) (json7 : Ndt7.Result → Bytes) (gz : Bytes → Bytes) : Fs → AnyEv → Fs → Prop
  | ndt5 (fs : Fs) (i : Nat) (e : Ndt5.Ev) (files : Fs5) : Fs5Step json5 fs.files e files → DiskStep json5 json7 gz fs (.ndt5 i e) { fs with files := files }
  | ndt7 (fs fs' : Fs) (i : Nat) (e : Ndt7.Ev) : FsStep json7 gz fs e fs' → DiskStep json5 json7 gz fs (.ndt7 i e) fs'

/-- The effect of the events of many connections of both protocols. -/
inductive DiskRun (json5 : Ndt5.Record → Bytes) (json7 : Ndt7.Result → Bytes) (gz : Bytes → Bytes) (fs : Fs) : List AnyEv → Fs → Prop
  | nil : DiskRun json5 json7 gz fs [] fs
  | snoc (g : List AnyEv) (e : AnyEv) (fs1 fs2 : Fs) : DiskRun json5 json7 gz fs g fs1 → DiskStep json5 json7 gz fs1 e fs2 → DiskRun json5 json7 gz fs (g ++ [e]) fs2

/-- The directory of ndt5 records in the data directory of the server. -/
def ndt5Dir (dataDir : Bytes) : Bytes := pathClean (dataDir ++ str "/ndt5")

/-- The directory of ndt7 results. -/
def ndt7Dir (dataDir : Bytes) : Bytes := pathJoin [dataDir, str "ndt7"]

/-- The file is below the directory. -/
def Below (dir p : Bytes) : Prop := dir ++ str "/" <+: p

end Verif.Spec
