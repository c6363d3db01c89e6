import Verif.Go.Time
import Verif.Go.Path
import Verif.Spec.Ndt7

/-!
# Files of ndt7 results

The file system as far as result files are concerned, and requests that run side by side.
-/

namespace Verif.Spec
open Verif.Go Verif.Ndt7

/-- The name of a result file according to spec/data-format.md, in the directory of the day (README). Where such paths lead is said in `Props/Paths`. -/
def resultFile (dataDir : Bytes) (kind : Subtest) (t : Int) (uuid : Bytes) (compress : Bool) : Bytes :=
  [pathJoin [dataDir, str "ndt7", formatDay t], str "/ndt7-", (match kind with
    | .download => str "download"
    | .upload => str "upload"), str "-", formatStamp t, str ".", uuid, if compress then str ".json.gz" else str ".json"].flatten

/-- The state of the file system: what the files hold, and for files being written the part of the document that is not yet there
(not written yet, or kept by the compressor). -/
structure Fs where
  files : Bytes → Option Bytes
  rest : Bytes → Bytes

/-- Set the content of a file and the rest of its document. -/
def Fs.set (fs : Fs) (p content rest : Bytes) : Fs where
  files q := if q = p then some content else fs.files q
  rest q := if q = p then rest else fs.rest q

/-- The bytes that make up a result file. -/
def document (json : Result → Bytes) (gz : Bytes → Bytes) (compress : Bool) (r : Result) : Bytes :=
  if compress then gz (json r) else json r

/-- What an event of a request does to the file system. Creating is exclusive. A write that reports success has put the document into the
file if it is not compressed, otherwise into the compressor, which may or may not have put a part of it into the file; a write that fails or crashes has
put some part of the document there. Closing the compressor puts the rest there, or, if it fails or crashes, some part of the rest. -/
inductive FsStep (json : Result → Bytes) (gz : Bytes → Bytes) : Fs → Ev → Fs → Prop
  | create (fs : Fs) (p : Bytes) : fs.files p = none → FsStep json gz fs (.call (.openExcl p) (.ok none)) (fs.set p [] [])
  | createCrash (fs : Fs) (p msg : Bytes) : fs.files p = none → FsStep json gz fs (.call (.openExcl p) (.panic msg)) (fs.set p [] [])
  | noCreate (fs : Fs) (p : Bytes) (x : Outcome (Option Err)) : x ≠ .ok none → FsStep json gz fs (.call (.openExcl p) x) fs
  | write (fs : Fs) (p content a b : Bytes) (compress : Bool) (r : Result) (x : Outcome (Option Err)) :
      fs.files p = some content → document json gz compress r = a ++ b → (x = .ok none → compress = false → b = []) →
      FsStep json gz fs (.call (.write p compress r) x) (fs.set p (content ++ a) b)
  | finish (fs : Fs) (p content a b : Bytes) (x : Outcome (Option Err)) :
      fs.files p = some content → fs.rest p = a ++ b → (x = .ok none → b = []) →
      FsStep json gz fs (.call (.gzipClose p) x) (fs.set p (content ++ a) b)
  | other (fs : Fs) (e : Ev) : (∀ p x, e ≠ .call (.openExcl p) x) → (∀ p c r x, e ≠ .call (.write p c r) x) →
      (∀ p x, e ≠ .call (.gzipClose p) x) → FsStep json gz fs e fs

/-- The effect of the events of many requests, each with the number of its request. -/
inductive FsRun (json : Result → Bytes) (gz : Bytes → Bytes) (fs : Fs) : List (Nat × Ev) → Fs → Prop
  | nil : FsRun json gz fs [] fs
  | snoc (g : List (Nat × Ev)) (i : Nat) (e : Ev) (fs1 fs2 : Fs) : FsRun json gz fs g fs1 → FsStep json gz fs1 e fs2 →
      FsRun json gz fs (g ++ [(i, e)]) fs2

/-- The events of one request. -/
def mine (i : Nat) (g : List (Nat × Ev)) : List Ev := g.filterMap fun x => if x.1 = i then some x.2 else none

/-- An event that creates the file `p`. -/
def Creates (p : Bytes) (e : Ev) : Prop := e = .call (.openExcl p) (.ok none)

/-- The event concerns the file `p`. -/
def Touches (p : Bytes) (e : Ev) : Prop :=
  (∃ x, e = .call (.openExcl p) x) ∨ (∃ c r x, e = .call (.write p c r) x) ∨ (∃ x, e = .call (.gzipClose p) x) ∨ ∃ x, e = .call (.fileClose p) x

end Verif.Spec
