import Verif.Go.Time
import Verif.Go.Path
import Verif.Spec.Control

/-!
# Files of ndt5 records

The file system as far as ndt5 records are concerned, and control connections that run side by side.
-/

namespace Verif.Spec
open Verif.Go Verif.Ndt5

/-- The UUID that stands for an unidentified connection. -/
def unidentified : Bytes := str "ERROR_DISCOVERING_UUID"

/-- The directory of a day: `day` is the date as text. Where such paths lead is said in `Props/Paths`. -/
def dayDir (dataDir day : Bytes) : Bytes := pathJoin [dataDir, day]

/-- The file of an identified connection. -/
def recordFile (dataDir day uuid : Bytes) : Bytes := pathJoin [dayDir dataDir day, uuid ++ str ".json"]

/-- A name that `ioutil.TempFile(dir, "ERROR_DISCOVERING_UUID*.json")` chooses. -/
def TempName (dir p : Bytes) : Prop := ∃ number, p = dir ++ str "/" ++ unidentified ++ number ++ str ".json"

/-- The content of files, by name. -/
abbrev Fs5 := Bytes → Option Bytes

/-- Set the content of a file. -/
def Fs5.set (fs : Fs5) (p content : Bytes) : Fs5 := fun q => if q = p then some content else fs q

/-- What an event of a control connection does to the file system. `os.Create` empties a file that exists. `ioutil.TempFile` chooses a name that is not in use.
A successful write to a file that is empty puts the document there; one that fails or crashes puts a part of it there. Nothing is assumed about writing to a file that is not
empty, as happens when two connections write to the same file. -/
inductive Fs5Step (json : Record → Bytes) : Fs5 → Ev → Fs5 → Prop
  | create (fs : Fs5) (p : Bytes) : Fs5Step json fs (.call (.create p) (.ok none)) (fs.set p [])
  | createCrash (fs : Fs5) (p msg : Bytes) : Fs5Step json fs (.call (.create p) (.panic msg)) (fs.set p [])
  | noCreate (fs : Fs5) (p : Bytes) (x : Outcome (Option Err)) : x ≠ .ok none → Fs5Step json fs (.call (.create p) x) fs
  | temp (fs : Fs5) (dir p : Bytes) : TempName dir p → fs p = none → Fs5Step json fs (.call (.tempFile dir) (.ok (.ok p))) (fs.set p [])
  | tempCrash (fs : Fs5) (dir p msg : Bytes) : TempName dir p → fs p = none → Fs5Step json fs (.call (.tempFile dir) (.panic msg)) (fs.set p [])
  | noTemp (fs : Fs5) (dir : Bytes) (x : Outcome (Except Err Bytes)) : (∀ p, x ≠ .ok (.ok p)) → Fs5Step json fs (.call (.tempFile dir) x) fs
  | write (fs : Fs5) (p content content' : Bytes) (r : Record) (x : Outcome (Option Err)) : fs p = some content →
      (content = [] → content' <+: json r) → (content = [] → x = .ok none → content' = json r) →
      Fs5Step json fs (.call (.write p r) x) (fs.set p content')
  | other (fs : Fs5) (e : Ev) : (∀ p x, e ≠ .call (.create p) x) → (∀ d x, e ≠ .call (.tempFile d) x) → (∀ p r x, e ≠ .call (.write p r) x) →
      Fs5Step json fs e fs

/-- The effect of the events of many connections, each with the number of its connection. -/
inductive Fs5Run (json : Record → Bytes) (fs : Fs5) : List (Nat × Ev) → Fs5 → Prop
  | nil : Fs5Run json fs [] fs
  | snoc (g : List (Nat × Ev)) (i : Nat) (e : Ev) (fs1 fs2 : Fs5) : Fs5Run json fs g fs1 → Fs5Step json fs1 e fs2 → Fs5Run json fs (g ++ [(i, e)]) fs2

/-- The events of one connection. -/
def own (i : Nat) (g : List (Nat × Ev)) : List Ev := g.filterMap fun x => if x.1 = i then some x.2 else none

/-- The connection has opened the file `p`. -/
def Opens (p : Bytes) (e : Ev) : Prop := e = .call (.create p) (.ok none) ∨ ∃ d, e = .call (.tempFile d) (.ok (.ok p))

end Verif.Spec
