import Verif.Ndt7.Results
import Verif.Spec.Ndt7Names

/-!
# What is observed of an ndt7 request

These definitions look only at the events of a request and at its data types.
-/

namespace Verif.Spec
open Verif.Go Verif.Ndt7

/-- The events that concern the result file and the flow. -/
inductive Mark
  | created (t : Int) (uuid : Bytes) (id : SockId)
  /-- a new file was created -/
  | opened (path : Bytes)
  /-- a result was written to a file -/
  | wrote (path : Bytes) (r : Result)
  | deleted (t : Int) (uuid : Bytes)

/-- The mark of an event. -/
def mark : Ev → Option Mark
  | .emit (.flowCreated t u id) => some (.created t u id)
  | .emit (.flowDeleted t u) => some (.deleted t u)
  | .call (.openExcl p) (.ok none) => some (.opened p)
  | .call (.write p _ r) (.ok none) => some (.wrote p r)
  | _ => none

/-- The marks of a request, in order. -/
def marks (evs : List Ev) : List Mark := evs.filterMap mark

/-- The statuses under which a request is counted. -/
def statuses (evs : List Ev) : List (Bytes × Bytes) := evs.filterMap fun
  | .emit (.connection k st) => some (k, st)
  | _ => none

/-- The test results counted. -/
def testResults (evs : List Ev) : List (Bytes × Bytes × Bytes) := evs.filterMap fun
  | .emit (.testResult p k r) => some (p, k, r)
  | _ => none

/-- The rates put into the histogram. -/
def rates (evs : List Ev) : List (Bytes × Bytes × F64) := evs.filterMap fun
  | .emit (.testRate p k _ r) => some (p, k, r)
  | _ => none

/-- The HTTP answers given by the handler itself. -/
def responses (evs : List Ev) : List Nat := evs.filterMap fun
  | .emit (.respond n) => some n
  | _ => none

/-- Was an upgrade tried. -/
def Upgrades (evs : List Ev) : Prop := ∃ r, .call .upgrade r ∈ evs

/-- The process did not end because a result could not be written. -/
def NoExit (evs : List Ev) : Prop := ∀ m, .emit (.exit m) ∉ evs

/-- The library calls outside the subtest and its evaluation. -/
def atSetup : Call → Bool
  | .subtest _ _ => false
  | .localText => false
  | .isMonitoring => false
  | _ => true

/-- None of the library calls outside the subtest and its evaluation crashed. -/
def SetupOk (evs : List Ev) : Prop := ∀ q msg, .call q (.panic msg) ∈ evs → atSetup q = false

/-- None of the library calls of the evaluation of the subtest crashed. -/
def EvalOk (evs : List Ev) : Prop := ∀ q msg, .call q (.panic msg) ∈ evs → atSetup q = true

/-- How a subtest ended, if there was one. -/
def subtests (evs : List Ev) : List (Subtest × Option Params × SubtestEnd) := evs.filterMap fun
  | .call (.subtest k p) (.ok e) => some (k, p, e)
  | _ => none

/-- The archival data of a direction. -/
def under (k : Subtest) (r : Result) : Option ArchivalData :=
  match k with
  | .download => r.download
  | .upload => r.upload

/-- The other direction. -/
def other : Subtest → Subtest
  | .download => .upload
  | .upload => .download

end Verif.Spec
