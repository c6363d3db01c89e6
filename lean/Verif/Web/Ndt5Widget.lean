import Verif.Web.Ndt5Client
import Mathlib.Algebra.Order.Field.Rat
import Mathlib.Data.Rat.Floor
import Mathlib.Data.Int.Log

/-!
# The widget around the ndt5 client for browsers: html/ndt-wrapper.js and html/script.js

The wrapper is modelled with a web worker (ndt-wrapper-ww.js): its callbacks get copies of the results, and an exception that leaves a handler of the client is reported by the `error` event of the worker. Of `script.js`,
`monitorTest` and the values on the page with the results are modelled; of numbers, the whole ones. Fading, gauges and the table with all variables are left out.
-/

namespace Verif.Web
open Verif.Go

/-- The interval that the wrapper asks for, in milliseconds (ndt-wrapper.js:36). -/
def widgetInterval : Int := 1000

/-- `_errmsg`: empty, "Test completed", or "Test failed: …" (ndt-wrapper.js:55, 186, 199). -/
inductive WidgetMsg | nothing | completed | failed
  deriving DecidableEq

/-- `_status` (ndt-wrapper.js:56, 162, 169). -/
inductive WidgetStatus | notStarted | outbound | inbound
  deriving DecidableEq

/-- `onstatechange_cb` as far as it changes the status (ndt-wrapper.js:160-174), for all changes so far. -/
def widgetStatus (changes : List Bytes) : WidgetStatus :=
  changes.foldl (fun st n => if n = str "running_s2c" then .inbound else if n = str "running_c2s" then .outbound else st) .notStarted

/-- One call of `monitorTest` (script.js:91-133), given whether the host's name has "ndt" in it (it is never `unknown`): the phase afterwards, and whether there will be another call. The phases are 1 welcome, 2 preparing,
3 upload, 4 download and 5 results. (No message has "not run" in it.) -/
def monitorTest (m : WidgetMsg) (st : WidgetStatus) (ndtHost : Bool) (phase : Nat) : Nat × Bool :=
  if m ≠ .nothing ∧ phase < 5 then (5, false)
  else
    let p := if st = .outbound ∧ phase < 3 then 3 else phase
    let p := if st = .inbound ∧ p < 4 then 4 else p
    let p := if st ≠ .notStarted ∧ ndtHost = false ∧ p = 2 then 3 else p
    (if p < 2 then 2 else p, true)

/-- A value as whole number, if it is one: `Number`, or `parseFloat` of it. -/
def wholeOf : Val → Option Int
  | .undef => none
  | .number t => atoi t
  | .text t => atoi t
  | .own t => atoi t

/-- `_ndt_vars['Jitter']` (ndt-wrapper.js:190). -/
def jitterOf (c : Client) : Option Int :=
  match wholeOf (c.get (str "MaxRTT")), wholeOf (c.get (str "MinRTT")) with
  | some a, some b => some (a - b)
  | _, _ => none

/-- `readNDTvar` (script.js:485-488): `none` is the dash. -/
def readNDTvar (c : Client) (name : Bytes) : Option Bytes :=
  match c.get name with
  | .undef => none
  | .text t => if t = [] then none else some t
  | .number t => some t
  | .own t => some t

/-- The names of the units (script.js:463). -/
def speedUnits : List Bytes := [str "kb/s", str "Mb/s", str "Gb/s", str "Tb/s", str "Pb/s", str "Eb/s"]

/-- `getSpeedUnit` (script.js:462-466) for a speed in Mb/s; `none` is `undefined`. Logarithms are exact; that of zero is negative infinity, and that of a negative number is not a number. -/
def getSpeedUnit (speed : Rat) : Option Bytes :=
  if speed ≤ 0 then none else
    let e := Int.log 1000 (speed * 1000)
    if 0 ≤ e then speedUnits[e.toNat]? else none

/-- `toFixed(2)`: the closest number with two decimals, the larger one of two. -/
def toFixed2 (x : Rat) : Rat := (⌊x * 100 + 1 / 2⌋ : Rat) / 100

/-- `getJustfiedSpeed` (script.js:468-471); `none` is `NaN`. -/
def getJustfiedSpeed (speed : Rat) : Option Rat :=
  if speed ≤ 0 then none else some (toFixed2 (speed / (1000 : Rat) ^ Int.log 1000 speed))

/-- What the page with the results shows; `none` is the dash, for a speed `NaN`, and for its unit `undefined`. -/
structure ResultsPage where
  /-- the number and the unit -/
  upload : Option Rat × Option Bytes
  download : Option Rat × Option Bytes
  /-- in milliseconds -/
  latency : Option Int
  /-- the difference, and whether it is in seconds -/
  jitter : Option (Rat × Bool)
  /-- in percent -/
  packetLoss : Option Rat
  minRTT : Option Bytes
  maxRTT : Option Bytes
  timeoutCounter : Option Bytes
  duplicateAcks : Option Bytes
  maxWindow : Option Bytes
  duplexMismatch : Bool
  cableFault : Bool
  congestion : Bool

/-- `printUploadSpeed` and `printDownloadSpeed` (script.js:473-483), for the rate in kb/s that the client has (ndt-wrapper.js:188-189). -/
def speedShown (rate : Option Int) : Option Rat × Option Bytes :=
  match rate with
  | none => (none, none)
  | some k => (getJustfiedSpeed ((k : Rat) / 1000), getSpeedUnit ((k : Rat) / 1000))

/-- `setPhase(PHASE_RESULTS)` (script.js:209-221) with `averageRoundTrip`, `printJitter` and `testDetails` (script.js:430-460, 494-554), for the results that `onfinish` got (ndt-wrapper.js:185-192). -/
def resultsPage (c : Client) : ResultsPage where
  upload := speedShown (wholeOf (c.get (str "c2sRate")))
  download := speedShown (wholeOf (c.get (str "s2cRate")))
  latency := wholeOf (c.get (str "avgrtt"))
  jitter := (jitterOf c).map fun (j : Int) => if j ≥ 1000 then ((j : Rat) / 1000, true) else ((j : Rat), false)
  packetLoss := (wholeOf (c.get (str "loss"))).map fun (n : Int) => (n : Rat) * 100
  minRTT := readNDTvar c (str "MinRTT")
  maxRTT := readNDTvar c (str "MaxRTT")
  timeoutCounter := readNDTvar c (str "CurRTO")
  duplicateAcks := readNDTvar c (str "DupAcksIn")
  maxWindow := readNDTvar c (str "MaxRwinRcvd")
  duplexMismatch := readNDTvar c (str "mismatch") = some (str "yes")
  cableFault := readNDTvar c (str "bad_cable") = some (str "yes")
  congestion := readNDTvar c (str "congestion") = some (str "yes")

end Verif.Web
