import Verif.Spec.SharedDisk
import Verif.Ndt7.Handler
import Mathlib.Data.Finset.Card

/-!
# The metrics of the process

A metric is one for the whole process: every connection of either protocol updates it. What an operator reads at some moment is the sum of all updates made so far.
-/

namespace Verif.Spec
open Verif.Go

/-- The gauge `ndt_active_tests` for a protocol, after these events: it starts at zero. Only ndt5 updates it. -/
def gauge (label : Bytes) (g : List AnyEv) : Int := (g.map fun
  | .ndt5 _ (.emit (.activeTests l d)) => if l = label then d else 0
  | _ => 0).sum

/-- How many of the events so far are ndt5 events of this kind. -/
def tally (p : Ndt5.Ev → Bool) (g : List AnyEv) : Nat := g.countP fun
  | .ndt5 _ e => p e
  | .ndt7 _ _ => false

/-- How many of the events so far are ndt7 events of this kind. -/
def tally7 (p : Ndt7.Ev → Bool) (g : List AnyEv) : Nat := g.countP fun
  | .ndt5 _ _ => false
  | .ndt7 _ e => p e

/-- `ndt5_control_total` is incremented, with this result. -/
def countsControl (label result : Bytes) : Ndt5.Ev → Bool
  | .emit (.controlCount l r) => l = label && r = result
  | _ => false

/-- `ndt5_control_total` is incremented, with any result. -/
def countsAnyControl (label : Bytes) : Ndt5.Ev → Bool
  | .emit (.controlCount l _) => l = label
  | _ => false

/-- `ndt5_control_panic_total` is incremented, with any kind of panic. -/
def countsPanic (label : Bytes) : Ndt5.Ev → Bool
  | .emit (.panicCount l _) => l = label
  | _ => false

/-- `ndt5_control_channel_duration` gets an observation. -/
def countsDuration (label : Bytes) : Ndt5.Ev → Bool
  | .emit (.duration l _) => l = label
  | _ => false

/-- `ndt5_measurementserver_start_total` is incremented. -/
def countsStart (protocol : Bytes) : Ndt5.Ev → Bool
  | .emit (.serverStart k) => k = protocol
  | _ => false

/-- `ndt5_measurementserver_stop_total` is incremented. -/
def countsStop (protocol : Bytes) : Ndt5.Ev → Bool
  | .emit (.serverStop k) => k = protocol
  | _ => false

/-- `ndt5_measurementserver_start_total` is incremented, for any protocol. -/
def countsAnyStart : Ndt5.Ev → Bool
  | .emit (.serverStart _) => true
  | _ => false

/-- `ndt5_measurementserver_stop_total` is incremented, for any protocol. -/
def countsAnyStop : Ndt5.Ev → Bool
  | .emit (.serverStop _) => true
  | _ => false

/-- A test server could not be started: its listener was not opened. -/
def listenFails : Ndt5.Ev → Bool
  | .call (.listen _) (.ok (.ok _)) => false
  | .call (.listen _) _ => true
  | _ => false

/-- The listener of a test server was opened. -/
def listenWorks : Ndt5.Ev → Bool
  | .call (.listen _) (.ok (.ok _)) => true
  | _ => false

/-- The listener of a test server was closed. -/
def listenEnds : Ndt5.Ev → Bool
  | .emit (.closeListener _) => true
  | _ => false

/-- `ndt7_client_connections_total` is incremented for a direction, with this status. -/
def countsConnection (direction status : Bytes) : Ndt7.Ev → Bool
  | .emit (.connection k st) => k = direction && st = status
  | _ => false

/-- `ndt7_client_connections_total` is incremented for a direction, with any status. -/
def countsAnyConnection (direction : Bytes) : Ndt7.Ev → Bool
  | .emit (.connection k _) => k = direction
  | _ => false

/-- `ndt7_client_test_results_total` is incremented for a direction. -/
def countsAnyResult (direction : Bytes) : Ndt7.Ev → Bool
  | .emit (.testResult _ k _) => k = direction
  | _ => false

/-- The measurement pipeline is told of a new flow. -/
def tellsCreated : Ndt7.Ev → Bool
  | .emit (.flowCreated _ _ _) => true
  | _ => false

/-- The measurement pipeline is told of the end of a flow. -/
def tellsDeleted : Ndt7.Ev → Bool
  | .emit (.flowDeleted _ _) => true
  | _ => false

/-- The server has begun to serve the control connection. Its first action is the update of the gauge. -/
def Begun (i : Nat) (g : List AnyEv) : Prop := own i (ndt5Of g) ≠ []

/-- The server has finished serving the control connection: what it did is a whole execution. -/
def Over (cfg : Nat → Ndt5.Cfg) (i : Nat) (g : List AnyEv) : Prop := ∃ out, Exec (Ndt5.HandleControlChannel (cfg i)) () (own i (ndt5Of g)) out ()

/-- The control connection is being served. -/
def InProgress (cfg : Nat → Ndt5.Cfg) (i : Nat) (g : List AnyEv) : Prop := Begun i g ∧ ¬ Over cfg i g

/-- The server has begun to serve the ndt7 request. -/
def Begun7 (i : Nat) (g : List AnyEv) : Prop := mine i (ndt7Of g) ≠ []

/-- The server has finished serving the ndt7 request. -/
def Over7 (srv : Nat → Ndt7.Server) (kind : Nat → Ndt7.Subtest) (req : Nat → Ndt7.Request) (i : Nat) (g : List AnyEv) : Prop :=
  ∃ out s, Exec (Ndt7.runMeasurement (srv i) (kind i) (req i)) {} (mine i (ndt7Of g)) out s

/-- These are the connections for which the claim holds. -/
def Are (S : Finset Nat) (p : Nat → Prop) : Prop := ∀ i, i ∈ S ↔ p i

end Verif.Spec
