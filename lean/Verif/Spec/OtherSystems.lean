import Verif.Ndt5.OtherSystems
import Verif.Spec.Session

/-!
# Specification: a session on a system other than Linux
-/

namespace Verif.Spec
open Verif.Go Verif.Ndt5

/-- What an event of a session is to the measurer of the test connection in one direction. A call of `StopMeasuring` that returned is two steps. -/
def measurerSteps (d : Dir) : Ev → List Other.Act
  | .call (.startMeasuring d') _ => if d' = d then [.start] else []
  | .call (.stopMeasuring d') _ => if d' = d then [.stop, .stopped] else []
  | _ => []

/-- The calls of `StartMeasuring` and `StopMeasuring` went as they can go on a system other than Linux. A session has at most one test connection in each direction. -/
def OnOtherSystem (evs : List Ev) : Prop := ∀ d, ∃ s, Other.measurer.Reaches (evs.flatMap (measurerSteps d)) s

/-- A test was measured: `StartMeasuring` was called. -/
def Measures (d : Dir) (evs : List Ev) : Prop := ∃ r, .call (.startMeasuring d) r ∈ evs

end Verif.Spec
