import Verif.Web.Ndt5Widget
import Verif.Spec.Browser

/-!
# Specification: what the widget has to work with
-/

namespace Verif.Spec
open Verif.Go Verif.Ndt5 Verif.Web

/-- What the wrapper has heard from this page: that it is finished (ndt-wrapper.js:185-192), or that an exception left a handler (ndt-wrapper.js:92-94, 198-200). -/
def heard : Page → WidgetMsg
  | .running c => if c.finished then .completed else .nothing
  | .crashed _ => .failed

/-- The calls of `onstatechange` of this page. -/
def announcedBy : Page → List Bytes
  | .running c => c.changes
  | .crashed _ => []

/-- The phase of the widget after this many calls of `monitorTest`, one every second, while nothing happens on the page. -/
def phaseAfter (p : Page) (ndtHost : Bool) (phase : Nat) : Nat → Nat
  | 0 => phase
  | n + 1 =>
    let r := monitorTest (heard p) (widgetStatus (announcedBy p)) ndtHost phase
    if r.2 then phaseAfter p ndtHost r.1 n else r.1

/-- The names of results that this server can give a page: the two rates, the web100 variables, those of the kernel and those of the record. -/
def Given (n : Bytes) : Prop :=
  n = str "c2sRate" ∨ n = str "s2cRate" ∨ n ∈ (web100Shown {}).map Prod.fst ∨ str "TCPInfo." <+: n ∨ str "NDTResult.S2C." <+: n

end Verif.Spec
