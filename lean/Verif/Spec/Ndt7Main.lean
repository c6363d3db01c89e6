import Verif.Web.Ndt7Main
import Verif.Spec.Json

/-!
# Specification: what the page that runs ndt7 is told
-/

namespace Verif.Spec
open Verif.Go Verif.Web

/-- The messages of the worker that were handled, in order. -/
def handled (as : List MainAct) : List Post := as.filterMap fun
  | .message p => some p
  | _ => none

/-- A message of the worker that tells of neither an end nor an error, and the call of a callback that it leads to: every text of the server that is JSON is handed over as what it means. -/
inductive Forwards : Post → List Call → Prop
  | start {a : Rat} {b : Option Rat} : Forwards (.start a b) [.start a b]
  | client {e : Rat} {n : Int} : Forwards (.client e n) [.client e n]
  | server {m : Bytes} {j : Json} : IsJson m j → Forwards (.server m) [.server j]
  | noJson {m : Bytes} : (∀ j, ¬ IsJson m j) → Forwards (.server m) []

/-- The same for a list of messages. -/
def ForwardsAll (ps : List Post) (cs : List Call) : Prop := ∃ css, List.Forall₂ Forwards ps css ∧ cs = css.flatten

/-- The last measurement of the client in these calls. -/
def lastClientOf (cs : List Call) : Option (Rat × Int) := (cs.filterMap fun | .client e n => some (e, n) | _ => none).getLast?

/-- The last measurement of the server in these calls. -/
def lastServerOf (cs : List Call) : Option Json := (cs.filterMap fun | .server j => some j | _ => none).getLast?

/-- The calls tell of a subtest that has ended: after what was forwarded, `complete` with the last measurements. -/
def ToldComplete (ps : List Post) (calls : List Call) : Prop := ∃ cs, ForwardsAll ps cs ∧ calls = cs ++ [.complete (lastClientOf cs) (lastServerOf cs)]

/-- The calls tell of an error: after what was forwarded, `error`. -/
def ToldError (ps : List Post) (calls : List Call) : Prop := ∃ cs, ForwardsAll ps cs ∧ calls = cs ++ [.error]

/-- The user agreed to the data policy, or it does not apply. -/
def Consent (c : UserConfig) : Prop := c.userAcceptedDataPolicy = true ∨ c.mlabDataPolicyInapplicable = true

end Verif.Spec
