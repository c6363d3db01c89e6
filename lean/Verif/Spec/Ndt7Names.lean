import Verif.Ndt7.Types
import Verif.Go.Float

/-!
# The texts by which ndt7 counters name things
-/

namespace Verif.Spec
open Verif.Go Verif.Ndt7

/-- The text by which counters and files name a direction. -/
def directionText : Subtest → Bytes
  | .download => str "download"
  | .upload => str "upload"

/-- The label of a result: whether there was an error, and whether there is a rate other than zero. -/
def resultText (error : Bool) (rate : F64) : Bytes :=
  match error, decide (rate = .fin 0) with
  | true, true => str "error-without-rate"
  | true, false => str "error-with-rate"
  | false, true => str "okay-without-rate"
  | false, false => str "okay-with-rate"

/-- The label of the protocol, by the end of the text of the server's address. -/
def addrProtocolText (addr : Bytes) : Bytes :=
  if str "443" <:+ addr then str "ndt7+wss" else if str "80" <:+ addr then str "ndt7+ws" else str "ndt7+unknown"

/-- The model's name of a direction is that text. -/
theorem name_eq (k : Subtest) : k.name = directionText k := by cases k <;> rfl

end Verif.Spec
