import Verif.Spec.Ndt7

/-! # Specification: an ndt7 request in which nothing goes wrong -/

namespace Verif.Spec
open Verif.Go Verif.Ndt7

/-- The machine does its part: no call crashes, the connection can be upgraded and has a UUID. -/
def requestWorked : Ev → Prop
  | .call _ (.panic _) => False
  | .call .upgrade (.ok e) => e = none
  | .call .uuid (.ok r) => ∃ u, r = .ok u
  | _ => True

end Verif.Spec
