import Verif.Go.Prog

/-!
# Specification: what a user of the ndt7 client for browsers tells the server of itself
-/

namespace Verif.Spec
open Verif.Go

/-- The metadata of a test: the name and the version of the library, and what the user gives besides, which cannot overwrite these two. -/
def Meant (user : List (Bytes × Bytes)) (n v : Bytes) : Prop :=
  if n = str "client_library_name" then v = str "ndt7-js"
  else if n = str "client_library_version" then v = str "0.0.6"
  else (n, v) ∈ user

end Verif.Spec
