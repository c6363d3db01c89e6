import Verif.Web.Ndt7Html
import Verif.Spec.Ndt7Page
import Verif.Spec.Ndt7Main

/-!
# Specification: the page html/ndt7.html
-/

namespace Verif.Spec
open Verif.Go Verif.Web
open Verif.Ndt7 (Subtest)

/-- The document has a member of this name that is not `null`, and none of the same name after it. -/
def HasMember (name : String) (j : Json) : Prop := ∃ before v after, j = .obj (before ++ (str name, v) :: after) ∧ v ≠ .null ∧ ∀ w, (str name, w) ∉ after

/-- The last message of the server that is JSON is a document that has this. -/
def LastServer (P : Json → Prop) (ps : List Post) : Prop :=
  ∃ before m after j, ps = before ++ .server m :: after ∧ IsJson m j ∧ P j ∧ ∀ m', .server m' ∈ after → ∀ j', ¬ IsJson m' j'

/-- What a page shows at the end of a subtest is known: the last measurement of the server has the kernel's statistics that are shown, and for a download there is a measurement of the client. -/
def Furnished (k : Subtest) (ps : List Post) : Prop :=
  match k with
  | .download => LastServer (HasMember "BBRInfo") ps ∧ ∃ e n, .client e n ∈ ps
  | .upload => LastServer (HasMember "TCPInfo") ps

/-- The event that ends a subtest: the timeout, or the worker's word that it is complete. -/
def Ends : MainAct → Prop
  | .timeout => True
  | .message .complete => True
  | _ => False

end Verif.Spec
