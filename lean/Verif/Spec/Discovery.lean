import Verif.Web.Discovery
import Verif.Spec.Ndt7Urls

/-!
# Specification: finding a server
-/

namespace Verif.Spec
open Verif.Go Verif.Web

/-- `v` is the value of the member `name` of a JSON object: the last one of that name. -/
def LastMember (name : Bytes) (j v : Json) : Prop := ∃ before after, j = .obj (before ++ (name, v) :: after) ∧ ∀ kv ∈ after, kv.1 ≠ name

/-- A JSON value has no member of that name. -/
def Lacks (name : Bytes) (j : Json) : Prop := ∀ v, ¬ LastMember name j v

/-- The first one of the results in an answer of a load balancer. -/
def FirstResult (answer choice : Json) : Prop := ∃ rest, LastMember (str "results") answer (.arr (choice :: rest))

/-- The URL that a result has for a protocol and a test. -/
def UrlOf (choice : Json) (protocol test : Bytes) (v : Json) : Prop :=
  ∃ urls, LastMember (str "urls") choice urls ∧ LastMember (protocol ++ str ":///ndt/v7/" ++ test) urls v

/-- The protocol of the tests: encrypted, if the user does not say otherwise. -/
def Protocol (f : Finding) (p : Bytes) : Prop := f.protocol = some p ∨ (f.protocol = none ∧ p = str "wss")

/-- Who is asked: the load balancer of the user, or the locate service of M-Lab. -/
def Balancer (f : Finding) (base : Bytes) : Prop :=
  f.loadbalancer = some (some base) ∨ (f.loadbalancer = none ∧ base = str "https://locate.measurementlab.net/v2/nearest/ndt/ndt7")

end Verif.Spec
