import Verif.Spec.Archive
import Verif.Spec.Ndt5Wire

/-!
# An environment that keeps to its types

What an ndt5 session is told by the clock, the sockets and the kernel: values of the types that these calls have in the server.
-/

namespace Verif.Spec
open Verif.Go Verif.Ndt5
open Verif.Ndt7 (Layout)

/-- The clock says times that can be written in the server's zone (four digits for the year), sockets have `int` ports, the kernel's values fit the fields of `tcp_info`. -/
structure TypedEnv (K : Layout) (z : Int) (evs : List Ev) : Prop where
  clock : ∀ t, .clock t ∈ evs → Stamp.Writable ⟨t, z⟩
  ports : ∀ c (a : Addrs), .call (.addrs c) (.ok a) ∈ evs → InInt64 a.serverPort ∧ InInt64 a.clientPort
  kernel : ∀ w : Metrics, .call (.stopMeasuring .s2c) (.ok (.ok w)) ∈ evs → List.Forall₂ (fun f n => IntRange f.2.1 f.2.2 n) K.fields (K.ints w.tcpInfo)

end Verif.Spec
