import Verif.Ndt5.Protocol

/-!
# Specification: how a message stream is cut into pieces
-/

namespace Verif.Spec
open Verif.Go Verif.Ndt5

/-- The bytes of a sequence of messages. -/
def wire (ms : List (MsgType × Bytes)) : Bytes := ms.flatMap (fun m => tlvFrame m.1 m.2)

/-- The parts of a message a receiver looks at: the three header bytes and the body, if not empty. -/
def messageParts (m : MsgType × Bytes) : List Bytes :=
  let header := (tlvFrame m.1 m.2).take 3
  if m.2 = [] then [header] else [header, m.2]

/-- The data arrives in pieces none of which ends inside a header or inside a body: every piece consists of one or
more whole headers and bodies. -/
def WholeParts (ms : List (MsgType × Bytes)) (segs : List Bytes) : Prop :=
  ∃ groups : List (List Bytes), groups.flatten = ms.flatMap messageParts ∧
    segs = groups.map List.flatten ∧ ∀ g ∈ groups, g ≠ []

end Verif.Spec
