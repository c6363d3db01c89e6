import Verif.Go.Trim
import Verif.Spec.Script

/-! # What a meta test should store, read off the events -/

namespace Verif.Spec
open Verif.Go Verif.Ndt5

/-- What was read from the control connection. -/
def recvAnswer : Ev → Option (Except Err Bytes)
  | .call .recv (.ok r) => some r
  | _ => none

/-- The replies of the client, decoded: the text (if any) and the error (if any). -/
def replies (m : Messager) (evs : List Ev) : List (Option Bytes × Option Err) :=
  (evs.filterMap recvAnswer).map fun r => m.receive r MsgType.testMsg

/-- A reply that carries a non-empty text and no error. -/
def isText (r : Option Bytes × Option Err) : Bool := r.1.getD [] ≠ [] ∧ r.2 = none

/-- The texts the client sent before anything else. -/
def texts (m : Messager) (evs : List Ev) : List Bytes := ((replies m evs).takeWhile isText).map fun r => r.1.getD []

/-- The pair of one text: split at the first colon, without surrounding white space, cut to 63 and 255 bytes. -/
def pairOf (text : Bytes) : Option NameValue :=
  if 58 ∈ text then
    some { name := (trimSpace (text.takeWhile (· ≠ 58))).take 63
           value := (trimSpace ((text.dropWhile (· ≠ 58)).drop 1)).take 255 }
  else none

/-- The answer to asking whether the deadline has passed. -/
def deadlineAnswer : Ev → Option (Option Err)
  | .call .ctxErr (.ok r) => some r
  | _ => none

/-- The deadline was found to have passed. -/
def expired (evs : List Ev) : Prop := ∃ e, some e ∈ evs.filterMap deadlineAnswer

/-- Once a deadline has passed, it stays so. -/
def DeadlineStays (evs : List Ev) : Prop :=
  List.Pairwise (fun a b => a ≠ none → b ≠ none) (evs.filterMap deadlineAnswer)

/-- The number of client messages was counted. -/
def countsValues : Ev → Bool
  | .emit (.metaValues _) => true
  | _ => false

end Verif.Spec
