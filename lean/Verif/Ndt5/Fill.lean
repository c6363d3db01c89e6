import Verif.Ndt5.Download

/-!
# `FillUntil` (ndt5/protocol/protocol.go:182-195 and 276-285)
-/

namespace Verif.Ndt5
open Verif.Go

/-- What the environment answers in one iteration: the clock and, if a write is made, how many bytes of the buffer were accepted by the
connection and the error. -/
structure FillAns where
  now : Int
  accepted : Nat
  err : Option Err

/-- What happens: the clock is read, or the buffer is written. -/
inductive FillEv
  | clock (now : Int)
  | write (payload : Bytes) (accepted : Nat) (err : Option Err)

/-- The loops of protocol.go:187-193 (websocket) and 277-283 (raw), given the answers of the environment to the coming iterations: the
events, and the result once the loop ends. On a websocket the length of the buffer is added, on a raw connection what `Write`
returned. The byte count is an int64 in the code; it is unbounded here. -/
def fillLoop (ws : Bool) (deadline : Int) (buf : Bytes) : List FillAns → Nat → List FillEv × Option (Nat × Option Err)
  | [], _ => ([], none)
  | a :: as, n =>
    if a.now < deadline then
      match a.err with
      | some e => ([.clock a.now, .write buf a.accepted (some e)], some (n, some e))
      | none =>
        let r := fillLoop ws deadline buf as (n + if ws then buf.length else a.accepted)
        (.clock a.now :: .write buf a.accepted none :: r.1, r.2)
    else ([.clock a.now], some (n, none))

/-- `FillUntil`. `prepErr` is the error of `NewPreparedMessage` (protocol.go:183-186); raw connections have none. -/
def fillUntil (ws : Bool) (prepErr : Option Err) (deadline : Int) (buf : Bytes) (as : List FillAns) :
    List FillEv × Option (Nat × Option Err) :=
  match ws, prepErr with
  | true, some e => ([], some (0, some e))
  | _, _ => fillLoop ws deadline buf as 0

end Verif.Ndt5
