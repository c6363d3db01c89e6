import Verif.Ndt7.Sender
import Verif.Ndt7.Receiver

/-!
# Time in an ndt7 subtest

All times are natural numbers of nanoseconds. `δ` is the time for scheduling and for operations that do not wait for anything.
-/

namespace Verif.Spec.Ndt7Timing
open Verif.Go Verif.Ndt7

/-- One second. -/
def sec : Nat := 1000000000

/-- Something done by a sender, with the times of its beginning and its end. -/
structure Timed (α : Type) where
  what : α
  b : Nat
  e : Nat

/-- The end of the last one. -/
def finish {α : Type} (t : Nat) (l : List (Timed α)) : Nat := (l.getLast?.map Timed.e).getD t

/-- What comes after waiting for the measurer: a measurement has come, or the channel was closed. -/
def afterWait : SendEv → Bool
  | .json .. => true
  | .close => true
  | _ => false

/-- How long things take for a sender begun at `t0` with this write deadline, if one has been set.
* Writes on a connection with a deadline end at the deadline, those begun later fail; writes on a connection without deadline may take any time. (The deadline of the pings,
  ping.go:17, is the same.)
* The close message has a deadline of one second (closer.go:15).
* Stopping the measurer waits for it to end, which it does ten seconds after its start, if it was not stopped earlier (measurer.go:78-79, 118-125). -/
def Takes (δ t0 : Nat) (deadline : Option Nat) : SendEv → Nat → Nat → Prop
  | .prepare _ _, b, e => e ≤ b + δ
  | .setDeadline _, b, e => e ≤ b + δ
  | .json _ err, b, e => ∀ D, deadline = some D → e ≤ max b D + δ ∧ (err = none → b ≤ D)
  | .ping err, b, e => ∀ D, deadline = some D → e ≤ max b D + δ ∧ (err = none → b ≤ D)
  | .binary _ err, b, e => ∀ D, deadline = some D → e ≤ max b D + δ ∧ (err = none → b ≤ D)
  | .close, b, e => e ≤ b + 1 * sec + δ
  | .count _ _, b, e => e ≤ b + δ
  | .stopMeasurer, b, e => e ≤ max b (t0 + 10 * sec) + δ

/-- The write deadline after something was done at time `b`: fifteen seconds later (`spec.MaxRuntime`), if it was set. -/
def nextDeadline (deadline : Option Nat) : SendEv → Nat → Option Nat
  | .setDeadline none, b => some (b + 15 * sec)
  | _, _ => deadline

/-- A possible timing of what a sender does, from time `p` on. Between two things there is only a pause if the sender waits for the measurer, which ends ten seconds after its
start at the latest. -/
def Timing (δ t0 : Nat) : Option Nat → Nat → List (Timed SendEv) → Prop
  | _, _, [] => True
  | dl, p, x :: rest => p ≤ x.b ∧ x.b ≤ (if afterWait x.what then max p (t0 + 10 * sec) else p) + δ ∧ x.b ≤ x.e ∧ Takes δ t0 dl x.what x.b x.e ∧
      Timing δ t0 (nextDeadline dl x.what x.b) x.e rest

/-- A possible timing of the iterations of a receiver whose own context and whose read deadline end at `R`; the grace `g` is for messages that the websocket library has already
read and for its answers to control messages. The loop only goes on while the context has not ended. -/
def RxTiming (δ g R : Nat) : Nat → List (Timed RxAns) → Prop
  | _, [] => True
  | p, x :: rest => p ≤ x.b ∧ x.b ≤ p + δ ∧ x.b ≤ x.e ∧
      (match x.what with
       | .expired => x.e ≤ x.b + δ
       | .next _ _ => x.b ≤ R ∧ x.e ≤ max x.b R + g) ∧ RxTiming δ g R x.e rest

end Verif.Spec.Ndt7Timing
