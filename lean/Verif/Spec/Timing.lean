import Verif.Ndt5.World
import Verif.Spec.Script

/-!
# How long an ndt5 session takes

Time zero is the creation of the 45-second context (ndt5.go:121). A timed execution gives every event a duration in nanoseconds; what is computed in between takes
no time.
-/

namespace Verif.Spec
open Verif.Go Verif.Ndt5

/-- One second. -/
def sec : Nat := 1000000000

/-- Total duration. -/
def elapsed (l : List (Ev × Nat)) : Nat := (l.map Prod.snd).sum

/-- The durations obey `P`, which depends on the time at which the event begins. -/
def Meets (P : Nat → Ev → Nat → Prop) : Nat → List (Ev × Nat) → Prop
  | _, [] => True
  | t, (e, d) :: rest => P t e d ∧ Meets P (t + d) rest

/-- Operations whose duration depends on the client. They have no deadline in the code: there is no call of `SetDeadline`, `SetReadDeadline` or `SetWriteDeadline` in ndt5. -/
def onClient : Ev → Bool
  | .call (.send _) _ => true
  | .call .recv _ => true
  | .call (.close _) _ => true
  | .call (.fill _) _ => true
  | _ => false

/-- What the code guarantees whatever the client does, with `δ` as time for scheduling and for operations of the server itself: waiting for a test connection ends after 30 seconds
and with the context (s2c.go:50, c2s.go:41, singleserving/server.go:51-62, 180-188), waiting for the end of an upload after 10 seconds and with the context (c2s.go:143-170). -/
def ServerLimits (δ : Nat) (t : Nat) (e : Ev) (d : Nat) : Prop :=
  match e with
  | .call (.accept _) _ => d ≤ 30 * sec + δ ∧ t + d ≤ max t (45 * sec) + δ
  | .call .drain _ => d ≤ 10 * sec + δ ∧ t + d ≤ max t (45 * sec) + δ
  | _ => onClient e = false → d ≤ δ

/-- A client that never keeps the server waiting: messages take at most `δ`, and the download ends at most `δ` after its ten seconds (s2c.go:102-103). -/
def ClientPrompt (δ : Nat) (_ : Nat) (e : Ev) (d : Nat) : Prop :=
  match e with
  | .call (.fill _) _ => d ≤ 10 * sec + δ
  | _ => onClient e = true → d ≤ δ

/-- The kernel's statistics have at most `K` members that are sent to the client. -/
def SmallStats (K : Nat) (e : Ev) : Prop :=
  match e with
  | .call (.stopMeasuring _) (.ok (.ok w)) => ∀ pre, (metricLines pre w.tcpInfo.reflected).length ≤ K
  | _ => True

/-- The event is the download's bulk transfer. -/
def isFill : Ev → Bool
  | .call (.fill _) _ => true
  | _ => false

end Verif.Spec
