import Verif.Ndt7.Test
import Verif.Spec.Decimal
import Verif.Spec.Json

/-!
# Specification: an ndt7 subtest in which nothing goes wrong

What the machine and the client have to do, read off the steps of the subtest.
-/

namespace Verif.Spec
open Verif.Go Verif.Ndt7

/-- No call of the server fails: messages are prepared and sent, deadlines are set, the ticker is made, the kernel gives its statistics. -/
def testWorked : TAct → Prop
  | .prepare e => e = none
  | .deadline e => e = none
  | .output json ping => json = none ∧ ping = none
  | .bulk write prepare => write = none ∧ prepare = none
  | .rxDeadline e => e = none
  | .measurer (.newTicker ok) => ok = true
  | .measurer (.measure info) => ∃ b t, info = .ok (b, t)
  | _ => True

/-- The payload of a pong is the text of a 64-bit integer, as the server's pings have it. -/
def PongOk (p : Pong) : Prop := ∃ raw n, IsJson p.payload (.num raw) ∧ Decimal64 raw n

/-- What the client sends is in order: its pongs repeat the payload of pings, its text messages arrive whole and are measurements, and it sends binary messages only during an upload. It may close the connection at any time. -/
def clientKept (kind : Subtest) (measurement : Bytes → Prop) : TAct → Prop
  | .rxNext pongs i => (∀ p ∈ pongs, PongOk p) ∧ match i with
    | .broken _ => True
    | .binary => kind = .upload
    | .text pongs2 body => (∀ p ∈ pongs2, PongOk p) ∧ ∃ b, body = .ok b ∧ measurement b
  | _ => True

/-- The text messages of the client that arrived, in order. -/
def clientTexts (as : List TAct) : List Bytes := as.filterMap fun
  | .rxNext _ (.text _ (.ok b)) => some b
  | _ => none

/-- The download was to end at this amount of data and has reached it with this measurement. -/
def LimitReached (params : Params) (m : Measurement) : Prop :=
  params.isEarlyExit = true ∧ ∃ t, m.tcp = some t ∧ params.maxBytes ≤ t.info.bytesAcked

/-- Sending ended well, in this way: the connection was closed, one reason was counted, and before that neither happened. -/
def EndedWith (kind : Subtest) (reason : Bytes) (sent : List SendEv) : Prop :=
  ∃ before, sent = before ++ [.close, .count kind.name reason, .stopMeasurer] ∧ ∀ x ∈ before, x ≠ .close ∧ ∀ d r, x ≠ .count d r

end Verif.Spec
