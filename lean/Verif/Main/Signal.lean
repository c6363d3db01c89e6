import Verif.Go.LTS

/-!
# Signals, lame duck and health checks (ndt-server.go)

One goroutine runs `catchSigterm`; requests to `/health`, readings of the metric and signals come at any time. Outside `catchSigterm` the model has
the runtime's part of `os/signal`: before `signal.Notify` a SIGTERM ends the process (the default action); afterwards the runtime does
`select { case c <- sig: default: }` for the registered channel `c` of capacity 1, so that a signal is dropped when the buffer is full and the
send panics when `c` is closed. `catchSigterm` closes `c` and never calls `signal.Stop`.
-/

namespace Verif.Main
open Verif.Go

/-- Where `catchSigterm` stands. -/
inductive CatchPc
  /-- ndt-server.go:83 → 177, `isLameDuck = false` -/
  | clearFlag
  /-- ndt-server.go:83 → 178, `lameDuck.Set(0)` -/
  | clearMetric
  /-- ndt-server.go:86-88 -/
  | listen
  /-- ndt-server.go:91 -/
  | wait1
  /-- ndt-server.go:98 → 177, `isLameDuck = true` -/
  | setFlag
  /-- ndt-server.go:98 → 178, `lameDuck.Set(1)` -/
  | setMetric
  /-- ndt-server.go:101 -/
  | wait2
  /-- ndt-server.go:104 -/
  | stop
  /-- ndt-server.go:87, the deferred `close(c)` -/
  | close
  | ended
deriving DecidableEq

/-- What has become of the process. -/
inductive Life
  | running
  /-- ended by the default action of SIGTERM -/
  | killed
  /-- ended by a panic in the goroutine of the runtime that delivers signals -/
  | crashed
  /-- `main` has returned -/
  | exited
deriving DecidableEq

/-- The process. -/
structure Proc where
  life : Life := .running
  pc : CatchPc := .clearFlag
  /-- `isLameDuck` -/
  flag : Bool := false
  /-- the value of the gauge `lameDuck` -/
  metric : Nat := 0
  /-- `signal.Notify` has been called -/
  registered : Bool := false
  /-- is there a signal in the buffer of `c` -/
  buf : Bool := false
  closed : Bool := false
  /-- is the context of the program cancelled -/
  cancelled : Bool := false

/-- Steps. -/
inductive SigAct
  /-- a SIGTERM arrives -/
  | sigterm
  /-- the context is cancelled by something other than `catchSigterm` (as the tests do) -/
  | cancel
  /-- a request to `/health` is answered with a status code, ndt-server.go:183-189 -/
  | health (code : Nat)
  /-- the metric is read -/
  | scrape (value : Nat)
  /-- the steps of `catchSigterm` in the order of the code -/
  | clearFlag | clearMetric | listen
  /-- the first `select` receives a signal -/
  | term1
  /-- the first `select` sees the end of the context -/
  | done1
  | setFlag | setMetric
  /-- the second `select` receives a signal -/
  | term2
  /-- the second `select` sees the end of the context -/
  | done2
  /-- `cancel()` in `catchSigterm` -/
  | stop
  | close
  /-- `main` sees the end of the context and returns, ndt-server.go:340 -/
  | exit
deriving DecidableEq

/-- `handleHealth`, ndt-server.go:183-189. -/
def healthCode (isLameDuck : Bool) : Nat := if isLameDuck then 500 else 200

/-- One step. Nothing happens after the end of the process. -/
def Proc.step (p : Proc) (a : SigAct) : Option Proc :=
  if p.life ≠ .running then none else
  match a with
  | .sigterm =>
    if !p.registered then some { p with life := .killed }
    else if p.closed then some { p with life := .crashed }
    else some { p with buf := true }
  | .cancel => some { p with cancelled := true }
  | .health code => if code = healthCode p.flag then some p else none
  | .scrape v => if v = p.metric then some p else none
  | .clearFlag => if p.pc = .clearFlag then some { p with pc := .clearMetric, flag := false } else none
  | .clearMetric => if p.pc = .clearMetric then some { p with pc := .listen, metric := 0 } else none
  | .listen => if p.pc = .listen then some { p with pc := .wait1, registered := true } else none
  | .term1 => if p.pc = .wait1 ∧ p.buf = true then some { p with pc := .setFlag, buf := false } else none
  | .done1 => if p.pc = .wait1 ∧ p.cancelled = true then some { p with pc := .setFlag } else none
  | .setFlag => if p.pc = .setFlag then some { p with pc := .setMetric, flag := true } else none
  | .setMetric => if p.pc = .setMetric then some { p with pc := .wait2, metric := 1 } else none
  | .term2 => if p.pc = .wait2 ∧ p.buf = true then some { p with pc := .stop, buf := false } else none
  | .done2 => if p.pc = .wait2 ∧ p.cancelled = true then some { p with pc := .close } else none
  | .stop => if p.pc = .stop then some { p with pc := .close, cancelled := true } else none
  | .close => if p.pc = .close then some { p with pc := .ended, closed := true } else none
  | .exit => if p.cancelled then some { p with life := .exited } else none

/-- The process under all signals, requests and schedules. -/
def process : LTS Proc SigAct where
  init := {}
  step := Proc.step

/-- The steps of the goroutine that runs `catchSigterm`. -/
def SigAct.ofCatcher : SigAct → Bool
  | .sigterm | .cancel | .health _ | .scrape _ | .exit => false
  | _ => true

end Verif.Main
