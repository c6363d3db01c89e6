import Verif.Ndt7.Measurer

/-!
# How often the measurer measures: ndt7/measurer/measurer.go:98-102 and ndt7/spec/spec.go:46-59

The measurer of `Verif.Ndt7.Measurer` with the timer of its ticker. The ticker is the one of github.com/m-lab/go/memoryless: every time round its loop it
draws a time at random from an exponential distribution, clamps it, starts a timer for that time, and when the timer fires it reads the clock.
-/

namespace Verif.Ndt7
open Verif.Go Verif.Ndt5

/-- `memoryless.Config`. Times are nanoseconds. -/
structure Sampling where
  min : Int
  expected : Int
  max : Int

/-- The configuration given to the ticker (measurer.go:98-102, ndt7/spec/spec.go:46-59). -/
def sampling : Sampling := { min := 25000000, expected := 250000000, max := 625000000 }

/-- Whether `memoryless.NewTicker` accepts a configuration (`Config.Check` of memoryless, a library): it fails otherwise (measurer.go:103-106). -/
def Sampling.ok (p : Sampling) : Bool := decide (0 ≤ p.min) && decide (p.min ≤ p.expected) && (decide (p.max = 0) || decide (p.expected ≤ p.max))

/-- `Config.waittime` of memoryless (a library): the time for which the timer is started. `draw` is the number drawn, any number. -/
def Sampling.wait (p : Sampling) (draw : Int) : Int :=
  let w := if draw < p.min then p.min else draw
  if p.max ≠ 0 ∧ w > p.max then p.max else w

/-- The measurer and the timer of its ticker. -/
structure PState where
  m : MState := {}
  /-- when the timer was started last -/
  armed : Int := 0
  /-- when it fires -/
  due : Int := 0

/-- An action of the measurer. If it starts the timer, it does so at `armed` with the number `draw`. -/
structure PAct where
  act : MAct
  armed : Int := 0
  draw : Int := 0

/-- A step: as in `mStep`, but `memoryless.NewTicker` fails exactly if the configuration is not acceptable, the ticker starts its timer when it goes to
wait for it, at a time not earlier than the latest the clock was seen to show, and a tick comes no earlier than the timer fires (measurer.go:98-112). -/
def pStep (c : MConfig) (p : Sampling) (s : PState) (a : PAct) : Option PState :=
  (mStep c s.m a.act).bind fun m =>
    match a.act with
    | .newTicker ok => if ok = p.ok then some { s with m := m } else none
    | .check => if m.t = .waiting then (if s.m.clock ≤ a.armed then some { m := m, armed := a.armed, due := a.armed + p.wait a.draw } else none) else some { s with m := m }
    | .tickHand now => if s.due ≤ now then some { s with m := m } else none
    | .tickBuffer now => if s.due ≤ now then some { s with m := m } else none
    | .tickDrop now => if s.due ≤ now then some { s with m := m } else none
    | _ => some { s with m := m }

/-- The measurer with its timer. -/
def pacedMeasurer (c : MConfig) (p : Sampling) : LTS PState PAct := { init := {}, step := pStep c p }

end Verif.Ndt7
