import Mathlib.Algebra.Order.Field.Rat
import Mathlib.Algebra.Order.Field.Basic
import Verif.Go.Float

/-!
# Specification: rounding to `float64` (IEEE 754 binary64, roundTiesToEven)
-/

namespace Verif.Spec
open Verif.Go

/-- The finite values of a `float64`: a whole number of at most 53 bits times a power of two from `2^-1074` to `2^971`. -/
def DoubleValue (v : ℚ) : Prop := ∃ m e : Int, |m| < 2 ^ 53 ∧ -1074 ≤ e ∧ e ≤ 971 ∧ v = m * 2 ^ e

/-- Those whose last bit is zero: the number in front of the power of two is even, where it has 53 bits or the power is the smallest one. -/
def EvenDouble (v : ℚ) : Prop := ∃ m e : Int, m % 2 = 0 ∧ |m| < 2 ^ 53 ∧ (2 ^ 52 ≤ |m| ∨ e = -1074) ∧ -1074 ≤ e ∧ e ≤ 971 ∧ v = m * 2 ^ e

/-- `v` is the closest one to `q`, and in the middle between two the even one. -/
def Nearest (q v : ℚ) : Prop := DoubleValue v ∧ ∀ w, DoubleValue w → w ≠ v → |v - q| < |w - q| ∨ (|v - q| = |w - q| ∧ EvenDouble v)

/-- What a number is rounded to: an infinity from the middle between the largest finite value and `2^1024` on. -/
def RoundsTo (q : ℚ) : F64 → Prop
  | .nan => False
  | .inf neg => 2 ^ 1024 - 2 ^ 970 ≤ |q| ∧ (neg = true ↔ q < 0)
  | .fin v => |q| < 2 ^ 1024 - 2 ^ 970 ∧ Nearest q v

end Verif.Spec
