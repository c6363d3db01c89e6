import Verif.Go.FloatText
import Verif.Spec.Json
import Verif.Spec.Float

/-!
# Specification: the digits of a floating point number
-/

namespace Verif.Spec
open Verif.Go

/-- Digits, the first one of which is not zero, and the place of the point, that stand for a number which is rounded to `q`. -/
def Stands (q : Rat) (d : Bytes × Int) : Prop := IsDigits d.1 ∧ d.1.head? ≠ some 48 ∧ F64.round (digitsValue d) = .fin q

/-- There are no fewer digits that do. -/
def Shortest (q : Rat) (d : Bytes × Int) : Prop := Stands q d ∧ ∀ d', Stands q d' → d.1.length ≤ d'.1.length

/-- The digits found by the library are shortest ones, for all positive numbers that a `float64` can have. -/
def ShortestDigits (digits : Rat → Bytes × Int) : Prop := ∀ q, 0 < q → DoubleValue q → Shortest q (digits q)

end Verif.Spec
