import Verif.Go.Bytes

/-!
# Specification: the (proleptic Gregorian) calendar, day by day
-/

namespace Verif.Spec

/-- Leap years. -/
def LeapYear (y : Int) : Prop := y % 4 = 0 ∧ (y % 100 ≠ 0 ∨ y % 400 = 0)

/-- In year `y`, month `m` has that many days. -/
inductive MonthDays (y : Int) : Nat → Nat → Prop
  | long {m : Nat} : m ∈ [1, 3, 5, 7, 8, 10, 12] → MonthDays y m 31
  | short {m : Nat} : m ∈ [4, 6, 9, 11] → MonthDays y m 30
  | february : ¬ LeapYear y → MonthDays y 2 28
  | leap : LeapYear y → MonthDays y 2 29

/-- The second date (year, month, day) is the day after the first. -/
inductive NextDay : Int × Nat × Nat → Int × Nat × Nat → Prop
  | day {y : Int} {m d n : Nat} : MonthDays y m n → 1 ≤ d → d < n → NextDay (y, m, d) (y, m, d + 1)
  | month {y : Int} {m n : Nat} : MonthDays y m n → m < 12 → NextDay (y, m, n) (y, m + 1, 1)
  | year {y : Int} : NextDay (y, 12, 31) (y + 1, 1, 1)

/-- Day number `n`, counted from January 1, 1970, is this date. -/
inductive DayIs : Int → Int × Nat × Nat → Prop
  | epoch : DayIs 0 (1970, 1, 1)
  | next {n : Int} {d d' : Int × Nat × Nat} : DayIs n d → NextDay d d' → DayIs (n + 1) d'
  | previous {n : Int} {d d' : Int × Nat × Nat} : DayIs (n + 1) d' → NextDay d d' → DayIs n d

end Verif.Spec
