import Verif.Spec.Calendar
import Verif.Spec.Decimal

/-!
# Specification: texts of times, as package time reads them from JSON

RFC 3339, with three liberties of Go: hours may have one digit, the fraction may follow a comma, and the offset of the zone may have 24 hours or 60 minutes.
-/

namespace Verif.Spec
open Verif.Go

/-- Exactly `w` decimal digits with value `n`. -/
def Digits (w : Nat) (s : Bytes) (n : Nat) : Prop := Decimal s n ∧ s.length = w

/-- The fraction of a second in nanoseconds: nothing, or a period or comma with digits, of which the first nine count. -/
inductive FractionText : Bytes → Nat → Prop
  | none : FractionText [] 0
  | digits {p : UInt8} {a b : Bytes} {n : Nat} : p = 46 ∨ p = 44 → Decimal a n → a.length ≤ 9 → (∀ c ∈ b, 48 ≤ c ∧ c ≤ 57) → (b ≠ [] → a.length = 9) →
      FractionText (p :: (a ++ b)) (n * 10 ^ (9 - a.length))

/-- The zone, as minutes east of UTC: `Z`, or a sign, hours and minutes. -/
inductive ZoneText : Bytes → Int → Prop
  | utc : ZoneText [90] 0
  | east {H M : Bytes} {h m : Nat} : Digits 2 H h → h ≤ 24 → Digits 2 M m → m ≤ 60 → ZoneText (43 :: (H ++ 58 :: M)) (h * 60 + m : Nat)
  | west {H M : Bytes} {h m : Nat} : Digits 2 H h → h ≤ 24 → Digits 2 M m → m ≤ 60 → ZoneText (45 :: (H ++ 58 :: M)) (-(h * 60 + m : Nat))

/-- The text denotes the instant `ns` (nanoseconds since 1970), written for the zone `z` (minutes east of UTC). -/
def IsTimeText (s : Bytes) (ns z : Int) : Prop :=
  ∃ (Y Mo D H Mi S F Z : Bytes) (y mo d h mi se nano : Nat) (n : Int),
    s = Y ++ 45 :: (Mo ++ 45 :: (D ++ 84 :: (H ++ 58 :: (Mi ++ 58 :: (S ++ (F ++ Z)))))) ∧
    Digits 4 Y y ∧ Digits 2 Mo mo ∧ Digits 2 D d ∧ (Digits 1 H h ∨ Digits 2 H h) ∧ h ≤ 23 ∧ Digits 2 Mi mi ∧ mi ≤ 59 ∧ Digits 2 S se ∧ se ≤ 59 ∧
    FractionText F nano ∧ ZoneText Z z ∧ DayIs n (y, mo, d) ∧
    ns + z * 60000000000 = n * 86400000000000 + (h : Int) * 3600000000000 + mi * 60000000000 + se * 1000000000 + nano

end Verif.Spec
