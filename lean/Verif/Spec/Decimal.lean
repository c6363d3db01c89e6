import Verif.Go.Bytes

/-!
# Specification: decimal numbers
-/

namespace Verif.Spec
open Verif.Go

/-- One or more decimal digits with value `n`. -/
inductive Decimal : Bytes → Nat → Prop
  | digit {c : UInt8} : 48 ≤ c → c ≤ 57 → Decimal [c] (c.toNat - 48)
  | snoc {s : Bytes} {n : Nat} {c : UInt8} : Decimal s n → 48 ≤ c → c ≤ 57 → Decimal (s ++ [c]) (n * 10 + (c.toNat - 48))

/-- A decimal number, with or without a sign. -/
def SignedDecimal (s : Bytes) (x : Int) : Prop :=
  ∃ n : Nat, (Decimal s n ∧ x = n) ∨ (∃ t, s = 43 :: t ∧ Decimal t n ∧ x = n) ∨ (∃ t, s = 45 :: t ∧ Decimal t n ∧ x = -n)

/-- A decimal number, with or without a sign, that fits 64 bits. -/
def Decimal64 (s : Bytes) (x : Int) : Prop := SignedDecimal s x ∧ -9223372036854775808 ≤ x ∧ x ≤ 9223372036854775807

end Verif.Spec
