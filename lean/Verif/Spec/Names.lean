import Verif.Go.Bytes

/-!
# Specification: names that differ only in case

`encoding/json` matches the keys of objects with the names of fields without regard to case.  Two letters have a third form outside ASCII: the long s (U+017F) and the Kelvin
sign (U+212A).
-/

namespace Verif.Spec
open Verif.Go

/-- The bytes `b` are the character `c`, possibly in another case. -/
def SameLetter (c : UInt8) (b : Bytes) : Prop :=
  b = [c] ∨ (97 ≤ c ∧ c ≤ 122 ∧ b = [c - 32]) ∨ (65 ≤ c ∧ c ≤ 90 ∧ b = [c + 32]) ∨ ((c = 83 ∨ c = 115) ∧ b = [0xC5, 0xBF]) ∨ ((c = 75 ∨ c = 107) ∧ b = [0xE2, 0x84, 0xAA])

/-- The key is the (ASCII) name, up to case. -/
inductive SameName : Bytes → Bytes → Prop
  | nil : SameName [] []
  | cons {c : UInt8} {b name key : Bytes} : SameLetter c b → SameName name key → SameName (c :: name) (b ++ key)

/-- A name of ASCII characters. -/
def AsciiName (name : Bytes) : Prop := ∀ b ∈ name, b < 0x80

instance (name : Bytes) : Decidable (AsciiName name) := inferInstanceAs (Decidable (∀ b ∈ name, b < 0x80))

end Verif.Spec
