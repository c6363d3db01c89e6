import Verif.Spec.Json

/-!
# Specification: the parameters of a query string (application/x-www-form-urlencoded)

Independent of how the server reads it.
-/

namespace Verif.Spec
open Verif.Go

/-- The first text is a URL-encoded form of the second one: `+` for a space, `%` with two hexadecimal digits for a byte, every other byte for itself. -/
inductive UrlEncoded : Bytes → Bytes → Prop
  | nil : UrlEncoded [] []
  | space {s t : Bytes} : UrlEncoded s t → UrlEncoded (43 :: s) (32 :: t)
  | byte {s t : Bytes} {a b : UInt8} {x y : Nat} : IsHex a x → IsHex b y → UrlEncoded s t → UrlEncoded (37 :: a :: b :: s) (UInt8.ofNat (x * 16 + y) :: t)
  | plain {s t : Bytes} {c : UInt8} : c ≠ 37 → c ≠ 43 → UrlEncoded s t → UrlEncoded (c :: s) (c :: t)

/-- The text is `name=value` in URL-encoded form, or a non-empty URL-encoded name without a value, and has no semicolon. -/
def IsParameter (text : Bytes) (name value : Bytes) : Prop :=
  59 ∉ text ∧ text ≠ [] ∧ ∃ a b, UrlEncoded a name ∧ UrlEncoded b value ∧ 61 ∉ a ∧ (text = a ++ 61 :: b ∨ (text = a ∧ b = []))

/-- The text between two ampersands is acceptable: it is empty or a parameter. -/
def PieceOk (text : Bytes) : Prop := text = [] ∨ ∃ name value, IsParameter text name value

/-- The texts between the ampersands of a query string. -/
inductive Pieces : Bytes → List Bytes → Prop
  | last {p : Bytes} : 38 ∉ p → Pieces p [p]
  | more {p s : Bytes} {ps : List Bytes} : 38 ∉ p → Pieces s ps → Pieces (p ++ 38 :: s) (p :: ps)

/-- A query string is well-formed if all its pieces are acceptable. -/
def WellFormedQuery (raw : Bytes) : Prop := ∃ ps, Pieces raw ps ∧ ∀ p ∈ ps, PieceOk p

/-- The query string gives the parameter `name` first the value `value`: this is a piece of it, and no earlier piece is a parameter of that name. -/
def Gives (raw name value : Bytes) : Prop :=
  ∃ before piece after, Pieces raw (before ++ piece :: after) ∧ IsParameter piece name value ∧ ∀ p ∈ before, ∀ v, ¬ IsParameter p name v

/-- The query string has no parameter of this name. -/
def GivesNone (raw name : Bytes) : Prop := ∀ ps, Pieces raw ps → ∀ p ∈ ps, ∀ v, ¬ IsParameter p name v

end Verif.Spec
