import Verif.Go.Json

/-!
# Equality of JSON values can be decided
-/

namespace Verif.Go

mutual
/-- Equality of JSON values. -/
def Json.beq : Json → Json → Bool
  | .null, .null => true
  | .bool a, .bool b => a == b
  | .num a, .num b => a == b
  | .str a, .str b => a == b
  | .arr a, .arr b => beqElems a b
  | .obj a, .obj b => beqMembers a b
  | _, _ => false
/-- Equality of elements. -/
def beqElems : List Json → List Json → Bool
  | [], [] => true
  | a :: as, b :: bs => a.beq b && beqElems as bs
  | _, _ => false
/-- Equality of members. -/
def beqMembers : List (Bytes × Json) → List (Bytes × Json) → Bool
  | [], [] => true
  | (k, a) :: as, (l, b) :: bs => k == l && (a.beq b && beqMembers as bs)
  | _, _ => false
end

mutual
theorem Json.eq_of_beq : ∀ {a b : Json}, a.beq b = true → a = b
  | .null, b, h => by cases b <;> simp [Json.beq] at h; rfl
  | .bool _, b, h => by cases b <;> simp [Json.beq] at h; rw [h]
  | .num _, b, h => by cases b <;> simp [Json.beq] at h; rw [h]
  | .str _, b, h => by cases b <;> simp [Json.beq] at h; rw [h]
  | .arr _, b, h => by cases b <;> simp [Json.beq] at h; rw [eq_of_beqElems h]
  | .obj _, b, h => by cases b <;> simp [Json.beq] at h; rw [eq_of_beqMembers h]
theorem eq_of_beqElems : ∀ {a b : List Json}, beqElems a b = true → a = b
  | [], b, h => by cases b <;> simp [beqElems] at h; rfl
  | a :: as, b, h => by
    cases b <;> simp [beqElems] at h
    rw [Json.eq_of_beq h.1, eq_of_beqElems h.2]
theorem eq_of_beqMembers : ∀ {a b : List (Bytes × Json)}, beqMembers a b = true → a = b
  | [], b, h => by cases b <;> simp [beqMembers] at h; rfl
  | (k, a) :: as, b, h => by
    cases b with
    | nil => simp [beqMembers] at h
    | cons kv bs =>
      obtain ⟨l, b⟩ := kv
      simp [beqMembers] at h
      rw [h.1, Json.eq_of_beq h.2.1, eq_of_beqMembers h.2.2]
end

/-- A parsed text, checked by evaluation. -/
theorem parseJson_of_beq {doc : Bytes} {v : Json} (h : (parseJson doc).any (·.beq v) = true) : parseJson doc = some v := by
  cases hp : parseJson doc with
  | none => rw [hp] at h; cases h
  | some j => rw [hp] at h; simp at h; rw [Json.eq_of_beq h]

end Verif.Go
