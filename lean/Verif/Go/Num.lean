import Verif.Go.Bytes

/-!
# Decimal numbers: `strconv.Itoa`, `strconv.FormatInt(_, 10)`, `fmt "%d"`, `strconv.Atoi`
-/

namespace Verif.Go

/-- The ASCII digit of `d < 10`. -/
def digit (d : Nat) : UInt8 := UInt8.ofNat (48 + d)

/-- Decimal digits of `n`, most significant first, using at most `fuel` digits. -/
def natDigitsF : Nat → Nat → Bytes
  | 0, _ => []
  | fuel + 1, n => if n < 10 then [digit n] else natDigitsF fuel (n / 10) ++ [digit (n % 10)]

/-- Decimal rendering of a natural number (`strconv.FormatUint(n, 10)`). -/
def natDec (n : Nat) : Bytes := natDigitsF (n + 1) n

/-- `strconv.Itoa`, `strconv.FormatInt(x, 10)`, `fmt.Sprintf("%d", x)`. -/
def itoa (x : Int) : Bytes :=
  match x with
  | .ofNat n => natDec n
  | .negSucc n => 45 :: natDec (n + 1)

/-- One step of decimal parsing; `none` on a byte that is not a digit. -/
def digitStep (acc : Nat) (c : UInt8) : Option Nat :=
  if 48 ≤ c ∧ c ≤ 57 then some (acc * 10 + (c.toNat - 48)) else none

/-- The value of a digit string, `none` if it is empty or has a non-digit. -/
def parseNat (b : Bytes) : Option Nat :=
  match b with
  | [] => none
  | _ => b.foldlM digitStep 0

/-- The range of `int64` (and of `int` on the 64-bit platforms ndt-server is built for). -/
def InInt64 (x : Int) : Prop := -(2 ^ 63 : Int) ≤ x ∧ x < 2 ^ 63

instance (x : Int) : Decidable (InInt64 x) := by unfold InInt64; infer_instance

/-- The value of an optionally signed digit string. -/
def signedVal (b : Bytes) : Option Int :=
  match b with
  | [] => none
  | c :: rest =>
    if c = 43 then (parseNat rest).map fun (n : Nat) => (n : Int)
    else if c = 45 then (parseNat rest).map fun (n : Nat) => -(n : Int)
    else (parseNat (c :: rest)).map fun (n : Nat) => (n : Int)

/-- `strconv.Atoi` and `strconv.ParseInt(_, 10, 64)`: optional sign, at least one digit, nothing else,
value in the 64-bit range; `none` stands for any error. (strconv/atoi.go; base 10 is given
explicitly, so underscores are rejected.) -/
def atoi (b : Bytes) : Option Int :=
  match signedVal b with
  | some x => if InInt64 x then some x else none
  | none => none

/-! ## Round trip -/

theorem digit_toNat {d : Nat} (h : d < 10) : (digit d).toNat = 48 + d := by
  unfold digit; simp; omega

theorem digitStep_digit {d acc : Nat} (h : d < 10) : digitStep acc (digit d) = some (acc * 10 + d) := by
  unfold digitStep
  have := digit_toNat h
  rw [if_pos]
  · rw [this]; simp
  · constructor
    · rw [UInt8.le_iff_toNat_le, this]; simp
    · rw [UInt8.le_iff_toNat_le, this]; simp; omega

theorem natDigitsF_ne_nil {fuel n : Nat} (h : 0 < fuel) : natDigitsF fuel n ≠ [] := by
  cases fuel with
  | zero => omega
  | succ f => unfold natDigitsF; split <;> simp

theorem natDec_ne_nil (n : Nat) : natDec n ≠ [] := natDigitsF_ne_nil (by omega)

theorem foldlM_natDigitsF {fuel n : Nat} (h : n < fuel) :
    (natDigitsF fuel n).foldlM digitStep 0 = some n := by
  induction fuel generalizing n with
  | zero => omega
  | succ f ih =>
    unfold natDigitsF
    split
    · rename_i hlt
      simp [digitStep_digit hlt]
    · rename_i hge
      rw [List.foldlM_append, ih (by omega)]
      simp [digitStep_digit (Nat.mod_lt n (by omega : 0 < 10))]
      omega

theorem parseNat_natDec (n : Nat) : parseNat (natDec n) = some n := by
  unfold parseNat
  split
  · rename_i h; exact absurd h (natDec_ne_nil n)
  · exact foldlM_natDigitsF (by omega)

/-- A byte that is an ASCII decimal digit. -/
def IsDigit (c : UInt8) : Prop := 48 ≤ c ∧ c ≤ 57

instance (c : UInt8) : Decidable (IsDigit c) := by unfold IsDigit; infer_instance

theorem isDigit_digit {d : Nat} (h : d < 10) : IsDigit (digit d) := by
  have := digit_toNat h
  constructor
  · rw [UInt8.le_iff_toNat_le, this]; simp
  · rw [UInt8.le_iff_toNat_le, this]; simp; omega

theorem natDigitsF_isDigit {fuel n : Nat} : ∀ c ∈ natDigitsF fuel n, IsDigit c := by
  induction fuel generalizing n with
  | zero => simp [natDigitsF]
  | succ f ih =>
    intro c hc
    unfold natDigitsF at hc
    split at hc
    · rename_i hlt; simp at hc; subst hc; exact isDigit_digit hlt
    · simp at hc
      rcases hc with hc | hc
      · exact ih c hc
      · subst hc; exact isDigit_digit (Nat.mod_lt _ (by omega))

theorem natDec_isDigit {n : Nat} : ∀ c ∈ natDec n, IsDigit c := natDigitsF_isDigit

theorem itoa_chars {x : Int} : ∀ c ∈ itoa x, IsDigit c ∨ c = 45 := by
  intro c hc
  unfold itoa at hc
  split at hc
  · exact Or.inl (natDec_isDigit c hc)
  · simp at hc
    rcases hc with hc | hc
    · exact Or.inr hc
    · exact Or.inl (natDec_isDigit c hc)

theorem natDec_head {n : Nat} : ∃ c rest, natDec n = c :: rest ∧ IsDigit c := by
  cases h : natDec n with
  | nil => exact absurd h (natDec_ne_nil n)
  | cons c rest => exact ⟨c, rest, rfl, natDec_isDigit c (by rw [h]; simp)⟩

theorem signedVal_itoa (x : Int) : signedVal (itoa x) = some x := by
  cases x with
  | ofNat n =>
    obtain ⟨c, rest, he, hd⟩ := natDec_head (n := n)
    have hc43 : c ≠ 43 := by rintro rfl; exact absurd hd (by decide)
    have hc45 : c ≠ 45 := by rintro rfl; exact absurd hd (by decide)
    simp only [itoa, he, signedVal, if_neg hc43, if_neg hc45]
    rw [← he, parseNat_natDec]
    rfl
  | negSucc n =>
    simp only [itoa, signedVal, parseNat_natDec]
    simp
    omega

theorem atoi_itoa {x : Int} (h : InInt64 x) : atoi (itoa x) = some x := by
  unfold atoi
  rw [signedVal_itoa]
  exact if_pos h

theorem itoa_injective {x y : Int} (h : itoa x = itoa y) : x = y := by
  have hx := signedVal_itoa x
  rw [h, signedVal_itoa y] at hx
  exact (Option.some.inj hx).symm

theorem atoi_inInt64 {b : Bytes} {x : Int} (h : atoi b = some x) : InInt64 x := by
  unfold atoi at h
  split at h
  · split at h
    · cases h; assumption
    · cases h
  · cases h

end Verif.Go
