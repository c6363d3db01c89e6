import Mathlib.Data.List.Induction
import Verif.Go.Num
import Verif.Spec.Decimal

/-! # Reading decimal numbers -/

namespace Verif.Go
open Verif.Spec

private theorem digitStep_iff {acc n : Nat} {c : UInt8} : digitStep acc c = some n ↔ 48 ≤ c ∧ c ≤ 57 ∧ n = acc * 10 + (c.toNat - 48) := by
  unfold digitStep
  split
  · rename_i h; simp [h, eq_comm]
  · rename_i h
    simp only [reduceCtorEq, false_iff]
    exact fun h' => h ⟨h'.1, h'.2.1⟩

theorem foldl_decimal {s : Bytes} (hs : s ≠ []) {n : Nat} : s.foldlM digitStep 0 = some n ↔ Decimal s n := by
  constructor
  · intro h
    induction s using List.reverseRecOn generalizing n with
    | nil => exact absurd rfl hs
    | append_singleton s c ih =>
      rw [List.foldlM_append] at h
      cases hf : s.foldlM digitStep 0 with
      | none => rw [hf] at h; cases h
      | some m =>
        rw [hf] at h
        simp only [List.foldlM_cons, List.foldlM_nil, Option.bind_eq_bind, Option.bind_some] at h
        cases hd : digitStep m c with
        | none => rw [hd] at h; cases h
        | some k =>
          rw [hd] at h
          cases h
          obtain ⟨h1, h2, rfl⟩ := digitStep_iff.1 hd
          cases s with
          | nil =>
            simp at hf
            subst hf
            simpa using Decimal.digit h1 h2
          | cons a s => exact .snoc (ih (by simp) hf) h1 h2
  · intro h
    clear hs
    induction h with
    | digit h1 h2 =>
      simp only [List.foldlM_cons, List.foldlM_nil, Option.bind_eq_bind]
      rw [digitStep_iff.2 ⟨h1, h2, rfl⟩]
      simp
    | snoc _ h1 h2 ih =>
      rw [List.foldlM_append, ih]
      simp only [List.foldlM_cons, List.foldlM_nil, Option.bind_eq_bind, Option.bind_some]
      rw [digitStep_iff.2 ⟨h1, h2, rfl⟩]
      simp

theorem Decimal.ne_nil {s : Bytes} {n : Nat} (h : Decimal s n) : s ≠ [] := by cases h <;> simp

theorem Decimal.digits {s : Bytes} {n : Nat} (h : Decimal s n) : ∀ c ∈ s, IsDigit c := by
  induction h with
  | digit h1 h2 => intro c hc; simp at hc; subst hc; exact ⟨h1, h2⟩
  | snoc _ h1 h2 ih =>
    intro c hc
    rcases List.mem_append.1 hc with hc | hc
    · exact ih c hc
    · simp at hc; subst hc; exact ⟨h1, h2⟩

theorem parseNat_iff {s : Bytes} {n : Nat} : parseNat s = some n ↔ Decimal s n := by
  unfold parseNat
  split
  · simp only [reduceCtorEq, false_iff]
    exact fun h => Decimal.ne_nil h rfl
  · rename_i h
    exact foldl_decimal (fun h' => h h')

theorem signedVal_iff {s : Bytes} {x : Int} : signedVal s = some x ↔ SignedDecimal s x := by
  unfold signedVal SignedDecimal
  split
  · simp only [reduceCtorEq, false_iff]
    rintro ⟨n, ⟨h, -⟩ | ⟨t, h, -⟩ | ⟨t, h, -⟩⟩
    · exact Decimal.ne_nil h rfl
    · cases h
    · cases h
  · rename_i c rest
    have hd : ∀ n, Decimal (c :: rest) n → c ≠ 43 ∧ c ≠ 45 := by
      intro n h
      have := Decimal.digits h c (by simp)
      constructor <;> (rintro rfl; exact absurd this (by decide))
    split
    · rename_i hc
      subst hc
      simp only [Option.map_eq_some_iff, parseNat_iff]
      constructor
      · rintro ⟨n, h, rfl⟩; exact ⟨n, .inr (.inl ⟨rest, rfl, h, rfl⟩)⟩
      · rintro ⟨n, ⟨h, -⟩ | ⟨t, h, h1, rfl⟩ | ⟨t, h, -⟩⟩
        · exact absurd rfl (hd n h).1
        · cases h; exact ⟨n, h1, rfl⟩
        · cases h
    · rename_i hc
      split
      · rename_i hc
        subst hc
        simp only [Option.map_eq_some_iff, parseNat_iff]
        constructor
        · rintro ⟨n, h, rfl⟩; exact ⟨n, .inr (.inr ⟨rest, rfl, h, rfl⟩)⟩
        · rintro ⟨n, ⟨h, -⟩ | ⟨t, h, -⟩ | ⟨t, h, h1, rfl⟩⟩
          · exact absurd rfl (hd n h).2
          · cases h
          · cases h; exact ⟨n, h1, rfl⟩
      · rename_i hc2
        simp only [Option.map_eq_some_iff, parseNat_iff]
        constructor
        · rintro ⟨n, h, rfl⟩; exact ⟨n, .inl ⟨h, rfl⟩⟩
        · rintro ⟨n, ⟨h, rfl⟩ | ⟨t, h, -⟩ | ⟨t, h, -⟩⟩
          · exact ⟨n, h, rfl⟩
          · cases h; exact absurd rfl hc
          · cases h; exact absurd rfl hc2

/-- `strconv.Atoi` reads exactly the decimal numbers that fit 64 bits. -/
theorem atoi_iff {s : Bytes} {x : Int} : atoi s = some x ↔ Decimal64 s x := by
  unfold atoi Decimal64
  cases h : signedVal s with
  | none =>
    simp only [reduceCtorEq, false_iff]
    rintro ⟨h', -⟩
    rw [signedVal_iff.2 h'] at h
    cases h
  | some y =>
    have hy := signedVal_iff.1 h
    simp only
    constructor
    · intro h'
      split at h'
      · rename_i hr
        cases h'
        unfold InInt64 at hr
        exact ⟨hy, by omega, by omega⟩
      · cases h'
    · rintro ⟨h1, h2, h3⟩
      have := signedVal_iff.2 h1
      rw [h] at this
      cases this
      rw [if_pos (by unfold InInt64; omega)]

end Verif.Go
