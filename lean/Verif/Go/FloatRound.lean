import Verif.Go.FloatLemmas

/-!
# Rounding gives a `float64`: rounding again changes nothing
-/

namespace Verif.Go.F64

/-- A multiple of a power of two with at most 53 bits is a multiple of its own unit in the last place. -/
private theorem on_grid {n e : Int} (hn : 0 < n) (h53 : n ≤ 2 ^ 53) (he : -1074 ≤ e) :
    ∃ k : Int, (n : ℚ) * pow2 e = k * pow2 (ulpExp ((n : ℚ) * pow2 e)) := by
  have hnq : (0 : ℚ) < n := by exact_mod_cast hn
  have hv : 0 < (n : ℚ) * pow2 e := mul_pos hnq (pow2_pos e)
  obtain ⟨-, h2, h3⟩ := ulpExp_spec hv
  generalize hu : ulpExp ((n : ℚ) * pow2 e) = u at *
  have le_case : u ≤ e → ∃ k : Int, (n : ℚ) * pow2 e = k * pow2 u := by
    intro hle
    refine ⟨n * 2 ^ (e - u).toNat, ?_⟩
    have : e = (e - u) + u := by omega
    rw [this, pow2_add]
    have hp : pow2 (e - u) = (2 : ℚ) ^ (e - u).toNat := by
      rw [pow2_eq]
      conv_lhs => rw [← Int.toNat_of_nonneg (show 0 ≤ e - u by omega)]
      exact zpow_natCast _ _
    have e1 : e - u + u - u = e - u := by omega
    rw [hp, e1]
    push_cast
    ring
  rcases h2 with h2 | h2
  · by_cases hle : u ≤ e
    · exact le_case hle
    · have h4 : pow2 (u + 52) ≤ pow2 (53 + e) := by
        refine le_trans h2 ?_
        rw [pow2_add]
        refine mul_le_mul_of_nonneg_right ?_ (pow2_pos e).le
        have : (n : ℚ) ≤ 2 ^ 53 := by exact_mod_cast h53
        rw [pow2_eq]
        exact_mod_cast this
      have h5 : u + 52 ≤ 53 + e := by
        by_contra hc
        exact absurd h4 (not_le.2 (pow2_lt (by omega)))
      have h6 : u = e + 1 := by omega
      subst h6
      have h7 : pow2 (53 + e) ≤ (n : ℚ) * pow2 e := by
        have : e + 1 + 52 = 53 + e := by omega
        rw [← this]; exact h2
      rw [pow2_add] at h7
      have h8 : pow2 53 ≤ (n : ℚ) := le_of_mul_le_mul_right h7 (pow2_pos e)
      have h9 : (2 : Int) ^ 53 ≤ n := by
        have : pow2 53 = ((2 ^ 53 : Int) : ℚ) := by rw [pow2_eq]; norm_num
        rw [this] at h8
        exact_mod_cast h8
      have h10 : n = 2 ^ 53 := le_antisymm h53 h9
      subst h10
      refine ⟨2 ^ 52, ?_⟩
      rw [pow2_add]
      have : pow2 1 = 2 := by rw [pow2_eq]; norm_num
      rw [this]
      push_cast
      ring
  · exact le_case (by omega)

/-- A positive number that is the result of rounding. -/
private theorem roundPos_again {q v : ℚ} (hq : 0 < q) (h : roundPos q = .fin v) : v = 0 ∨ (0 < v ∧ roundPos v = .fin v) := by
  obtain ⟨h1, -, h3⟩ := ulpExp_spec hq
  unfold roundPos at h
  simp only at h
  split at h
  · cases h
  · rename_i hlt
    cases h
    generalize hu : ulpExp q = u at *
    have hnn : 0 ≤ roundHalfEven (q / pow2 u) := le_roundHalfEven (by
      have := (div_pos hq (pow2_pos u)).le
      exact_mod_cast this)
    have hle : roundHalfEven (q / pow2 u) ≤ 2 ^ 53 := roundHalfEven_le (by
      have : pow2 53 = ((2 ^ 53 : Int) : ℚ) := by rw [pow2_eq]; norm_num
      rw [← this, div_le_iff₀ (pow2_pos u), ← pow2_add, add_comm]
      exact h1.le)
    generalize roundHalfEven (q / pow2 u) = n at *
    rcases eq_or_lt_of_le hnn with h0 | h0
    · left
      rw [← h0]
      simp
    · right
      have hv : 0 < (n : ℚ) * pow2 u := mul_pos (by exact_mod_cast h0) (pow2_pos u)
      refine ⟨hv, ?_⟩
      obtain ⟨k, hk⟩ := on_grid h0 hle h3
      unfold roundPos
      simp only
      generalize hw : ulpExp ((n : ℚ) * pow2 u) = w at *
      have : (n : ℚ) * pow2 u / pow2 w = k := by
        rw [hk, mul_div_assoc, div_self (pow2_pos w).ne', mul_one]
      rw [this, roundHalfEven_int, ← hk, if_neg hlt]

/-- Rounding twice is rounding once. -/
theorem round_again {q v : ℚ} (h : round q = .fin v) : round v = .fin v := by
  unfold round at h
  split at h
  · cases h; exact round_zero
  · rename_i h0
    split at h
    · rename_i hpos
      rcases roundPos_again hpos h with rfl | ⟨h1, h2⟩
      · exact round_zero
      · unfold round
        rw [if_neg h1.ne', if_pos h1, h2]
    · rename_i hneg
      have hq : 0 < -q := by
        have : q < 0 := lt_of_le_of_ne (not_lt.1 hneg) h0
        linarith
      split at h
      · rename_i w hw
        cases h
        rcases roundPos_again hq hw with rfl | ⟨h1, h2⟩
        · simp [round]
        · unfold round
          rw [if_neg (by simpa using h1.ne'), if_neg (by simp; linarith), neg_neg, h2]
      · cases h

end Verif.Go.F64
