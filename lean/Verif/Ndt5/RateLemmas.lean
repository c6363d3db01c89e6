import Mathlib.Tactic.Linarith
import Mathlib.Tactic.NormNum
import Mathlib.Tactic.Positivity
import Mathlib.Algebra.Order.Field.Rat
import Verif.Go.FloatLemmas

/-! # Rates in floating point arithmetic are close to the exact rates -/

namespace Verif.Go.F64
open Verif.Go

theorem near_8 : Near (.fin 8) 8 0 := near_exact (v := 8) (r := 8) rfl
theorem near_1000 : Near (.fin 1000) 1000 0 := near_exact (v := 1000) (r := 1000) rfl
theorem ofInt_8 : ofInt 8 = .fin 8 := by rw [ofInt_exact (by norm_num)]; norm_num
theorem ofInt_1000 : ofInt 1000 = .fin 1000 := by rw [ofInt_exact (by norm_num)]; norm_num

/-- Numbers that occur in rate computations are far away from overflow and underflow. -/
theorem mid_range {q : ℚ} (h1 : 1 / 2 ^ 200 ≤ q) (h2 : q ≤ 2 ^ 200) : pow2 (-1000) ≤ q ∧ q ≤ pow2 900 := by
  constructor
  · refine le_trans ?_ h1
    have : pow2 (-1000) ≤ pow2 (-200) := pow2_le (by norm_num)
    refine le_trans this ?_
    rw [pow2_eq]; norm_num
  · refine le_trans h2 ?_
    have : pow2 200 ≤ pow2 900 := pow2_le (by norm_num)
    refine le_trans ?_ this
    rw [pow2_eq]; norm_num

section
variable {b n : Int} (hb : 0 < b) (hb' : b ≤ 2 ^ 64) (hn : 0 < n) (hn' : n < 2 ^ 63)
include hb hb'

theorem bits_near : Near (mul (ofInt 8) (ofInt b)) (8 * (b : ℚ)) 2 := by
  have h1 : (1 : ℚ) ≤ b := by exact_mod_cast hb
  have h2 : (b : ℚ) ≤ 2 ^ 64 := by exact_mod_cast hb'
  obtain ⟨h3, h4⟩ := mid_range (q := 8 * (b : ℚ)) (by norm_num; linarith) (by norm_num at h2 ⊢; linarith)
  rw [ofInt_8]
  have hres := near_mul near_8 (near_ofInt hb hb') (by norm_num) (by linarith) (by norm_num) h3 h4
  exact hres

include hn hn'

theorem secs_bounds : (1 : ℚ) / 1000000000 ≤ (n : ℚ) / 1000000000 ∧ (n : ℚ) / 1000000000 ≤ 2 ^ 63 := by
  have h1 : (1 : ℚ) ≤ n := by exact_mod_cast hn
  have h2 : (n : ℚ) ≤ 2 ^ 63 := by exact_mod_cast hn'.le
  constructor
  · gcongr
  · rw [div_le_iff₀ (by norm_num)]; linarith

/-- The rate an upload computes. -/
theorem upload_rate_near : Near (div (div (mul (ofInt 8) (ofInt b)) (ofInt 1000)) (seconds n))
    (8 * (b : ℚ) / 1000 / ((n : ℚ) / 1000000000)) 6 := by
  have h1 : (1 : ℚ) ≤ b := by exact_mod_cast hb
  have h2 : (b : ℚ) ≤ 2 ^ 64 := by exact_mod_cast hb'
  obtain ⟨s1, s2⟩ := secs_bounds hb hb' hn hn'
  have s0 : (0 : ℚ) < (n : ℚ) / 1000000000 := lt_of_lt_of_le (by norm_num) s1
  have hq : Near (div (mul (ofInt 8) (ofInt b)) (ofInt 1000)) (8 * (b : ℚ) / 1000) 3 := by
    rw [ofInt_1000]
    obtain ⟨h3, h4⟩ := mid_range (q := 8 * (b : ℚ) / 1000) (by norm_num; linarith) (by norm_num at h2 ⊢; linarith)
    have hres := near_div (bits_near hb hb') near_1000 (by linarith) (by norm_num) (by norm_num) h3 h4
    exact hres
  have hlo : 1 / 2 ^ 200 ≤ 8 * (b : ℚ) / 1000 / ((n : ℚ) / 1000000000) := by
    rw [le_div_iff₀ s0]
    norm_num at s2 ⊢; linarith
  have hhi : 8 * (b : ℚ) / 1000 / ((n : ℚ) / 1000000000) ≤ 2 ^ 200 := by
    rw [div_le_iff₀ s0]
    norm_num at s1 h2 ⊢; linarith
  obtain ⟨h3, h4⟩ := mid_range hlo hhi
  have hres := near_div hq (seconds_near hn hn') (by linarith) s0 (by norm_num) h3 h4
  exact hres

/-- The rate a download computes. -/
theorem download_rate_near : Near (div (div (mul (ofInt 8) (ofInt b)) (seconds n)) (ofInt 1000))
    (8 * (b : ℚ) / ((n : ℚ) / 1000000000) / 1000) 6 := by
  have h1 : (1 : ℚ) ≤ b := by exact_mod_cast hb
  have h2 : (b : ℚ) ≤ 2 ^ 64 := by exact_mod_cast hb'
  obtain ⟨s1, s2⟩ := secs_bounds hb hb' hn hn'
  have s0 : (0 : ℚ) < (n : ℚ) / 1000000000 := lt_of_lt_of_le (by norm_num) s1
  have hlo : 1 / 2 ^ 199 ≤ 8 * (b : ℚ) / ((n : ℚ) / 1000000000) := by
    rw [le_div_iff₀ s0]
    norm_num at s2 ⊢; linarith
  have hhi : 8 * (b : ℚ) / ((n : ℚ) / 1000000000) ≤ 2 ^ 199 := by
    rw [div_le_iff₀ s0]
    norm_num at s1 h2 ⊢; linarith
  have hpos : 0 < 8 * (b : ℚ) / ((n : ℚ) / 1000000000) := lt_of_lt_of_le (by norm_num) hlo
  obtain ⟨h3, h4⟩ := mid_range (q := 8 * (b : ℚ) / ((n : ℚ) / 1000000000)) (le_trans (by norm_num) hlo) (le_trans hhi (by norm_num))
  have hq := near_div (bits_near hb hb') (seconds_near hn hn') (by linarith) s0 (by norm_num) h3 h4
  rw [ofInt_1000]
  have hlo' : (1 : ℚ) / 2 ^ 210 ≤ 8 * (b : ℚ) / ((n : ℚ) / 1000000000) / 1000 := by
    rw [le_div_iff₀ (by norm_num)]; refine le_trans ?_ hlo; norm_num
  have h5 : 8 * (b : ℚ) / ((n : ℚ) / 1000000000) / 1000 ≤ pow2 900 := by
    refine le_trans ?_ h4
    rw [div_le_iff₀ (by norm_num)]; linarith
  have h6 : pow2 (-1000) ≤ 8 * (b : ℚ) / ((n : ℚ) / 1000000000) / 1000 := by
    refine le_trans ?_ hlo'
    have : pow2 (-1000) ≤ pow2 (-210) := pow2_le (by norm_num)
    refine le_trans this ?_
    rw [pow2_eq]; norm_num
  have := near_div hq near_1000 hpos (by norm_num) (by norm_num) h6 h5
  exact near_mono this (by positivity) (by norm_num)

omit hb hb' hn hn' in
/-- One more division by 1000, for Mbit/s. -/
theorem near_thousandth {x : F64} {r : ℚ} {k : Nat} (h : Near x r k) (hk : k ≤ 39) (h0 : 1 / 2 ^ 230 ≤ r) (h1 : r ≤ 2 ^ 230) :
    Near (div x (ofInt 1000)) (r / 1000) (k + 1) := by
  have hp : 0 < r := lt_of_lt_of_le (by norm_num) h0
  rw [ofInt_1000]
  refine near_div h near_1000 hp (by norm_num) (by omega) ?_ ?_
  · have : pow2 (-1000) ≤ pow2 (-245) := pow2_le (by norm_num)
    refine le_trans this ?_
    rw [le_div_iff₀ (by norm_num), pow2_eq]; refine le_trans ?_ h0; norm_num
  · have : pow2 245 ≤ pow2 900 := pow2_le (by norm_num)
    refine le_trans ?_ this
    rw [div_le_iff₀ (by norm_num), pow2_eq]; refine le_trans h1 ?_; norm_num

end

/-- Truncation of a non-negative number that fits is the floor. -/
theorem toInt64_floor {v : ℚ} (h0 : 0 ≤ v) (h1 : v < 2 ^ 63) : toInt64 (.fin v) = v.floor := by
  have hf0 : 0 ≤ v.floor := Rat.le_floor_iff.2 (by exact_mod_cast h0)
  have hf1 : v.floor < 2 ^ 63 := by
    have : (v.floor : ℚ) < 2 ^ 63 := lt_of_le_of_lt (Rat.floor_le v) h1
    exact_mod_cast this
  unfold toInt64 truncRat
  simp only [h0, if_true]
  rw [if_pos ⟨by omega, hf1⟩]

/-- The integer part of a number close to a rate. -/
theorem near_rate {x : F64} {r : ℚ} (h : Near x r 6) (h0 : 0 < r) (h1 : r ≤ 2 ^ 62) :
    ∃ v : ℚ, |v - r| ≤ r / 2 ^ 48 ∧ x = .fin v ∧ x.toInt64 = v.floor := by
  obtain ⟨v, hx, hv⟩ := near_error h h0 (by norm_num)
  refine ⟨v, hv, hx, ?_⟩
  rw [hx]
  obtain ⟨a, b⟩ := abs_le.1 hv
  refine toInt64_floor ?_ ?_
  · have : r / 2 ^ 48 ≤ r := by rw [div_le_iff₀ (by norm_num)]; nlinarith
    linarith
  · have : r / 2 ^ 48 ≤ 2 ^ 14 := by rw [div_le_iff₀ (by norm_num)]; refine le_trans h1 ?_; norm_num
    norm_num at this h1 ⊢; linarith

/-- The two figures derived from a rate: the integer sent to the client and the Mbit/s stored. -/
theorem rate_figures {x : F64} {r : ℚ} (h : Near x r 6) (h0 : 1 / 2 ^ 230 ≤ r) (h1 : r ≤ 2 ^ 62) :
    ∃ v u : ℚ, |v - r| ≤ r / 2 ^ 48 ∧ |u - r / 1000| ≤ r / 1000 / 2 ^ 48 ∧ x = .fin v ∧ x.toInt64 = v.floor ∧
      div x (ofInt 1000) = .fin u := by
  have hp : 0 < r := lt_of_lt_of_le (by norm_num) h0
  obtain ⟨v, hv, hx, hi⟩ := near_rate h hp h1
  have h2 := near_thousandth h (by norm_num) h0 (le_trans h1 (by norm_num))
  obtain ⟨u, hu, hu'⟩ := near_error h2 (by positivity) (by norm_num)
  exact ⟨v, u, hv, hu', hx, hi, hu⟩

/-- Rates of real transfers are not too small for `rate_figures`. -/
theorem rate_lower {b n : Int} (hb : 0 < b) (hn : 0 < n) (hn' : n < 2 ^ 63) :
    1 / 2 ^ 230 ≤ 8 * (b : ℚ) / 1000 / ((n : ℚ) / 1000000000) := by
  have h1 : (1 : ℚ) ≤ b := by exact_mod_cast hb
  have h2 : (n : ℚ) ≤ 2 ^ 63 := by exact_mod_cast hn'.le
  have h3 : (1 : ℚ) ≤ n := by exact_mod_cast hn
  have s0 : (0 : ℚ) < (n : ℚ) / 1000000000 := by positivity
  rw [le_div_iff₀ s0]
  norm_num at h2 ⊢
  linarith

end Verif.Go.F64
