import Mathlib.Data.Rat.Floor
import Mathlib.Tactic.Linarith
import Mathlib.Tactic.NormNum
import Mathlib.Tactic.Positivity
import Mathlib.Tactic.FieldSimp
import Mathlib.Tactic.Ring
import Verif.Go.Float

/-! # Rounding errors of `float64` arithmetic -/

namespace Verif.Go.F64

theorem pow2_eq (e : Int) : pow2 e = (2 : ℚ) ^ e := by
  unfold pow2
  split
  · rename_i h
    obtain ⟨n, rfl⟩ := Int.eq_ofNat_of_zero_le h
    simp
  · rename_i h
    obtain ⟨n, hn⟩ := Int.eq_ofNat_of_zero_le (show 0 ≤ -e by omega)
    have : e = -(n : Int) := by omega
    subst this
    simp

theorem pow2_pos (e : Int) : 0 < pow2 e := by rw [pow2_eq]; exact zpow_pos (by norm_num) _

theorem pow2_add (a b : Int) : pow2 (a + b) = pow2 a * pow2 b := by
  rw [pow2_eq, pow2_eq, pow2_eq, zpow_add₀ (by norm_num)]

theorem pow2_le {a b : Int} (h : a ≤ b) : pow2 a ≤ pow2 b := by
  rw [pow2_eq, pow2_eq]; exact zpow_le_zpow_right₀ (by norm_num) h

theorem pow2_lt {a b : Int} (h : a < b) : pow2 a < pow2 b := by
  rw [pow2_eq, pow2_eq]; exact zpow_lt_zpow_right₀ (by norm_num) h

/-- `2^(k-1) < q < 2^(k+1)` for the exponent estimate of `ulpExp`. -/
theorem log_estimate {q : ℚ} (hq : 0 < q) :
    pow2 ((Nat.log2 q.num.toNat : Int) - (Nat.log2 q.den : Int) - 1) < q ∧
    q < pow2 ((Nat.log2 q.num.toNat : Int) - (Nat.log2 q.den : Int) + 1) := by
  have hn : 0 < q.num := Rat.num_pos.2 hq
  have hd : 0 < q.den := q.den_pos
  set a := Nat.log2 q.num.toNat with ha
  set b := Nat.log2 q.den with hb
  have h1 : (2 : ℚ) ^ a ≤ q.num := by
    have := Nat.log2_self_le (n := q.num.toNat) (by omega)
    have h : ((2 ^ a : Nat) : ℚ) ≤ ((q.num.toNat : Nat) : ℚ) := by exact_mod_cast this
    have e : ((q.num.toNat : Nat) : ℚ) = (q.num : ℚ) := by
      have : ((q.num.toNat : Nat) : Int) = q.num := Int.toNat_of_nonneg hn.le
      exact_mod_cast congrArg (fun z : Int => (z : ℚ)) this
    rw [e] at h; simpa using h
  have h2 : (q.num : ℚ) < (2 : ℚ) ^ (a + 1) := by
    have := Nat.lt_log2_self (n := q.num.toNat)
    have h : ((q.num.toNat : Nat) : ℚ) < ((2 ^ (a + 1) : Nat) : ℚ) := by exact_mod_cast this
    have e : ((q.num.toNat : Nat) : ℚ) = (q.num : ℚ) := by
      have : ((q.num.toNat : Nat) : Int) = q.num := Int.toNat_of_nonneg hn.le
      exact_mod_cast congrArg (fun z : Int => (z : ℚ)) this
    rw [e] at h; simpa using h
  have h3 : (2 : ℚ) ^ b ≤ q.den := by
    have := Nat.log2_self_le (n := q.den) (by omega)
    exact_mod_cast this
  have h4 : (q.den : ℚ) < (2 : ℚ) ^ (b + 1) := by
    have := Nat.lt_log2_self (n := q.den)
    exact_mod_cast this
  have hdq : (0 : ℚ) < q.den := by exact_mod_cast hd
  have hqe : q = q.num / q.den := (Rat.num_div_den q).symm
  have hb2 : (0 : ℚ) < 2 ^ b := by positivity
  constructor
  · have e : pow2 ((a : Int) - b - 1) = (2 : ℚ) ^ a / 2 ^ (b + 1) := by
      rw [pow2_eq, show (a : Int) - b - 1 = (a : Int) - ((b + 1 : Nat) : Int) by push_cast; ring,
        zpow_sub₀ (by norm_num), zpow_natCast, zpow_natCast]
    rw [e, hqe, Rat.num_div_den, div_lt_iff₀ (by positivity)]
    have : q * (q.den : ℚ) = q.num := by rw [hqe, Rat.num_div_den]; exact Rat.mul_den_eq_num q
    nlinarith
  · have e : pow2 ((a : Int) - b + 1) = (2 : ℚ) ^ (a + 1) / 2 ^ b := by
      rw [pow2_eq, show (a : Int) - b + 1 = ((a + 1 : Nat) : Int) - (b : Int) by push_cast; ring,
        zpow_sub₀ (by norm_num), zpow_natCast, zpow_natCast]
    rw [e, lt_div_iff₀ (by positivity)]
    have : q * (q.den : ℚ) = q.num := Rat.mul_den_eq_num q
    nlinarith

/-- The unit in the last place: `q < 2^53` units, and at least `2^52` units unless `q` is subnormal. -/
theorem ulpExp_spec {q : ℚ} (hq : 0 < q) :
    q < pow2 (ulpExp q + 53) ∧ (pow2 (ulpExp q + 52) ≤ q ∨ ulpExp q = -1074) ∧ -1074 ≤ ulpExp q := by
  obtain ⟨h1, h2⟩ := log_estimate hq
  unfold ulpExp
  simp only
  set k : Int := (Nat.log2 q.num.toNat : Int) - (Nat.log2 q.den : Int) with hk
  by_cases hlt : q < pow2 k
  · rw [if_pos hlt]
    split
    · rename_i h
      refine ⟨lt_of_lt_of_le hlt (pow2_le (by omega)), .inr rfl, by omega⟩
    · rename_i h
      refine ⟨?_, .inl ?_, by omega⟩
      · rw [show k - 53 + 53 = k by omega]; exact hlt
      · rw [show k - 53 + 52 = k - 1 by omega]; exact h1.le
  · rw [if_neg hlt]
    push Not at hlt
    split
    · rename_i h
      refine ⟨lt_of_lt_of_le h2 (pow2_le (by omega)), .inr rfl, by omega⟩
    · rename_i h
      refine ⟨?_, .inl ?_, by omega⟩
      · rw [show k - 52 + 53 = k + 1 by omega]; exact h2
      · rw [show k - 52 + 52 = k by omega]; exact hlt

theorem roundHalfEven_error (q : ℚ) : |(roundHalfEven q : ℚ) - q| ≤ 1 / 2 := by
  have h1 := Rat.floor_le q
  have h2 := Rat.lt_floor_add_one q
  push_cast at h2
  unfold roundHalfEven
  simp only
  rw [abs_le]
  split
  · constructor <;> linarith
  · split
    · push_cast; constructor <;> linarith
    · split
      · constructor <;> linarith
      · push_cast; constructor <;> linarith

/-- Rounding does not go below an integer that is a lower bound. -/
theorem le_roundHalfEven {q : ℚ} {n : Int} (h : (n : ℚ) ≤ q) : n ≤ roundHalfEven q := by
  have h1 : n ≤ q.floor := Rat.le_floor_iff.2 h
  unfold roundHalfEven
  simp only
  split
  · exact h1
  · split
    · omega
    · split <;> omega

/-- Rounding does not go above an integer that is an upper bound. -/
theorem roundHalfEven_le {q : ℚ} {n : Int} (h : q ≤ (n : ℚ)) : roundHalfEven q ≤ n := by
  have h1 := Rat.floor_le q
  have h2 : (q.floor : ℚ) ≤ n := le_trans h1 h
  have h3 : q.floor ≤ n := by exact_mod_cast h2
  unfold roundHalfEven
  simp only
  split
  · exact h3
  · rename_i hr
    push Not at hr
    have : q.floor + 1 ≤ n := by
      by_contra hc
      have : n = q.floor := by omega
      rw [this] at h
      linarith
    split
    · exact this
    · split
      · exact h3
      · exact this

theorem roundHalfEven_int (n : Int) : roundHalfEven (n : ℚ) = n :=
  le_antisymm (roundHalfEven_le le_rfl) (le_roundHalfEven le_rfl)

/-- Rounding a number in the normal range: the result is finite with a relative error of at most `2^-53`. -/
theorem roundPos_near {q : ℚ} (hlo : pow2 (-1022) ≤ q) (hhi : q ≤ pow2 1000) :
    ∃ v, roundPos q = .fin v ∧ |v - q| ≤ q * pow2 (-53) := by
  have hq : 0 < q := lt_of_lt_of_le (pow2_pos _) hlo
  obtain ⟨h1, h2, h3⟩ := ulpExp_spec hq
  have hbig : pow2 (ulpExp q + 52) ≤ q := by
    rcases h2 with h | h
    · exact h
    · rw [h]; exact hlo
  set e := ulpExp q with he
  have hep := pow2_pos e
  have herr := roundHalfEven_error (q / pow2 e)
  have habs : |(roundHalfEven (q / pow2 e) : ℚ) * pow2 e - q| ≤ pow2 e / 2 := by
    have : (roundHalfEven (q / pow2 e) : ℚ) * pow2 e - q = ((roundHalfEven (q / pow2 e) : ℚ) - q / pow2 e) * pow2 e := by
      field_simp
    rw [this, abs_mul, abs_of_pos hep]
    calc _ ≤ 1 / 2 * pow2 e := mul_le_mul_of_nonneg_right herr hep.le
      _ = pow2 e / 2 := by ring
  have hrel : pow2 e / 2 ≤ q * pow2 (-53) := by
    have e1 : pow2 e / 2 = pow2 (e + 52) * pow2 (-53) := by
      rw [← pow2_add, pow2_eq, pow2_eq, show e + 52 + -53 = e - 1 by ring, zpow_sub₀ (by norm_num)]
      norm_num
    rw [e1]
    exact mul_le_mul_of_nonneg_right hbig (pow2_pos _).le
  refine ⟨(roundHalfEven (q / pow2 e) : ℚ) * pow2 e, ?_, habs.trans hrel⟩
  unfold roundPos
  simp only [← he]
  rw [if_neg]
  push Not
  have h5 : (roundHalfEven (q / pow2 e) : ℚ) * pow2 e ≤ q + q * pow2 (-53) := by
    have := (abs_le.1 (habs.trans hrel)).2
    linarith
  have h6 : pow2 (-53) ≤ 1 := by
    have := pow2_le (show (-53 : Int) ≤ 0 by norm_num)
    rwa [show pow2 0 = 1 by rw [pow2_eq]; norm_num] at this
  have h7 : q + q * pow2 (-53) ≤ 2 * pow2 1000 := by nlinarith
  have h8 : 2 * pow2 1000 < pow2 1024 := by
    rw [show (1024 : Int) = 1000 + 24 by norm_num, pow2_add]
    have : pow2 24 = 16777216 := by rw [pow2_eq]; norm_num
    rw [this]
    have := pow2_pos 1000
    linarith
  linarith

/-- Rounding up to a multiple of the unit in the last place. -/
theorem roundPos_ge {q v : ℚ} {n : Int} (hr : roundPos q = .fin v) (hn : (n : ℚ) ≤ q) (he : ulpExp q ≤ 0) :
    (n : ℚ) ≤ v := by
  unfold roundPos at hr
  simp only at hr
  split at hr
  · cases hr
  · injection hr with hr
    set e := ulpExp q
    have hep := pow2_pos e
    have hN : pow2 (-e) = ((2 ^ (-e).toNat : Nat) : ℚ) := by
      unfold pow2; rw [if_pos (by omega)]
    have hme : pow2 (-e) * pow2 e = 1 := by rw [← pow2_add]; simp [pow2]
    have h1 : ((n * (2 ^ (-e).toNat : Nat) : Int) : ℚ) ≤ q / pow2 e := by
      rw [le_div_iff₀ hep]
      push_cast
      rw [show ((2 : ℚ) ^ (-e).toNat) = pow2 (-e) by rw [hN]; push_cast; rfl]
      rw [mul_assoc, hme, mul_one]; exact hn
    have h2 := le_roundHalfEven h1
    have h3 : ((n * (2 ^ (-e).toNat : Nat) : Int) : ℚ) ≤ (roundHalfEven (q / pow2 e) : ℚ) := by exact_mod_cast h2
    rw [← hr]
    calc (n : ℚ) = ((n * (2 ^ (-e).toNat : Nat) : Int) : ℚ) * pow2 e := by
          push_cast
          rw [show ((2 : ℚ) ^ (-e).toNat) = pow2 (-e) by rw [hN]; push_cast; rfl]
          rw [mul_assoc, hme, mul_one]
      _ ≤ _ := mul_le_mul_of_nonneg_right h3 hep.le

/-- Below `2^53` the unit in the last place is at most one. -/
theorem ulpExp_le_zero {q : ℚ} (hq : 0 < q) (h : q < pow2 53) : ulpExp q ≤ 0 := by
  obtain ⟨_, h2, _⟩ := ulpExp_spec hq
  rcases h2 with h2 | h2
  · by_contra hc
    push Not at hc
    have : pow2 53 ≤ pow2 (ulpExp q + 52) := pow2_le (by omega)
    linarith
  · omega

/-- Integers up to `2^53` are exact. -/
theorem ofInt_exact {n : Int} (h : |n| < 2 ^ 53) : ofInt n = .fin n := by
  have key : ∀ k : Int, 0 < k → k < 2 ^ 53 → roundPos (k : ℚ) = .fin k := by
    intro k hk hlt
    have hq : (0 : ℚ) < k := by exact_mod_cast hk
    have hlt' : (k : ℚ) < pow2 53 := by
      rw [pow2_eq]
      have : ((k : Int) : ℚ) < ((2 ^ 53 : Int) : ℚ) := by exact_mod_cast hlt
      norm_num at this ⊢
      exact this
    have he := ulpExp_le_zero hq hlt'
    unfold roundPos
    simp only
    set e := ulpExp (k : ℚ)
    have hme : pow2 (-e) * pow2 e = 1 := by rw [← pow2_add]; simp [pow2]
    have hN : pow2 (-e) = ((2 ^ (-e).toNat : Nat) : ℚ) := by
      unfold pow2; rw [if_pos (by omega)]
    have hdiv : (k : ℚ) / pow2 e = ((k * (2 ^ (-e).toNat : Nat) : Int) : ℚ) := by
      rw [div_eq_iff (pow2_pos e).ne']
      push_cast
      rw [show ((2 : ℚ) ^ (-e).toNat) = pow2 (-e) by rw [hN]; push_cast; rfl]
      rw [mul_assoc, hme, mul_one]
    rw [hdiv, roundHalfEven_int, ← hdiv, div_mul_cancel₀ _ (pow2_pos e).ne', if_neg]
    push Not
    exact lt_trans hlt' (pow2_lt (by norm_num))
  unfold ofInt round
  rcases lt_trichotomy n 0 with hn | hn | hn
  · have h1 : ¬ ((n : ℚ) = 0) := by exact_mod_cast hn.ne
    have h2 : ¬ (0 < (n : ℚ)) := by push Not; exact_mod_cast hn.le
    rw [if_neg h1, if_neg h2]
    have := key (-n) (by omega) (by rw [abs_of_neg hn] at h; exact h)
    push_cast at this
    rw [this]
    simp
  · subst hn; simp
  · have h1 : ¬ ((n : ℚ) = 0) := by exact_mod_cast hn.ne'
    have h2 : 0 < (n : ℚ) := by exact_mod_cast hn
    rw [if_neg h1, if_pos h2]
    exact key n hn (by rw [abs_of_pos hn] at h; exact h)

/-! ## Relative errors -/

/-- `x` is finite and differs from the positive number `r` by at most `k` roundings: by a factor between `(1 + 2^-52)^-k` and
`(1 + 2^-52)^k`. -/
def Near (x : F64) (r : ℚ) (k : Nat) : Prop :=
  ∃ v, x = .fin v ∧ r ≤ v * (1 + pow2 (-52)) ^ k ∧ v ≤ r * (1 + pow2 (-52)) ^ k

theorem eps_pos : 0 < pow2 (-52) := pow2_pos _

theorem one_le_eps (k : Nat) : (1 : ℚ) ≤ (1 + pow2 (-52)) ^ k := one_le_pow₀ (by linarith [eps_pos])

/-- Forty roundings change a number by less than a factor of two. -/
theorem eps_pow_le {k : Nat} (h : k ≤ 40) : (1 + pow2 (-52)) ^ k ≤ 2 := by
  calc (1 + pow2 (-52)) ^ k ≤ (1 + pow2 (-52)) ^ 40 := pow_le_pow_right₀ (by linarith [eps_pos]) h
    _ ≤ 2 := by rw [pow2_eq]; norm_num

theorem near_exact {v r : ℚ} (h : v = r) : Near (.fin v) r 0 := ⟨v, rfl, by simp [h], by simp [h]⟩

theorem near_pos {x : F64} {r : ℚ} {k : Nat} (h : Near x r k) (hr : 0 < r) : ∃ v, x = .fin v ∧ 0 < v := by
  obtain ⟨v, rfl, h1, _⟩ := h
  refine ⟨v, rfl, ?_⟩
  by_contra hc
  push Not at hc
  have : v * (1 + pow2 (-52)) ^ k ≤ 0 := mul_nonpos_of_nonpos_of_nonneg hc (by linarith [one_le_eps k])
  linarith

/-- Rounding a number that is already close. -/
theorem near_round {q r : ℚ} {k : Nat} (hk : k ≤ 40) (hlo : pow2 (-1000) ≤ r) (hhi : r ≤ pow2 900)
    (h1 : r ≤ q * (1 + pow2 (-52)) ^ k) (h2 : q ≤ r * (1 + pow2 (-52)) ^ k) : Near (round q) r (k + 1) := by
  have hr : 0 < r := lt_of_lt_of_le (pow2_pos _) hlo
  have hE := one_le_eps k
  have hE2 := eps_pow_le hk
  have hq : 0 < q := by
    by_contra hc
    push Not at hc
    have : q * (1 + pow2 (-52)) ^ k ≤ 0 := mul_nonpos_of_nonpos_of_nonneg hc (by linarith)
    linarith
  have hqlo : pow2 (-1022) ≤ q := by
    have : r ≤ q * 2 := h1.trans (mul_le_mul_of_nonneg_left hE2 hq.le)
    have h3 : pow2 (-1022) * 2 ≤ pow2 (-1000) := by
      rw [show (-1000 : Int) = -1022 + 22 by norm_num, pow2_add]
      have : pow2 22 = 4194304 := by rw [pow2_eq]; norm_num
      rw [this]
      have := pow2_pos (-1022)
      linarith
    linarith
  have hqhi : q ≤ pow2 1000 := by
    have : q ≤ r * 2 := h2.trans (mul_le_mul_of_nonneg_left hE2 hr.le)
    have h3 : pow2 900 * 2 ≤ pow2 1000 := by
      rw [show (1000 : Int) = 900 + 100 by norm_num, pow2_add]
      have : (2 : ℚ) ≤ pow2 100 := by rw [pow2_eq]; norm_num
      have := pow2_pos 900
      nlinarith
    linarith
  obtain ⟨v, hv, herr⟩ := roundPos_near hqlo hqhi
  refine ⟨v, ?_, ?_, ?_⟩
  · unfold round
    rw [if_neg hq.ne', if_pos hq, hv]
  · have h5 := (abs_le.1 herr).1
    have hd : pow2 (-53) = pow2 (-52) / 2 := by rw [pow2_eq, pow2_eq]; norm_num
    rw [hd] at h5
    have h6 : q ≤ v * (1 + pow2 (-52)) := by
      have e1 : pow2 (-52) ≤ 1 := by rw [pow2_eq]; norm_num
      have e0 := eps_pos
      have h7 : q * (1 - pow2 (-52) / 2) ≤ v := by linarith
      have h8 : q * (1 - pow2 (-52) / 2) * (1 + pow2 (-52)) ≤ v * (1 + pow2 (-52)) :=
        mul_le_mul_of_nonneg_right h7 (by linarith)
      have h9 : q * (1 - pow2 (-52) / 2) * (1 + pow2 (-52)) = q + q * (pow2 (-52) / 2 * (1 - pow2 (-52))) := by ring
      have h10 : 0 ≤ q * (pow2 (-52) / 2 * (1 - pow2 (-52))) :=
        mul_nonneg hq.le (mul_nonneg (by linarith) (by linarith))
      linarith
    calc r ≤ q * (1 + pow2 (-52)) ^ k := h1
      _ ≤ v * (1 + pow2 (-52)) * (1 + pow2 (-52)) ^ k := mul_le_mul_of_nonneg_right h6 (by linarith)
      _ = v * (1 + pow2 (-52)) ^ (k + 1) := by ring
  · have h5 := (abs_le.1 herr).2
    have hd : pow2 (-53) = pow2 (-52) / 2 := by rw [pow2_eq, pow2_eq]; norm_num
    rw [hd] at h5
    have h6 : v ≤ q * (1 + pow2 (-52)) := by
      have := eps_pos
      nlinarith
    calc v ≤ q * (1 + pow2 (-52)) := h6
      _ ≤ r * (1 + pow2 (-52)) ^ k * (1 + pow2 (-52)) := mul_le_mul_of_nonneg_right h2 (by linarith [eps_pos])
      _ = r * (1 + pow2 (-52)) ^ (k + 1) := by ring

theorem near_mul {x y : F64} {r t : ℚ} {j k : Nat} (hx : Near x r j) (hy : Near y t k) (hr : 0 < r) (ht : 0 < t)
    (hk : j + k ≤ 40) (hlo : pow2 (-1000) ≤ r * t) (hhi : r * t ≤ pow2 900) : Near (mul x y) (r * t) (j + k + 1) := by
  obtain ⟨v, rfl, hv0⟩ := near_pos hx hr
  obtain ⟨w, rfl, hw0⟩ := near_pos hy ht
  obtain ⟨v', hv', h1, h2⟩ := hx
  injection hv' with hv'; subst hv'
  obtain ⟨w', hw', h3, h4⟩ := hy
  injection hw' with hw'; subst hw'
  have hj := one_le_eps j
  have hkk := one_le_eps k
  refine near_round hk hlo hhi ?_ ?_
  · rw [pow_add]
    calc r * t ≤ (v * (1 + pow2 (-52)) ^ j) * (w * (1 + pow2 (-52)) ^ k) := mul_le_mul h1 h3 ht.le (by positivity)
      _ = _ := by ring
  · rw [pow_add]
    calc v * w ≤ (r * (1 + pow2 (-52)) ^ j) * (t * (1 + pow2 (-52)) ^ k) := mul_le_mul h2 h4 hw0.le (by positivity)
      _ = _ := by ring

theorem near_div {x y : F64} {r t : ℚ} {j k : Nat} (hx : Near x r j) (hy : Near y t k) (hr : 0 < r) (ht : 0 < t)
    (hk : j + k ≤ 40) (hlo : pow2 (-1000) ≤ r / t) (hhi : r / t ≤ pow2 900) : Near (div x y) (r / t) (j + k + 1) := by
  obtain ⟨v, rfl, hv0⟩ := near_pos hx hr
  obtain ⟨w, rfl, hw0⟩ := near_pos hy ht
  obtain ⟨v', hv', h1, h2⟩ := hx
  injection hv' with hv'; subst hv'
  obtain ⟨w', hw', h3, h4⟩ := hy
  injection hw' with hw'; subst hw'
  have hj := one_le_eps j
  have hkk := one_le_eps k
  unfold div
  simp only
  rw [if_neg hw0.ne']
  refine near_round hk hlo hhi ?_ ?_
  · rw [pow_add, div_le_iff₀ ht]
    calc r ≤ v * (1 + pow2 (-52)) ^ j := h1
      _ = v / w * ((1 + pow2 (-52)) ^ j) * w := by field_simp
      _ ≤ v / w * ((1 + pow2 (-52)) ^ j) * (t * (1 + pow2 (-52)) ^ k) := mul_le_mul_of_nonneg_left h4 (by positivity)
      _ = _ := by ring
  · rw [pow_add, div_le_iff₀ hw0]
    calc v ≤ r * (1 + pow2 (-52)) ^ j := h2
      _ = r / t * ((1 + pow2 (-52)) ^ j) * t := by field_simp
      _ ≤ r / t * ((1 + pow2 (-52)) ^ j) * (w * (1 + pow2 (-52)) ^ k) := mul_le_mul_of_nonneg_left h3 (by positivity)
      _ = _ := by ring

theorem near_mono {x : F64} {r : ℚ} {j k : Nat} (h : Near x r j) (hr : 0 < r) (hjk : j ≤ k) : Near x r k := by
  obtain ⟨v, rfl, hv0⟩ := near_pos h hr
  obtain ⟨v', hv', h1, h2⟩ := h
  injection hv' with hv'; subst hv'
  have hp : (1 + pow2 (-52)) ^ j ≤ (1 + pow2 (-52)) ^ k := pow_le_pow_right₀ (by linarith [eps_pos]) hjk
  exact ⟨v, rfl, h1.trans (mul_le_mul_of_nonneg_left hp hv0.le), h2.trans (mul_le_mul_of_nonneg_left hp hr.le)⟩

theorem near_add {x y : F64} {r t : ℚ} {k : Nat} (hx : Near x r k) (hy : Near y t k) (hk : k ≤ 40)
    (hlo : pow2 (-1000) ≤ r + t) (hhi : r + t ≤ pow2 900) : Near (add x y) (r + t) (k + 1) := by
  obtain ⟨v, rfl, h1, h2⟩ := hx
  obtain ⟨w, rfl, h3, h4⟩ := hy
  refine near_round hk hlo hhi ?_ ?_
  · rw [add_mul]; linarith
  · rw [add_mul]; linarith

/-- `float64(n)` of a positive integer. -/
theorem near_ofInt {n : Int} (hn : 0 < n) (h : n ≤ 2 ^ 64) : Near (ofInt n) n 1 := by
  have h0 : (1 : ℚ) ≤ n := by exact_mod_cast hn
  have h2 : (n : ℚ) ≤ 2 ^ 64 := by exact_mod_cast h
  refine near_round (k := 0) (by norm_num) ?_ ?_ (by simp) (by simp)
  · have : pow2 (-1000) ≤ pow2 0 := pow2_le (by norm_num)
    rw [show pow2 0 = 1 by simp [pow2]] at this
    linarith
  · have : pow2 64 ≤ pow2 900 := pow2_le (by norm_num)
    rw [show pow2 64 = 2 ^ 64 by rw [pow2_eq]; norm_num] at this
    linarith

/-- The relative error of up to eight roundings is at most `2^-48`. -/
theorem near_error {x : F64} {r : ℚ} {k : Nat} (h : Near x r k) (hr : 0 < r) (hk : k ≤ 8) :
    ∃ v, x = .fin v ∧ |v - r| ≤ r / 2 ^ 48 := by
  have h' := near_mono h hr hk
  obtain ⟨v, rfl, hv0⟩ := near_pos h' hr
  obtain ⟨v', hv', h1, h2⟩ := h'
  injection hv' with hv'; subst hv'
  refine ⟨v, rfl, ?_⟩
  have e1 : (1 + pow2 (-52)) ^ 8 ≤ 1 + 1 / 2 ^ 48 := by rw [pow2_eq]; norm_num
  rw [abs_le]
  constructor
  · have : r ≤ v * (1 + 1 / 2 ^ 48) := h1.trans (mul_le_mul_of_nonneg_left e1 hv0.le)
    by_contra hc
    push Not at hc
    have : v < r - r / 2 ^ 48 := by linarith
    have h5 : v * (1 + 1 / 2 ^ 48) < (r - r / 2 ^ 48) * (1 + 1 / 2 ^ 48) := mul_lt_mul_of_pos_right this (by positivity)
    have h6 : (r - r / 2 ^ 48) * (1 + 1 / 2 ^ 48) ≤ r := by
      have : (r - r / 2 ^ 48) * (1 + 1 / 2 ^ 48) = r - r * (1 / 2 ^ 48) ^ 2 := by ring
      rw [this]
      have : 0 ≤ r * (1 / 2 ^ 48) ^ 2 := by positivity
      linarith
    linarith
  · have : v ≤ r * (1 + 1 / 2 ^ 48) := h2.trans (mul_le_mul_of_nonneg_left e1 hr.le)
    have e2 : r * (1 + 1 / 2 ^ 48) = r + r / 2 ^ 48 := by ring
    rw [e2] at this
    linarith

/-! ## `Duration.Seconds` -/

theorem ofInt_1e9 : ofInt 1000000000 = .fin 1000000000 := by
  rw [ofInt_exact (by norm_num)]; norm_num

/-- The fraction of a second. -/
theorem frac_near {f : Int} (h0 : 0 < f) (h1 : f < 1000000000) :
    Near (div (ofInt f) (ofInt 1000000000)) ((f : ℚ) / 1000000000) 1 := by
  have hf : ofInt f = .fin f := ofInt_exact (by rw [abs_of_pos h0]; omega)
  rw [hf, ofInt_1e9]
  have hq : (1 : ℚ) ≤ f := by exact_mod_cast h0
  have hq2 : (f : ℚ) < 1000000000 := by exact_mod_cast h1
  refine near_div (j := 0) (k := 0) (near_exact rfl) (near_exact rfl) (by linarith) (by norm_num) (by norm_num) ?_ ?_
  · have : pow2 (-1000) ≤ pow2 (-30) := pow2_le (by norm_num)
    have e : pow2 (-30) = 1 / 1073741824 := by rw [pow2_eq]; norm_num
    rw [e] at this
    rw [le_div_iff₀ (by norm_num)]
    linarith
  · have : pow2 0 ≤ pow2 900 := pow2_le (by norm_num)
    rw [show pow2 0 = 1 by simp [pow2]] at this
    rw [div_le_iff₀ (by norm_num)]
    linarith

theorem round_zero : round 0 = .fin 0 := by simp [round]

/-- Rounding a number that is a `float64` already: integers. -/
theorem round_int {n : Int} (h : |n| < 2 ^ 53) : round (n : ℚ) = .fin n := ofInt_exact h

/-- `Seconds()` of a positive duration is the exact number of seconds up to rounding. -/
theorem seconds_near {n : Int} (h0 : 0 < n) (h1 : n < 2 ^ 63) : Near (seconds n) ((n : ℚ) / 1000000000) 2 := by
  have hdm : n = n.tdiv 1000000000 * 1000000000 + n.tmod 1000000000 := by
    have := Int.mul_tdiv_add_tmod n 1000000000; omega
  have ht0 : 0 ≤ n.tdiv 1000000000 := Int.tdiv_nonneg h0.le (by norm_num)
  have ht1 : n.tdiv 1000000000 < 2 ^ 53 := by
    have : n.tdiv 1000000000 = n / 1000000000 := Int.tdiv_eq_ediv_of_nonneg h0.le
    omega
  have hm0 : 0 ≤ n.tmod 1000000000 := Int.tmod_nonneg _ h0.le
  have hm1 : n.tmod 1000000000 < 1000000000 := Int.tmod_lt_of_pos n (by norm_num)
  unfold seconds
  set a := n.tdiv 1000000000
  set f := n.tmod 1000000000
  have ha : ofInt a = .fin a := ofInt_exact (by rw [abs_of_nonneg ht0]; exact ht1)
  have hnq : (n : ℚ) / 1000000000 = a + (f : ℚ) / 1000000000 := by
    have : (n : ℚ) = a * 1000000000 + f := by exact_mod_cast hdm
    rw [this]; field_simp
  have hsmall : pow2 (-1000) ≤ (n : ℚ) / 1000000000 := by
    have : pow2 (-1000) ≤ pow2 (-30) := pow2_le (by norm_num)
    have e : pow2 (-30) = 1 / 1073741824 := by rw [pow2_eq]; norm_num
    rw [e] at this
    rw [le_div_iff₀ (by norm_num)]
    have : (1 : ℚ) ≤ n := by exact_mod_cast h0
    linarith
  have hbig : (n : ℚ) / 1000000000 ≤ pow2 900 := by
    have : pow2 63 ≤ pow2 900 := pow2_le (by norm_num)
    rw [show pow2 63 = 2 ^ 63 by rw [pow2_eq]; norm_num] at this
    rw [div_le_iff₀ (by norm_num)]
    have : (n : ℚ) < 2 ^ 63 := by exact_mod_cast h1
    linarith
  rcases hm0.eq_or_lt with hf | hf
  · rw [← hf] at hnq ⊢
    rw [ha, ofInt_1e9, show ofInt 0 = .fin 0 by simp [ofInt, round]]
    have : div (.fin 0) (.fin 1000000000) = .fin 0 := by simp [div, round]
    rw [this]
    simp only [add, add_zero]
    rw [round_int (by rw [abs_of_nonneg ht0]; exact ht1)]
    refine near_mono (near_exact ?_) (lt_of_lt_of_le (pow2_pos _) hsmall) (by norm_num)
    rw [hnq]; simp
  · have hfr := frac_near hf hm1
    have hr : (0 : ℚ) < (f : ℚ) / 1000000000 := by
      have : (0 : ℚ) < f := by exact_mod_cast hf
      positivity
    rw [ha, hnq]
    rw [hnq] at hsmall hbig
    rcases ht0.eq_or_lt with h | h
    · rw [← h] at hsmall hbig ⊢
      obtain ⟨v, hv, e1, e2⟩ := hfr
      rw [hv]
      simp only [add, Int.cast_zero, zero_add] at hsmall hbig ⊢
      exact near_round (k := 1) (by norm_num) hsmall hbig e1 e2
    · have h' : (0 : ℚ) < a := by exact_mod_cast h
      exact near_add (k := 1) (near_mono (near_exact rfl) h' (by norm_num)) hfr (by norm_num) hsmall hbig

/-- The comparison with nine seconds is exact. -/
theorem seconds_lt_nine {n : Int} (h1 : n < 2 ^ 63) (h2 : -2 ^ 63 ≤ n) :
    lt (seconds n) (ofInt 9) = true ↔ n < 9000000000 := by
  have h9 : ofInt 9 = .fin 9 := by rw [ofInt_exact (by norm_num)]; norm_num
  rw [h9]
  rcases lt_or_ge 0 n with h0 | h0
  · by_cases hlt : n < 9000000000
    · obtain ⟨v, hv, e1, e2⟩ := seconds_near h0 h1
      rw [hv]
      simp only [lt, decide_eq_true_eq, hlt, iff_true]
      have : (n : ℚ) ≤ 8999999999 := by exact_mod_cast (by omega : n ≤ 8999999999)
      have e : (1 + pow2 (-52)) ^ 2 ≤ 1 + 1 / 2 ^ 50 := by rw [pow2_eq]; norm_num
      have h5 : (n : ℚ) / 1000000000 ≤ 8999999999 / 1000000000 := by
        rw [div_le_div_iff_of_pos_right (by norm_num)]; exact this
      calc v ≤ (n : ℚ) / 1000000000 * (1 + pow2 (-52)) ^ 2 := e2
        _ ≤ 8999999999 / 1000000000 * (1 + 1 / 2 ^ 50) := mul_le_mul h5 e (by positivity) (by norm_num)
        _ < 9 := by norm_num
    · simp only [hlt, iff_false, Bool.not_eq_true]
      have hdm : n = n.tdiv 1000000000 * 1000000000 + n.tmod 1000000000 := by
        have := Int.mul_tdiv_add_tmod n 1000000000; omega
      have hm0 : 0 ≤ n.tmod 1000000000 := Int.tmod_nonneg _ h0.le
      have hm1 : n.tmod 1000000000 < 1000000000 := Int.tmod_lt_of_pos n (by norm_num)
      have ht9 : 9 ≤ n.tdiv 1000000000 := by omega
      have ht1 : n.tdiv 1000000000 < 2 ^ 40 := by omega
      unfold seconds
      set a := n.tdiv 1000000000
      set f := n.tmod 1000000000
      have ha : ofInt a = .fin a := ofInt_exact (by rw [abs_of_pos (by omega)]; omega)
      have haq : (9 : ℚ) ≤ a := by exact_mod_cast ht9
      have haq2 : (a : ℚ) < 2 ^ 40 := by exact_mod_cast ht1
      obtain ⟨w, hw, hw0, hw2⟩ : ∃ w, div (ofInt f) (ofInt 1000000000) = .fin w ∧ 0 ≤ w ∧ w ≤ 2 := by
        rcases hm0.eq_or_lt with hf | hf
        · rw [← hf, ofInt_1e9, show ofInt 0 = .fin 0 by simp [ofInt, round]]
          exact ⟨0, by simp [div, round], le_rfl, by norm_num⟩
        · have hfr := frac_near hf hm1
          have hr : (0 : ℚ) < (f : ℚ) / 1000000000 := by
            have : (0 : ℚ) < f := by exact_mod_cast hf
            positivity
          obtain ⟨w, hw, hw0⟩ := near_pos hfr hr
          obtain ⟨w', hw', _, e2⟩ := hfr
          rw [hw] at hw'; injection hw' with hw'; subst hw'
          refine ⟨w, hw, hw0.le, e2.trans ?_⟩
          have : (f : ℚ) / 1000000000 ≤ 1 := by
            rw [div_le_iff₀ (by norm_num)]
            have : (f : ℚ) < 1000000000 := by exact_mod_cast hm1
            linarith
          calc (f : ℚ) / 1000000000 * (1 + pow2 (-52)) ^ 1 ≤ 1 * 2 :=
                mul_le_mul this (eps_pow_le (by norm_num)) (by linarith [one_le_eps 1]) (by norm_num)
            _ = 2 := by norm_num
      rw [ha, hw]
      simp only [add]
      have hqpos : 0 < (a : ℚ) + w := by linarith
      have hq53 : (a : ℚ) + w < pow2 53 := by
        rw [show pow2 53 = 9007199254740992 by rw [pow2_eq]; norm_num]
        have : (2 : ℚ) ^ 40 = 1099511627776 := by norm_num
        linarith
      have hlo : pow2 (-1022) ≤ (a : ℚ) + w := by
        have : pow2 (-1022) ≤ pow2 0 := pow2_le (by norm_num)
        rw [show pow2 0 = 1 by simp [pow2]] at this
        linarith
      have hhi : (a : ℚ) + w ≤ pow2 1000 := hq53.le.trans (pow2_le (by norm_num))
      obtain ⟨v, hv, _⟩ := roundPos_near hlo hhi
      have hge := roundPos_ge (n := 9) hv (by push_cast; linarith) (ulpExp_le_zero hqpos hq53)
      unfold round
      rw [if_neg hqpos.ne', if_pos hqpos, hv]
      simp only [lt, decide_eq_false_iff_not, not_lt]
      exact_mod_cast hge
  · have hlt : n < 9000000000 := by omega
    simp only [hlt, iff_true]
    -- a duration that is not positive
    have hnn : ∃ v : ℚ, (seconds n = .fin v ∧ v ≤ 0) ∨ seconds n = .inf true := by
      have ht0 : n.tdiv 1000000000 ≤ 0 := by
        have := Int.tdiv_nonneg (a := -n) (b := 1000000000) (by omega) (by norm_num)
        rw [Int.neg_tdiv] at this; omega
      have hm0 : n.tmod 1000000000 ≤ 0 := by
        have := Int.tmod_nonneg (a := -n) 1000000000 (by omega)
        rw [Int.neg_tmod] at this; omega
      have hdm : n = n.tdiv 1000000000 * 1000000000 + n.tmod 1000000000 := by
        have := Int.mul_tdiv_add_tmod n 1000000000; omega
      have hm1 : -1000000000 < n.tmod 1000000000 := by
        have := Int.lt_tmod_of_pos n (b := 1000000000) (by norm_num); omega
      have rnonpos : ∀ q : ℚ, q ≤ 0 → ∃ v : ℚ, (round q = .fin v ∧ v ≤ 0) ∨ round q = .inf true := by
        intro q hq
        rcases hq.eq_or_lt with h | h
        · exact ⟨0, .inl ⟨by rw [h]; exact round_zero, le_rfl⟩⟩
        · unfold round
          rw [if_neg h.ne, if_neg (by linarith)]
          cases hr : roundPos (-q) with
          | nan => exact ⟨0, .inr rfl⟩
          | inf b => exact ⟨0, .inr rfl⟩
          | fin v =>
            refine ⟨-v, .inl ⟨rfl, ?_⟩⟩
            unfold roundPos at hr
            simp only at hr
            split at hr
            · cases hr
            · injection hr with hr
              have h1 : (0 : Int) ≤ roundHalfEven (-q / pow2 (ulpExp (-q))) := by
                refine le_roundHalfEven ?_
                have := pow2_pos (ulpExp (-q))
                push_cast
                exact div_nonneg (by linarith) this.le
              have h2 : (0 : ℚ) ≤ (roundHalfEven (-q / pow2 (ulpExp (-q))) : ℚ) := by exact_mod_cast h1
              have := mul_nonneg h2 (pow2_pos (ulpExp (-q))).le
              linarith
      unfold seconds
      set a := n.tdiv 1000000000
      set f := n.tmod 1000000000
      have ha : ofInt a = .fin a := ofInt_exact (by rw [abs_of_nonpos ht0]; omega)
      have hf : ofInt f = .fin f := ofInt_exact (by rw [abs_of_nonpos hm0]; omega)
      have haq : (a : ℚ) ≤ 0 := by exact_mod_cast ht0
      have hfq : (f : ℚ) ≤ 0 := by exact_mod_cast hm0
      rw [ha, hf, ofInt_1e9]
      have hd : div (.fin f) (.fin 1000000000) = round ((f : ℚ) / 1000000000) := by simp [div]
      rw [hd]
      obtain ⟨w, ⟨hw, hw0⟩ | hw⟩ := rnonpos ((f : ℚ) / 1000000000) (by
        apply div_nonpos_of_nonpos_of_nonneg hfq (by norm_num))
      · rw [hw]
        exact rnonpos _ (by linarith)
      · rw [hw]
        exact ⟨0, .inr rfl⟩
    obtain ⟨v, ⟨hv, hv0⟩ | hv⟩ := hnn
    · rw [hv]; simp only [lt, decide_eq_true_eq]; linarith
    · rw [hv]; rfl

end Verif.Go.F64
