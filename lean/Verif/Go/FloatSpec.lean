import Verif.Go.FloatRound
import Verif.Spec.Float

/-!
# Rounding is what IEEE 754 says
-/

namespace Verif.Go.F64
open Verif.Spec

/-- `n` is the closest integer, and in the middle between two the even one. -/
private theorem roundHalfEven_nearest (x : ℚ) {k : Int} (h : k ≠ roundHalfEven x) :
    |(roundHalfEven x : ℚ) - x| < |(k : ℚ) - x| ∨ (|(roundHalfEven x : ℚ) - x| = |(k : ℚ) - x| ∧ roundHalfEven x % 2 = 0 ∧ (k = roundHalfEven x + 1 ∨ k = roundHalfEven x - 1)) := by
  have h1 := Rat.floor_le x
  have h2 := Rat.lt_floor_add_one x
  push_cast at h2
  revert h
  unfold roundHalfEven
  simp only
  generalize x.floor = f at *
  have low : ∀ k : Int, k ≤ f → |(k : ℚ) - x| = x - k := fun k hk => by
    have : (k : ℚ) ≤ f := by exact_mod_cast hk
    rw [abs_of_nonpos (by linarith)]; ring
  have high : ∀ k : Int, f + 1 ≤ k → |(k : ℚ) - x| = k - x := fun k hk => by
    have : (f : ℚ) + 1 ≤ k := by exact_mod_cast hk
    rw [abs_of_nonneg (by linarith)]
  have cast_lt : ∀ a b : Int, a < b → (a : ℚ) + 1 ≤ b := fun a b hab => by exact_mod_cast hab
  have half : ∀ k : Int, k ≠ f → k ≤ f → (k : ℚ) + 1 ≤ f := fun k h1 h2 => cast_lt _ _ (by omega)
  have half' : ∀ k : Int, k ≠ f + 1 → f + 1 ≤ k → (f : ℚ) + 2 ≤ k := fun k h1 h2 => by
    have := cast_lt (f + 1) k (by omega)
    push_cast at this
    linarith
  split
  · intro hk
    rw [low f le_rfl]
    left
    rcases lt_or_ge k (f + 1) with h | h
    · rw [low k (by omega)]
      have := half k hk (by omega)
      linarith
    · rw [high k h]
      have : (f : ℚ) + 1 ≤ k := by exact_mod_cast h
      linarith
  · split
    · intro hk
      rw [high (f + 1) le_rfl]
      left
      push_cast
      rcases lt_or_ge k (f + 1) with h | h
      · rw [low k (by omega)]
        have : (k : ℚ) ≤ f := by exact_mod_cast (by omega : k ≤ f)
        linarith
      · rw [high k h]
        have := half' k hk h
        linarith
    · rename_i a b
      have hx : x - f = 1 / 2 := le_antisymm (not_lt.1 b) (not_lt.1 a)
      split
      · rename_i he
        intro hk
        rw [low f le_rfl]
        rcases lt_or_ge k (f + 1) with h | h
        · rw [low k (by omega)]
          have := half k hk (by omega)
          left; linarith
        · rw [high k h]
          by_cases h' : k = f + 1
          · right
            subst h'
            refine ⟨by push_cast; linarith, he, .inl rfl⟩
          · left
            have := half' k h' h
            linarith
      · rename_i he
        intro hk
        rw [high (f + 1) le_rfl]
        push_cast
        rcases lt_or_ge k (f + 1) with h | h
        · rw [low k (by omega)]
          by_cases h' : k = f
          · right
            subst h'
            refine ⟨by linarith, by omega, .inr (by omega)⟩
          · left
            have := half k h' (by omega)
            linarith
        · rw [high k h]
          have := half' k hk h
          left; linarith

private theorem two_zpow_pos (e : Int) : (0 : ℚ) < 2 ^ e := zpow_pos (by norm_num) e

private theorem big_eq : (2 : ℚ) ^ 1024 = 2 ^ (1024 : Int) := by rw [← zpow_natCast]; rfl

private theorem half_eq : (2 : ℚ) ^ 970 = 2 ^ (970 : Int) := by rw [← zpow_natCast]; rfl

private theorem z53 (e : Int) : (2 : ℚ) ^ (e + 53) = 2 ^ 53 * 2 ^ e := by rw [zpow_add₀ (by norm_num), mul_comm]; norm_num

private theorem z52 (e : Int) : (2 : ℚ) ^ (e + 52) = 2 ^ 52 * 2 ^ e := by rw [zpow_add₀ (by norm_num), mul_comm]; norm_num

private theorem z1 (e : Int) : (2 : ℚ) ^ (e + 1) = 2 * 2 ^ e := by rw [zpow_add₀ (by norm_num), mul_comm]; norm_num

/-- The parts of a positive number. -/
private theorem parts {q : ℚ} (hq : 0 < q) : ∃ (e m : Int), -1074 ≤ e ∧ q < 2 ^ 53 * 2 ^ e ∧ (2 ^ 52 * 2 ^ e ≤ q ∨ e = -1074) ∧ m = roundHalfEven (q / 2 ^ e) ∧ 0 ≤ m ∧ m ≤ 2 ^ 53 ∧ (2 ^ 52 ≤ m ∨ e = -1074) ∧
    roundPos q = if (2 : ℚ) ^ 1024 ≤ m * 2 ^ e then .inf false else .fin (m * 2 ^ e) := by
  obtain ⟨h1, h2, h3⟩ := ulpExp_spec hq
  rw [pow2_eq, z53] at h1
  rw [pow2_eq, z52] at h2
  have hp := two_zpow_pos (ulpExp q)
  refine ⟨ulpExp q, _, h3, h1, h2, rfl, ?_, ?_, ?_, ?_⟩
  · exact le_roundHalfEven (by push_cast; positivity)
  · refine roundHalfEven_le ?_
    push_cast
    rw [div_le_iff₀ hp]; exact h1.le
  · rcases h2 with h2 | h2
    · left
      refine le_roundHalfEven ?_
      push_cast
      rw [le_div_iff₀ hp]; exact h2
    · exact .inr h2
  · simp only [roundPos, pow2_eq, big_eq]

/-- A value that is not below `2^52` units is a whole number of units. -/
private theorem multiple {w : ℚ} {e : Int} (hw : DoubleValue w) (h : 2 ^ 52 * 2 ^ e ≤ w ∨ e = -1074) : ∃ k : Int, w = k * 2 ^ e := by
  obtain ⟨m, f, hm, hf, -, rfl⟩ := hw
  by_cases hef : e ≤ f
  · refine ⟨m * 2 ^ (f - e).toNat, ?_⟩
    have : (2 : ℚ) ^ f = 2 ^ (f - e).toNat * 2 ^ e := by
      rw [← zpow_natCast, ← zpow_add₀ (by norm_num), Int.toNat_of_nonneg (by omega)]
      congr 1; omega
    rw [this]; push_cast; ring
  · rcases h with h | h
    · exfalso
      have h1 : (2 : ℚ) ^ (f + 1) ≤ 2 ^ e := zpow_le_zpow_right₀ (by norm_num) (by omega)
      rw [z1] at h1
      have h2 : (m : ℚ) < 2 ^ 53 := by exact_mod_cast (abs_lt.1 hm).2
      have h3 := two_zpow_pos f
      have : (m : ℚ) * 2 ^ f < 2 ^ 53 * 2 ^ f := mul_lt_mul_of_pos_right h2 h3
      linarith
    · omega

private theorem even_not_odd {w : ℚ} {e k : Int} (hw : EvenDouble w) (h : 2 ^ 52 * 2 ^ e ≤ w ∨ e = -1074) (hk : w = k * 2 ^ e) : k % 2 = 0 := by
  obtain ⟨m, f, he, hm, hc, hf, -, rfl⟩ := hw
  by_cases hef : e ≤ f
  · have : (2 : ℚ) ^ f = 2 ^ (f - e).toNat * 2 ^ e := by
      rw [← zpow_natCast, ← zpow_add₀ (by norm_num), Int.toNat_of_nonneg (by omega)]
      congr 1; omega
    rw [this, ← mul_assoc] at hk
    have hk' := mul_right_cancel₀ (two_zpow_pos e).ne' hk
    have hk'' : m * 2 ^ (f - e).toNat = k := by exact_mod_cast hk'
    rw [← hk'', Int.mul_emod, he]; simp
  · rcases h with h | h
    · exfalso
      have h1 : (2 : ℚ) ^ (f + 1) ≤ 2 ^ e := zpow_le_zpow_right₀ (by norm_num) (by omega)
      rw [z1] at h1
      have h2 : (m : ℚ) < 2 ^ 53 := by exact_mod_cast (abs_lt.1 hm).2
      have h3 := two_zpow_pos f
      have : (m : ℚ) * 2 ^ f < 2 ^ 53 * 2 ^ f := mul_lt_mul_of_pos_right h2 h3
      linarith
    · omega

private theorem represent {m e : Int} (h0 : 0 ≤ m) (h1 : m ≤ 2 ^ 53) (h2 : 2 ^ 52 ≤ m ∨ e = -1074) (h3 : -1074 ≤ e) (h4 : (m : ℚ) * 2 ^ e < 2 ^ 1024) :
    ∃ m' e' : Int, |m'| < 2 ^ 53 ∧ (2 ^ 52 ≤ |m'| ∨ e' = -1074) ∧ -1074 ≤ e' ∧ e' ≤ 971 ∧ (m : ℚ) * 2 ^ e = m' * 2 ^ e' ∧ (m % 2 = 0 → m' % 2 = 0) := by
  have bound : ∀ (n : Nat) (f : Int), (2 : ℚ) ^ n * 2 ^ f < 2 ^ 1024 → (n : Int) + f < 1024 := by
    intro n f h
    rw [big_eq, ← zpow_natCast, ← zpow_add₀ (by norm_num)] at h
    exact (zpow_lt_zpow_iff_right₀ (by norm_num)).1 h
  by_cases hm : m = 2 ^ 53
  · subst hm
    refine ⟨2 ^ 52, e + 1, by norm_num, .inl (by norm_num), by omega, ?_, ?_, fun _ => by norm_num⟩
    · have := bound 53 e (by push_cast at h4; exact h4)
      omega
    · rw [z1]; push_cast; ring
  · refine ⟨m, e, by rw [abs_of_nonneg h0]; omega, by rw [abs_of_nonneg h0]; exact h2, h3, ?_, rfl, fun h => h⟩
    rcases h2 with h2 | h2
    · have h5 : (2 : ℚ) ^ 52 ≤ m := by exact_mod_cast h2
      have := bound 52 e (lt_of_le_of_lt (mul_le_mul_of_nonneg_right h5 (two_zpow_pos e).le) h4)
      omega
    · omega

/-- Whether a positive number is rounded to infinity. -/
private theorem overflow {q : ℚ} {e m : Int} (hq : 0 < q) (h1 : q < 2 ^ 53 * 2 ^ e) (h2 : 2 ^ 52 * 2 ^ e ≤ q ∨ e = -1074) (hm : m = roundHalfEven (q / 2 ^ e)) (h5 : m ≤ 2 ^ 53) (h6 : 2 ^ 52 ≤ m ∨ e = -1074) :
    (2 : ℚ) ^ 1024 ≤ m * 2 ^ e ↔ 2 ^ 1024 - 2 ^ 970 ≤ q := by
  have hp := two_zpow_pos e
  have e1024 : (2 : ℚ) ^ 1024 = 2 ^ 53 * 2 ^ (971 : Int) := by rw [big_eq, ← z53]; norm_num
  have e970 : (2 : ℚ) ^ 970 = 1 / 2 * 2 ^ (971 : Int) := by
    rw [half_eq, show (971 : Int) = 970 + 1 by norm_num, z1]; ring
  have h53 : (m : ℚ) ≤ 2 ^ 53 := by exact_mod_cast h5
  rcases lt_trichotomy e 971 with h | h | h
  · have l : (2 : ℚ) ^ (e + 1) ≤ 2 ^ (971 : Int) := zpow_le_zpow_right₀ (by norm_num) (by omega)
    rw [z1] at l
    have hpos := two_zpow_pos (971 : Int)
    have hm2 : (m : ℚ) * 2 ^ e ≤ 2 ^ 53 * 2 ^ e := mul_le_mul_of_nonneg_right h53 hp.le
    rw [e1024, e970]
    clear e1024 e970 hm h2
    generalize (2 : ℚ) ^ (971 : Int) = A at *
    generalize (2 : ℚ) ^ e = B at *
    generalize (m : ℚ) * B = C at *
    constructor <;> intro hh <;> linarith
  · subst h
    rw [e1024, e970]
    have hx : q = q / 2 ^ (971 : Int) * 2 ^ (971 : Int) := by field_simp
    rw [mul_le_mul_iff_left₀ hp]
    have hcast : (2 : ℚ) ^ 53 ≤ m ↔ 2 ^ 53 ≤ m := by
      constructor <;> intro h <;> exact_mod_cast h
    rw [hcast, ← sub_mul]
    conv_rhs => rw [hx]
    rw [mul_le_mul_iff_left₀ hp]
    generalize q / 2 ^ (971 : Int) = x at *
    subst hm
    have herr := abs_le.1 (roundHalfEven_error x)
    constructor
    · intro hh
      have : (2 : ℚ) ^ 53 ≤ (roundHalfEven x : ℚ) := by exact_mod_cast hh
      linarith [herr.2]
    · intro hh
      by_contra hc
      have hle : roundHalfEven x ≤ 2 ^ 53 - 1 := by omega
      have hle' : (roundHalfEven x : ℚ) ≤ 2 ^ 53 - 1 := by exact_mod_cast hle
      have heq : (roundHalfEven x : ℚ) = 2 ^ 53 - 1 := by linarith [herr.1]
      have heq' : roundHalfEven x = 2 ^ 53 - 1 := by exact_mod_cast heq
      have hx' : x = 2 ^ 53 - 1 / 2 := by linarith [herr.1]
      rcases roundHalfEven_nearest x (k := 2 ^ 53) (by omega) with hn | hn
      · rw [heq, hx'] at hn
        norm_num at hn
      · omega
  · have l : (2 : ℚ) ^ (971 + 1 : Int) ≤ 2 ^ e := zpow_le_zpow_right₀ (by norm_num) (by omega)
    rw [z1] at l
    have hpos := two_zpow_pos (971 : Int)
    have hq52 : 2 ^ 52 * 2 ^ e ≤ q := h2.resolve_right (by omega)
    have hm52 : (2 : ℚ) ^ 52 ≤ m := by exact_mod_cast h6.resolve_right (by omega)
    have hm52' := mul_le_mul_of_nonneg_right hm52 hp.le
    rw [e1024, e970]
    clear e1024 e970 hm h2
    generalize (2 : ℚ) ^ (971 : Int) = A at *
    generalize (2 : ℚ) ^ e = B at *
    generalize (m : ℚ) * B = C at *
    constructor <;> intro _ <;> linarith

/-- A positive number is rounded to the closest value, which is unique. -/
private theorem roundPos_spec {q : ℚ} (hq : 0 < q) :
    (2 ^ 1024 - 2 ^ 970 ≤ q ∧ roundPos q = .inf false) ∨ (q < 2 ^ 1024 - 2 ^ 970 ∧ ∃ v, roundPos q = .fin v ∧ Nearest q v ∧ ∀ w, Nearest q w → w = v) := by
  obtain ⟨e, m, h3, h1, h2, hm, h0, h5, h6, hr⟩ := parts hq
  have ho := overflow hq h1 h2 hm h5 h6
  by_cases hb : (2 : ℚ) ^ 1024 ≤ m * 2 ^ e
  · left
    rw [if_pos hb] at hr
    exact ⟨ho.1 hb, hr⟩
  right
  rw [if_neg hb] at hr
  refine ⟨not_le.1 fun h => hb (ho.2 h), _, hr, ?_⟩
  have hp := two_zpow_pos e
  obtain ⟨m', e', r1, r2, r3, r4, r5, r6⟩ := represent h0 h5 h6 h3 (not_le.1 hb)
  have dist : ∀ k : Int, |(k : ℚ) * 2 ^ e - q| = |(k : ℚ) - q / 2 ^ e| * 2 ^ e := by
    intro k
    rw [← abs_of_pos hp, ← abs_mul, abs_of_pos hp, sub_mul, div_mul_cancel₀ q hp.ne']
  have key : ∀ w, DoubleValue w → w ≠ (m : ℚ) * 2 ^ e → |(m : ℚ) * 2 ^ e - q| < |w - q| ∨ (|(m : ℚ) * 2 ^ e - q| = |w - q| ∧ m % 2 = 0 ∧ ¬ EvenDouble w) := by
    intro w hw hne
    by_cases hc : 2 ^ 52 * 2 ^ e ≤ w ∨ e = -1074
    · obtain ⟨k, rfl⟩ := multiple hw hc
      have hkm : k ≠ roundHalfEven (q / 2 ^ e) := fun h => hne (by rw [h, hm])
      rw [dist m, dist k]
      rcases roundHalfEven_nearest (q / 2 ^ e) hkm with h | ⟨h, h', h''⟩
      · left
        rw [hm]
        exact mul_lt_mul_of_pos_right h hp
      · right
        rw [← hm] at h h' h''
        refine ⟨by rw [h], h', fun hev => ?_⟩
        have := even_not_odd hev hc rfl
        omega
    · push Not at hc
      left
      have hq52 := h2.resolve_right hc.2
      have hle : |(m : ℚ) - q / 2 ^ e| ≤ |((2 ^ 52 : Int) : ℚ) - q / 2 ^ e| := by
        by_cases h : (2 ^ 52 : Int) = m
        · rw [h]
        · rw [hm] at h ⊢
          rcases roundHalfEven_nearest (q / 2 ^ e) h with h | h
          · exact h.le
          · exact h.1.le
      have h7 := mul_le_mul_of_nonneg_right hle hp.le
      rw [← dist, ← dist] at h7
      rw [show ((2 ^ 52 : Int) : ℚ) = 2 ^ 52 by norm_num] at h7
      rw [abs_of_nonpos (show (2 : ℚ) ^ 52 * 2 ^ e - q ≤ 0 by linarith)] at h7
      rw [abs_of_nonpos (show w - q ≤ 0 by linarith [hc.1])]
      linarith [hc.1]
  have hd : DoubleValue ((m : ℚ) * 2 ^ e) := ⟨m', e', r1, r3, r4, r5⟩
  refine ⟨⟨hd, fun w hw hne => ?_⟩, fun w hw => ?_⟩
  · rcases key w hw hne with h | ⟨h, h', -⟩
    · exact .inl h
    · exact .inr ⟨h, m', e', r6 h', r1, r2, r3, r4, r5⟩
  · by_contra hne
    rcases key w hw.1 hne with h | ⟨h, -, h'⟩ <;> rcases hw.2 _ hd (fun h => hne h.symm) with g | ⟨g, g'⟩
    · linarith
    · linarith
    · linarith
    · exact h' g'

private theorem isDouble_neg {v : ℚ} (h : DoubleValue v) : DoubleValue (-v) := by
  obtain ⟨m, e, h1, h2, h3, rfl⟩ := h
  exact ⟨-m, e, by rwa [abs_neg], h2, h3, by push_cast; ring⟩

private theorem even_neg {v : ℚ} (h : EvenDouble v) : EvenDouble (-v) := by
  obtain ⟨m, e, h0, h1, h2, h3, h4, rfl⟩ := h
  exact ⟨-m, e, by omega, by rwa [abs_neg], by rwa [abs_neg], h3, h4, by push_cast; ring⟩

private theorem nearest_neg {q v : ℚ} (h : Nearest q v) : Nearest (-q) (-v) := by
  refine ⟨isDouble_neg h.1, fun w hw hne => ?_⟩
  have e1 : |-v - -q| = |v - q| := by rw [← abs_neg]; ring_nf
  have e2 : |w - -q| = |-w - q| := by rw [← abs_neg]; ring_nf
  rw [e1, e2]
  rcases h.2 (-w) (isDouble_neg hw) (fun hh => hne (by rw [← hh, neg_neg])) with h | ⟨h, h'⟩
  · exact .inl h
  · exact .inr ⟨h, even_neg h'⟩

private theorem nearest_zero {v : ℚ} : Nearest 0 v ↔ v = 0 := by
  have h0 : DoubleValue 0 := ⟨0, 0, by norm_num, by norm_num, by norm_num, by norm_num⟩
  constructor
  · intro h
    by_contra hne
    have hv : 0 < |v| := abs_pos.2 hne
    rcases h.2 0 h0 (fun hh => hne hh.symm) with g | ⟨g, -⟩ <;> simp at g
    · linarith
    · exact hne g
  · rintro rfl
    refine ⟨h0, fun w _ hne => .inl ?_⟩
    simpa using hne

private theorem limit_pos : (0 : ℚ) < 2 ^ 1024 - 2 ^ 970 := by
  have : (2 : ℚ) ^ 970 < 2 ^ 1024 := pow_lt_pow_right₀ (by norm_num) (by norm_num)
  exact sub_pos.2 this

/-- `round` is rounding as IEEE 754 has it. -/
theorem round_iff {q : ℚ} {x : F64} : round q = x ↔ RoundsTo q x := by
  rcases lt_trichotomy q 0 with hq | hq | hq
  · have hneg : 0 < -q := by linarith
    have hrd : round q = match roundPos (-q) with | .fin v => .fin (-v) | _ => .inf true := by
      unfold round; rw [if_neg hq.ne, if_neg (by linarith)]; cases roundPos (-q) <;> rfl
    rw [hrd]
    rcases roundPos_spec hneg with ⟨h, hr⟩ | ⟨h, v, hr, hn, hu⟩
    · rw [hr]
      constructor
      · rintro rfl
        exact ⟨by rw [abs_of_neg hq]; exact h, by simp [hq]⟩
      · cases x with
        | nan => exact False.elim
        | inf b => rintro ⟨-, hb⟩; rw [hb.2 hq]
        | fin v => rintro ⟨hb, -⟩; rw [abs_of_neg hq] at hb; exact absurd h (not_le.2 hb)
    · rw [hr]
      constructor
      · rintro rfl
        refine ⟨by rw [abs_of_neg hq]; exact h, ?_⟩
        simpa using nearest_neg hn
      · cases x with
        | nan => exact False.elim
        | inf b => rintro ⟨hb, -⟩; rw [abs_of_neg hq] at hb; exact absurd h (not_lt.2 hb)
        | fin w =>
          rintro ⟨-, hw⟩
          have := hu _ (nearest_neg hw)
          simp only [← this, neg_neg]
  · subst hq
    have hrd : round 0 = .fin 0 := by simp [round]
    rw [hrd]
    have hl := limit_pos
    constructor
    · rintro rfl
      exact ⟨by simpa using hl, nearest_zero.2 rfl⟩
    · cases x with
      | nan => exact False.elim
      | inf b => rintro ⟨hb, -⟩; rw [abs_zero] at hb; exact absurd hl (not_lt.2 hb)
      | fin w => rintro ⟨-, hw⟩; rw [nearest_zero.1 hw]
  · have hrd : round q = roundPos q := by unfold round; rw [if_neg hq.ne', if_pos hq]
    rw [hrd]
    rcases roundPos_spec hq with ⟨h, hr⟩ | ⟨h, v, hr, hn, hu⟩
    · rw [hr]
      constructor
      · rintro rfl
        refine ⟨by rw [abs_of_pos hq]; exact h, ?_⟩
        constructor
        · intro hf; cases hf
        · intro hf; exact absurd hf (not_lt.2 hq.le)
      · cases x with
        | nan => exact False.elim
        | inf b =>
          rintro ⟨-, hb⟩
          cases b with
          | false => rfl
          | true => exact absurd (hb.1 rfl) (not_lt.2 hq.le)
        | fin v => rintro ⟨hb, -⟩; rw [abs_of_pos hq] at hb; exact absurd h (not_le.2 hb)
    · rw [hr]
      constructor
      · rintro rfl
        exact ⟨by rw [abs_of_pos hq]; exact h, hn⟩
      · cases x with
        | nan => exact False.elim
        | inf b => rintro ⟨hb, -⟩; rw [abs_of_pos hq] at hb; exact absurd h (not_lt.2 hb)
        | fin w => rintro ⟨-, hw⟩; rw [hu _ hw]

/-- The values that rounding leaves alone are the values a `float64` can have. -/
theorem round_self_iff {q : ℚ} : round q = .fin q ↔ DoubleValue q := by
  rw [round_iff]
  refine ⟨fun h => h.2.1, fun h => ⟨?_, h, fun w _ hne => .inl ?_⟩⟩
  · obtain ⟨m, e, h1, -, h3, rfl⟩ := h
    have hp := two_zpow_pos e
    rw [abs_mul, abs_of_pos hp]
    have e1024 : (2 : ℚ) ^ 1024 = 2 ^ 53 * 2 ^ (971 : Int) := by rw [big_eq, ← z53]; norm_num
    have e970 : (2 : ℚ) ^ 970 = 1 / 2 * 2 ^ (971 : Int) := by
      rw [half_eq, show (971 : Int) = 970 + 1 by norm_num, z1]; ring
    have hm : |(m : ℚ)| ≤ 2 ^ 53 - 1 := by
      have : |m| ≤ 2 ^ 53 - 1 := by omega
      exact_mod_cast this
    have l : (2 : ℚ) ^ e ≤ 2 ^ (971 : Int) := zpow_le_zpow_right₀ (by norm_num) h3
    have hpos := two_zpow_pos (971 : Int)
    rw [e1024, e970]
    clear e1024 e970
    have h5 := mul_le_mul hm l hp.le (by norm_num)
    generalize (2 : ℚ) ^ (971 : Int) = A at *
    linarith
  · rw [sub_self, abs_zero]
    exact abs_pos.2 (sub_ne_zero.2 hne)

/-- A tie: `2^53 + 1` lies between `2^53` and `2^53 + 2` and becomes the even one, `2^53`. -/
example : RoundsTo (2 ^ 53 + 1) (.fin (2 ^ 53)) := round_iff.1 (by decide +kernel)

/-- Above the limit there is only infinity. -/
example : RoundsTo (-(2 ^ 1024)) (.inf true) := by
  refine ⟨?_, by norm_num⟩
  rw [abs_neg, abs_of_pos (pow_pos (by norm_num) _)]
  exact sub_le_self _ (pow_pos (by norm_num) _).le

end Verif.Go.F64
