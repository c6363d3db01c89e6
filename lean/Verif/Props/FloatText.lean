import Verif.Spec.FloatText
import Verif.Props.Ndt5Wire
import Verif.Go.FloatSpec
import Mathlib.Algebra.Order.Archimedean.Basic
import Mathlib.Algebra.Order.Floor.Ring
import Mathlib.Data.Rat.Floor
import Mathlib.Tactic.Linarith

/-!
# C111: rates are written so that they read back
-/

namespace Verif.Props
open Verif.Go Verif.Spec

/-! ## Digits -/

private theorem fold_app (ds : Bytes) (n : Nat) : ds.foldl (fun n c => 10 * n + (c.toNat - 48)) n = n * 10 ^ ds.length + numeralsVal ds := by
  unfold numeralsVal
  induction ds generalizing n with
  | nil => simp
  | cons c ds ih =>
    simp only [List.foldl_cons, List.length_cons]
    rw [ih, ih (10 * 0 + (c.toNat - 48)), pow_succ]
    ring

private theorem val_app (a b : Bytes) : numeralsVal (a ++ b) = numeralsVal a * 10 ^ b.length + numeralsVal b := by
  conv_lhs => unfold numeralsVal
  rw [List.foldl_append, fold_app]
  rfl

private theorem val_zeros (k : Nat) : numeralsVal (List.replicate k 48) = 0 := by
  induction k with
  | zero => rfl
  | succ k ih =>
    rw [List.replicate_succ, ← List.singleton_append, val_app, ih]
    simp [numeralsVal]

private theorem numeral_iff {c : UInt8} : isNumeral c = true ↔ 48 ≤ c ∧ c ≤ 57 := by simp [isNumeral]

private theorem val_natDec (n : Nat) : numeralsVal (natDec n) = n := by
  have key : ∀ (ds : Bytes) (a m : Nat), ds.foldlM digitStep a = some m → ds.foldl (fun n c => 10 * n + (c.toNat - 48)) a = m := by
    intro ds
    induction ds with
    | nil => intro a m h; simpa using h
    | cons c ds ih =>
      intro a m h
      rw [List.foldlM_cons] at h
      by_cases hc : 48 ≤ c ∧ c ≤ 57
      · simp only [digitStep, if_pos hc, Option.bind_eq_bind, Option.bind_some] at h
        rw [List.foldl_cons, Nat.mul_comm]
        exact ih _ _ h
      · simp [digitStep, hc] at h
  exact key _ _ _ (foldlM_natDigitsF (by omega))

private theorem natDec_digits (n : Nat) : IsDigits (natDec n) := ⟨natDec_ne_nil n, fun c hc => natDec_isDigit c hc⟩

private theorem natDec_head_pos {n : Nat} (hn : 0 < n) : (natDec n).head? ≠ some 48 := by
  have key : ∀ fuel n, 0 < n → n < fuel → (natDigitsF fuel n).head? ≠ some 48 := by
    intro fuel
    induction fuel with
    | zero => intro n _ h; omega
    | succ f ih =>
      intro n h0 h1
      unfold natDigitsF
      split
      · rename_i hlt
        simp only [List.head?_cons, ne_eq, Option.some.injEq]
        intro h
        have := congrArg UInt8.toNat h
        rw [digit_toNat hlt] at this
        simp at this
        omega
      · have := ih (n / 10) (by omega) (by omega)
        rw [List.head?_append]
        cases hh : (natDigitsF f (n / 10)).head? with
        | none => exact absurd (List.head?_eq_none_iff.1 hh) (natDigitsF_ne_nil (by omega))
        | some c => rw [hh] at this; simpa using this
  exact key _ _ hn (by omega)

private theorem digits_app {a b : Bytes} (ha : ∀ c ∈ a, 48 ≤ c ∧ c ≤ 57) (hb : IsDigits b) : IsDigits (a ++ b) :=
  ⟨by simp [hb.1], fun c hc => (List.mem_append.1 hc).elim (ha c) (hb.2 c)⟩

private theorem zeros_digits (k : Nat) : ∀ c ∈ List.replicate k (48 : UInt8), 48 ≤ c ∧ c ≤ 57 := by
  intro c hc
  rw [List.eq_of_mem_replicate hc]
  decide

private theorem take_numerals {a x : Bytes} (ha : ∀ c ∈ a, 48 ≤ c ∧ c ≤ 57) (hx : ∀ c, x.head? = some c → isNumeral c = false) :
    (a ++ x).takeWhile isNumeral = a ∧ (a ++ x).dropWhile isNumeral = x := by
  induction a with
  | nil =>
    cases x with
    | nil => exact ⟨rfl, rfl⟩
    | cons c x => simp [List.takeWhile, List.dropWhile, hx c rfl]
  | cons c a ih =>
    have hc := numeral_iff.2 (ha c (by simp))
    have := ih fun d hd => ha d (by simp [hd])
    simp [List.takeWhile, List.dropWhile, hc, this]

/-! ## Reading what was written -/

/-- A text that is the digits of a number with the point somewhere, or with an exponent. -/
private def Says (s : Bytes) (v : Rat) : Prop := IsNumber s ∧ IsNumber (45 :: s) ∧ s.head? ≠ some 45 ∧ magnitudeOf s = v

private theorem says_of {int frac exp : Bytes} (hi : int = [48] ∨ IsDigits int ∧ int.head? ≠ some 48) (hf : frac = [] ∨ ∃ ds, frac = 46 :: ds ∧ IsDigits ds)
    (he : exp = [] ∨ ∃ sg ds, exp = 101 :: (sg :: ds) ∧ (sg = 43 ∨ sg = 45) ∧ IsDigits ds) :
    Says (int ++ (frac ++ exp)) ((numeralsVal (int ++ frac.drop 1) : Rat) * 10 ^ (exponentOf exp - (frac.drop 1).length)) := by
  have hid : IsDigits int := by
    rcases hi with rfl | h
    · exact ⟨by simp, by simp⟩
    · exact h.1
  have he' : exp = [] ∨ ∃ e sg ds, exp = e :: (sg ++ ds) ∧ (e = 101 ∨ e = 69) ∧ (sg = [] ∨ sg = [43] ∨ sg = [45]) ∧ IsDigits ds := by
    rcases he with rfl | ⟨sg, ds, rfl, hs, hd⟩
    · exact .inl rfl
    · refine .inr ⟨101, [sg], ds, rfl, .inl rfl, ?_, hd⟩
      rcases hs with rfl | rfl <;> simp
  have hexp : ∀ c, exp.head? = some c → isNumeral c = false ∧ c ≠ 46 := by
    rcases he with rfl | ⟨sg, ds, rfl, -, -⟩
    · simp
    · intro c hc
      simp only [List.head?_cons, Option.some.injEq] at hc
      subst hc
      decide
  refine ⟨⟨[], int, frac, exp, by simp, .inl rfl, hi, hf, he'⟩, ⟨[45], int, frac, exp, by simp, .inr rfl, hi, hf, he'⟩, ?_, ?_⟩
  · obtain ⟨c, t, hct⟩ := List.exists_cons_of_ne_nil hid.1
    have hc := hid.2 c (by rw [hct]; simp)
    rw [hct]
    simp only [List.cons_append, List.head?_cons, ne_eq, Option.some.injEq]
    rintro rfl
    revert hc
    decide
  · rcases hf with rfl | ⟨ds, rfl, hds⟩
    · have h := take_numerals (x := exp) hid.2 fun c hc => (hexp c hc).1
      simp only [magnitudeOf, List.nil_append, h.1, h.2, List.drop_nil, List.append_nil, List.length_nil]
      cases hx : exp with
      | nil => simp
      | cons c t =>
        have := (hexp c (by rw [hx]; rfl)).2
        split
        · rename_i heq; cases heq; exact absurd rfl this
        · simp
    · have h := take_numerals (x := 46 :: ds ++ exp) hid.2 (by simp [isNumeral])
      have h2 := take_numerals (x := exp) hds.2 fun c hc => (hexp c hc).1
      simp only [List.cons_append] at h
      simp only [magnitudeOf, List.cons_append, h.1, h.2, h2.1, h2.2, List.drop_succ_cons, List.drop_zero]

private theorem says_formatF {d : Bytes × Int} (hd : IsDigits d.1) (h0 : d.1.head? ≠ some 48) : Says (formatF d.1 d.2) (digitsValue d) := by
  obtain ⟨ds, dp⟩ := d
  simp only [formatF, digitsValue] at *
  split
  · rename_i hp
    split
    · rename_i hl
      have := says_of (int := ds ++ List.replicate (dp.toNat - ds.length) 48) (frac := []) (exp := [])
        (.inr ⟨⟨by simp [hd.1], fun c hc => (List.mem_append.1 hc).elim (hd.2 c) (zeros_digits _ c)⟩, by
          obtain ⟨c, t, rfl⟩ := List.exists_cons_of_ne_nil hd.1
          simpa using h0⟩) (.inl rfl) (.inl rfl)
      simp only [List.append_nil, List.drop_nil, exponentOf, List.length_nil] at this
      convert this using 1
      rw [val_app, val_zeros, List.length_replicate]
      push_cast
      rw [← zpow_natCast]
      have e1 : dp - (ds.length : Int) = ((dp.toNat - ds.length : Nat) : Int) := by omega
      rw [e1]
      simp
    · rename_i hl
      have hk : 0 < dp.toNat := by omega
      have := says_of (int := ds.take dp.toNat) (frac := 46 :: ds.drop dp.toNat) (exp := [])
        (.inr ⟨⟨by
          obtain ⟨c, t, rfl⟩ := List.exists_cons_of_ne_nil hd.1
          obtain ⟨k, hk'⟩ : ∃ k, dp.toNat = k + 1 := ⟨dp.toNat - 1, by omega⟩
          rw [hk']; simp, fun c hc => hd.2 c (List.mem_of_mem_take hc)⟩, by
          obtain ⟨c, t, rfl⟩ := List.exists_cons_of_ne_nil hd.1
          obtain ⟨k, hk'⟩ : ∃ k, dp.toNat = k + 1 := ⟨dp.toNat - 1, by omega⟩
          rw [hk']; simpa using h0⟩) (.inr ⟨_, rfl, by
          intro h
          have := congrArg List.length h
          rw [List.length_drop, List.length_nil] at this
          omega, fun c hc => hd.2 c (List.mem_of_mem_drop hc)⟩) (.inl rfl)
      simp only [List.append_nil, List.drop_succ_cons, List.drop_zero, exponentOf, List.take_append_drop] at this
      convert this using 3
      rw [List.length_drop]
      omega
  · rename_i hp
    have hfd : IsDigits (List.replicate (-dp).toNat 48 ++ ds) := digits_app (zeros_digits _) hd
    have := says_of (int := [48]) (frac := 46 :: (List.replicate (-dp).toNat 48 ++ ds)) (exp := []) (.inl rfl) (.inr ⟨_, rfl, hfd⟩) (.inl rfl)
    simp only [List.append_nil, List.drop_succ_cons, List.drop_zero, exponentOf] at this
    have e1 : numeralsVal ([48] ++ (List.replicate (-dp).toNat 48 ++ ds)) = numeralsVal ds := by
      rw [val_app, val_app, val_zeros]
      simp [numeralsVal]
    have e2 : (0 : Int) - ((List.replicate (-dp).toNat (48 : UInt8) ++ ds).length : Nat) = dp - ds.length := by
      rw [List.length_append, List.length_replicate]
      push_cast
      omega
    rw [e1, e2] at this
    exact this

private theorem says_formatE {d : Bytes × Int} (hd : IsDigits d.1) (h0 : d.1.head? ≠ some 48) : Says (formatE d.1 d.2) (digitsValue d) := by
  obtain ⟨ds, dp⟩ := d
  simp only [formatE, digitsValue] at *
  obtain ⟨c, t, rfl⟩ := List.exists_cons_of_ne_nil hd.1
  have hc := hd.2 c (by simp)
  have ht : ∀ x ∈ t, 48 ≤ x ∧ x ≤ 57 := fun x hx => hd.2 x (by simp [hx])
  have hexp : exponentOf (101 :: ((if dp - 1 < 0 then 45 else 43) :: natDec (dp - 1).natAbs)) = dp - 1 := by
    split
    · simp only [exponentOf, val_natDec]; omega
    · simp only [exponentOf, val_natDec]; omega
  have hsg : ((if dp - 1 < 0 then 45 else 43 : UInt8) = 43 ∨ (if dp - 1 < 0 then 45 else 43 : UInt8) = 45) := by split <;> simp
  have := says_of (int := [c]) (frac := if 1 < (c :: t).length then 46 :: t else []) (exp := 101 :: ((if dp - 1 < 0 then 45 else 43) :: natDec (dp - 1).natAbs))
    (.inr ⟨⟨by simp, by simpa using hc⟩, by simpa using h0⟩) (by
      cases t with
      | nil => exact .inl rfl
      | cons x t => exact .inr ⟨x :: t, by simp, by simp, ht⟩) (.inr ⟨_, _, rfl, hsg, natDec_digits _⟩)
  rw [hexp] at this
  have hdrop : (if 1 < (c :: t).length then 46 :: t else []).drop 1 = t := by
    cases t <;> simp
  rw [hdrop] at this
  simp only [List.take_succ_cons, List.take_zero, List.drop_succ_cons, List.drop_zero]
  have e2 : dp - 1 - (t.length : Int) = dp - ((c :: t).length : Nat) := by
    simp only [List.length_cons]
    push_cast
    ring
  rw [e2] at this
  exact this

private theorem decimal_pos {s : Bytes} (h : s.head? ≠ some 45) : decimalOf s = magnitudeOf s := by
  unfold decimalOf
  split
  · exact absurd rfl h
  · rfl

private theorem round_neg {q v : Rat} (h : 0 < v) (hr : F64.round v = .fin q) : F64.round (-v) = .fin (-q) := by
  have h1 : ¬ (0 : Rat) < -v := by simpa using h.le
  unfold F64.round at hr ⊢
  rw [if_neg h.ne', if_pos h] at hr
  rw [if_neg (by simpa using h.ne'), if_neg h1, neg_neg, hr]

private theorem value_pos {d : Bytes × Int} {q : Rat} (hq : 0 < q) (h : F64.round (digitsValue d) = .fin q) : 0 < digitsValue d := by
  have h0 : (0 : Rat) ≤ digitsValue d := by
    unfold digitsValue
    exact mul_nonneg (Nat.cast_nonneg _) (zpow_nonneg (by norm_num) _)
  rcases h0.lt_or_eq with h1 | h1
  · exact h1
  · rw [← h1] at h
    simp only [F64.round, if_pos] at h
    cases h
    exact absurd hq (lt_irrefl _)

/-- C111: if the library finds digits that stand for the number (the shortest ones do), every finite `float64` is written as a JSON number that reads back as itself. This is the assumption of the theorems about ndt5 records. -/
theorem C111_reads_back {digits : Rat → Bytes × Int} (h : ShortestDigits digits) : FloatsOk (goFloats digits) := by
  intro q hq
  simp only [goFloats, writeFloat]
  by_cases h0 : q = 0
  · subst h0
    rw [if_pos rfl]
    refine ⟨⟨[], [48], [], [], rfl, .inl rfl, .inl rfl, .inl rfl, .inl rfl⟩, ?_⟩
    have : decimalOf [48] = 0 := by decide +kernel
    simp [readFloat, this, F64.round]
  · rw [if_neg h0]
    have main : ∀ a : Rat, 0 < a → F64.round a = .fin a →
        Says (if a < 1 / 10 ^ 6 ∨ 10 ^ 21 ≤ a then formatE (digits a).1 (digits a).2 else formatF (digits a).1 (digits a).2) (digitsValue (digits a)) ∧ F64.round (digitsValue (digits a)) = .fin a := by
      intro a ha hra
      obtain ⟨⟨h1, h2, h3⟩, -⟩ := h a ha (F64.round_self_iff.1 hra)
      refine ⟨?_, h3⟩
      split
      · exact says_formatE h1 h2
      · exact says_formatF h1 h2
    by_cases hn : q < 0
    · simp only [if_pos hn]
      have ha : 0 < -q := by simpa using hn
      have hra : F64.round (-q) = .fin (-q) := by
        rw [F64.round_self_iff] at hq ⊢
        obtain ⟨m, e, h1, h2, h3, rfl⟩ := hq
        exact ⟨-m, e, by rwa [abs_neg], h2, h3, by push_cast; ring⟩
      obtain ⟨⟨s1, s2, s3, s4⟩, hr⟩ := main (-q) ha hra
      generalize (if -q < 1 / 10 ^ 6 ∨ 10 ^ 21 ≤ -q then formatE (digits (-q)).1 (digits (-q)).2 else formatF (digits (-q)).1 (digits (-q)).2) = s at *
      refine ⟨s2, ?_⟩
      have hd : decimalOf ([45] ++ s) = - digitsValue (digits (-q)) := by rw [← s4]; rfl
      rw [readFloat, hd, round_neg (value_pos ha hr) hr, neg_neg]
    · simp only [if_neg hn]
      have ha : 0 < q := lt_of_le_of_ne (not_lt.1 hn) (Ne.symm h0)
      obtain ⟨⟨s1, s2, s3, s4⟩, hr⟩ := main q ha hq
      generalize (if q < 1 / 10 ^ 6 ∨ 10 ^ 21 ≤ q then formatE (digits q).1 (digits q).2 else formatF (digits q).1 (digits q).2) = s at *
      refine ⟨s1, ?_⟩
      rw [readFloat, List.nil_append, decimal_pos s3, s4, hr]

/-- C111: so every ndt5 record whose rates are numbers reads back, in all digits of its rates (C84 without an assumption on texts of numbers). -/
theorem C111_record_reads_back {K : Ndt7.Layout} {z : Int} {r : Ndt5.Record} {digits : Rat → Bytes × Int} (h : ShortestDigits digits) (hK : LayoutOk K) (ht : RecordTyped K z r) (hf : FiniteRates r) :
    ∃ text, Ndt5.encodeRecord (goFloats digits) K z r = some text ∧ Go.unmarshal (goFloats digits) (Ndt5.recordTy K) text = some ((seenRecord r).toVal K z) :=
  C84_record_reads_back hK (C111_reads_back h) ht hf

/-- Every positive `float64` has digits that stand for it: it is a finite decimal. -/
private theorem stands_exists {q : Rat} (hq : 0 < q) (hd : DoubleValue q) : ∃ d, Stands q d := by
  have hr : F64.round q = .fin q := F64.round_self_iff.2 hd
  obtain ⟨m, e, -, -, -, hv⟩ := hd
  have hm : 0 < m := by
    by_contra hm
    have : (m : Rat) ≤ 0 := by exact_mod_cast not_lt.1 hm
    have h2 : (0 : Rat) < 2 ^ e := zpow_pos (by norm_num) e
    have := mul_nonpos_of_nonpos_of_nonneg this h2.le
    rw [← hv] at this
    exact absurd hq (not_lt.2 this)
  obtain ⟨n, k, hn, hnk⟩ : ∃ n k : Nat, 0 < n ∧ q = (n : Rat) * 10 ^ (-(k : Int)) := by
    obtain ⟨mn, rfl⟩ : ∃ mn : Nat, m = mn := ⟨m.toNat, by omega⟩
    have hmn : 0 < mn := by omega
    by_cases he : 0 ≤ e
    · obtain ⟨en, rfl⟩ : ∃ en : Nat, e = en := ⟨e.toNat, by omega⟩
      refine ⟨mn * 2 ^ en, 0, by positivity, ?_⟩
      rw [hv]; push_cast; rw [zpow_natCast]; simp
    · obtain ⟨en, rfl⟩ : ∃ en : Nat, e = -(en : Int) := ⟨(-e).toNat, by omega⟩
      refine ⟨mn * 5 ^ en, en, by positivity, ?_⟩
      rw [hv]
      push_cast
      rw [zpow_neg, zpow_neg, zpow_natCast, zpow_natCast, show (10 : Rat) = 5 * 2 by norm_num, mul_pow]
      have h5 : (5 : Rat) ^ en ≠ 0 := by positivity
      have h2 : (2 : Rat) ^ en ≠ 0 := by positivity
      field_simp
  refine ⟨(natDec n, ((natDec n).length : Int) - k), natDec_digits n, natDec_head_pos hn, ?_⟩
  have : digitsValue (natDec n, ((natDec n).length : Int) - k) = q := by
    simp only [digitsValue, val_natDec]
    rw [hnk]
    congr 2
    omega
  rw [this, hr]

/-- There are such digits: what `C111_reads_back` assumes of the library can be had. -/
theorem C111_digits_exist : ∃ digits, ShortestDigits digits := by
  classical
  have key : ∀ q, 0 < q → DoubleValue q → ∃ d, Shortest q d := by
    intro q hq hd
    have hex : ∃ n, ∃ d, Stands q d ∧ d.1.length = n := by
      obtain ⟨d, hd⟩ := stands_exists hq hd
      exact ⟨_, d, hd, rfl⟩
    obtain ⟨d, h1, h2⟩ := Nat.find_spec hex
    exact ⟨d, h1, fun d' h' => h2 ▸ Nat.find_min' hex ⟨d', h', rfl⟩⟩
  exact ⟨fun q => if h : 0 < q ∧ DoubleValue q then (key q h.1 h.2).choose else ([], 0), fun q hq hd => by
    simp only [dif_pos (And.intro hq hd)]
    exact (key q hq hd).choose_spec⟩

/-- Two numbers that a `float64` can have are at least one part in `2^53` apart. -/
private theorem double_gap {q w : Rat} (hq : DoubleValue q) (hw : DoubleValue w) (h0 : 0 < q) (hne : w ≠ q) : q ≤ 2 ^ 53 * |w - q| := by
  obtain ⟨m, e, hm, -, -, hqe⟩ := hq
  obtain ⟨n, f, hn, -, -, hwe⟩ := hw
  have he : (0 : Rat) < 2 ^ e := zpow_pos (by norm_num) e
  have hf : (0 : Rat) < 2 ^ f := zpow_pos (by norm_num) f
  have hmq : (m : Rat) < 2 ^ 53 := by exact_mod_cast (abs_lt.1 hm).2
  have hnq : (n : Rat) + 1 ≤ 2 ^ 53 := by exact_mod_cast (abs_lt.1 hn).2
  by_cases hef : e ≤ f
  · have hp : (2 : Rat) ^ f = ((2 ^ (f - e).toNat : Int) : Rat) * 2 ^ e := by
      push_cast
      rw [← zpow_natCast, ← zpow_add₀ (by norm_num), Int.toNat_of_nonneg (by omega)]
      congr 1; omega
    have hd : w - q = ((n * 2 ^ (f - e).toNat - m : Int) : Rat) * 2 ^ e := by rw [hwe, hqe, hp]; push_cast; ring
    have hk : n * 2 ^ (f - e).toNat - m ≠ 0 := by
      intro h
      rw [h] at hd
      simp only [Int.cast_zero, zero_mul] at hd
      exact hne (sub_eq_zero.1 hd)
    have h1 : (1 : Rat) ≤ |((n * 2 ^ (f - e).toNat - m : Int) : Rat)| := by
      rw [← Int.cast_abs]
      exact_mod_cast Int.one_le_abs hk
    rw [hd, abs_mul, abs_of_pos he, hqe]
    nlinarith
  · have hp : (2 : Rat) ^ e = ((2 ^ (e - f).toNat : Int) : Rat) * 2 ^ f := by
      push_cast
      rw [← zpow_natCast, ← zpow_add₀ (by norm_num), Int.toNat_of_nonneg (by omega)]
      congr 1; omega
    generalize hM : m * 2 ^ (e - f).toNat = M
    have hqM : q = (M : Rat) * 2 ^ f := by rw [hqe, hp, ← hM]; push_cast; ring
    have hd : w - q = ((n - M : Int) : Rat) * 2 ^ f := by rw [hwe, hqM]; push_cast; ring
    have hk : n - M ≠ 0 := by
      intro h
      rw [h] at hd
      simp only [Int.cast_zero, zero_mul] at hd
      exact hne (sub_eq_zero.1 hd)
    have key : (M : Rat) ≤ 2 ^ 53 * |((n - M : Int) : Rat)| := by
      have h1 : (1 : Rat) ≤ |((n - M : Int) : Rat)| := by
        rw [← Int.cast_abs]
        exact_mod_cast Int.one_le_abs hk
      have h2 : (M : Rat) - n ≤ |((n - M : Int) : Rat)| := by
        push_cast
        rw [abs_sub_comm]
        exact le_abs_self _
      by_cases hb : (M : Rat) ≤ 2 ^ 53
      · nlinarith
      · nlinarith
    rw [hd, abs_mul, abs_of_pos hf, hqM]
    nlinarith

private theorem natDec_length {n k : Nat} (hk : 0 < k) (h : n < 10 ^ k) : (natDec n).length ≤ k := by
  have key : ∀ fuel n k, 0 < k → n < 10 ^ k → (natDigitsF fuel n).length ≤ k := by
    intro fuel
    induction fuel with
    | zero => intro n k _ _; simp [natDigitsF]
    | succ f ih =>
      intro n k hk h
      unfold natDigitsF
      split
      · simp only [List.length_singleton]; omega
      · rename_i hge
        obtain ⟨j, rfl⟩ : ∃ j, k = j + 1 := ⟨k - 1, by omega⟩
        have hj : 0 < j := by
          rcases Nat.eq_zero_or_pos j with rfl | hj
          · simp at h; omega
          · exact hj
        have := ih (n / 10) j hj (by rw [pow_succ] at h; omega)
        simp only [List.length_append, List.length_singleton]
        omega
  exact key _ _ _ hk h

/-- A decimal that is closer to a `float64` than a part in `2^54` is rounded to it. -/
private theorem round_close {q x : Rat} (h0 : 0 < q) (hd : DoubleValue q) (h : 2 ^ 54 * |x - q| < q) : F64.round x = .fin q := by
  rw [F64.round_iff]
  refine ⟨?_, hd, fun w hw hne => .inl ?_⟩
  · obtain ⟨m, e, hm, -, he, hq⟩ := hd
    have hmq : (m : Rat) + 1 ≤ 2 ^ 53 := by exact_mod_cast (abs_lt.1 hm).2
    have hle : (2 : Rat) ^ e ≤ 2 ^ (971 : Int) := zpow_le_zpow_right₀ (by norm_num) he
    have hpe : (0 : Rat) < 2 ^ e := zpow_pos (by norm_num) e
    have e1 : (2 : Rat) ^ 1024 = 2 ^ 53 * 2 ^ (971 : Int) := by rw [← zpow_natCast, ← zpow_natCast, ← zpow_add₀ (by norm_num)]; norm_num
    have e2 : (2 : Rat) ^ 970 = 1 / 2 * 2 ^ (971 : Int) := by
      rw [← zpow_natCast, show ((970 : Nat) : Int) = 971 + (-1) by norm_num, zpow_add₀ (by norm_num)]; norm_num; ring
    rw [e1, e2]
    have hm0 : (0 : Rat) < m := by
      by_contra hm0
      have := mul_nonpos_of_nonpos_of_nonneg (not_lt.1 hm0) hpe.le
      rw [← hq] at this
      exact absurd h0 (not_lt.2 this)
    generalize (2 : Rat) ^ (971 : Int) = B at *
    have hqB : q ≤ (2 ^ 53 - 1) * B := by
      rw [hq]
      nlinarith
    have hx : |x| ≤ |x - q| + q := by
      have := abs_add_le (x - q) q
      rw [sub_add_cancel, abs_of_pos h0] at this
      exact this
    generalize |x - q| = a at *
    generalize |x| = y at *
    have hB : 0 < B := lt_of_lt_of_le hpe hle
    clear e1 e2
    linarith
  · have hg := double_gap hd hw h0 hne
    have h1 : |w - q| ≤ |w - x| + |x - q| := by
      have := abs_add_le (w - x) (x - q)
      rwa [sub_add_sub_cancel] at this
    rw [abs_sub_comm q x]
    generalize |w - q| = a at *
    generalize |w - x| = b at *
    generalize |x - q| = c at *
    linarith

/-- C111: no more than 17 digits are written. -/
theorem C111_at_most_17_digits {q : Rat} (h0 : 0 < q) (hd : DoubleValue q) {d : Bytes × Int} (h : Shortest q d) : d.1.length ≤ 17 := by
  suffices hs : ∃ d', Stands q d' ∧ d'.1.length ≤ 17 by
    obtain ⟨d', h1, h2⟩ := hs
    exact (h.2 d' h1).trans h2
  obtain ⟨k, hk1, hk2⟩ := exists_mem_Ico_zpow (y := (10 : Rat)) h0 (by norm_num)
  -- 10^k ≤ q < 10^(k+1); the unit of the 17th digit
  have hu : (0 : Rat) < 10 ^ (k - 16) := zpow_pos (by norm_num) _
  have e1 : (10 : Rat) ^ k = 10 ^ 16 * 10 ^ (k - 16) := by
    rw [← zpow_natCast, ← zpow_add₀ (by norm_num)]; congr 1; push_cast; ring
  have e2 : (10 : Rat) ^ (k + 1) = 10 ^ 17 * 10 ^ (k - 16) := by
    rw [← zpow_natCast, ← zpow_add₀ (by norm_num)]; congr 1; push_cast; ring
  rw [e1] at hk1
  rw [e2] at hk2
  generalize hU : (10 : Rat) ^ (k - 16) = u at *
  obtain ⟨n, hn⟩ : ∃ n : Int, n = ⌊q / u + 1 / 2⌋ := ⟨_, rfl⟩
  have hn1 : (n : Rat) ≤ q / u + 1 / 2 := by rw [hn]; exact Int.floor_le _
  have hn2 : q / u + 1 / 2 < n + 1 := by rw [hn]; exact Int.lt_floor_add_one _
  have hqu : q / u * u = q := div_mul_cancel₀ q hu.ne'
  have hlo : (10 : Rat) ^ 16 ≤ q / u := by rw [le_div_iff₀ hu]; exact hk1
  have hhi : q / u < 10 ^ 17 := by rw [div_lt_iff₀ hu]; exact hk2
  have hclose : 2 ^ 54 * |(n : Rat) * u - q| < q := by
    have : |(n : Rat) * u - q| ≤ 1 / 2 * u := by
      rw [abs_le]
      constructor <;> nlinarith
    nlinarith
  have hr := round_close h0 hd hclose
  have hnpos : 0 < n := by
    have : (0 : Rat) < n := by linarith
    exact_mod_cast this
  have hnle : n ≤ 10 ^ 17 := by
    have : (n : Rat) < 10 ^ 17 + 1 := by linarith
    have : n < 10 ^ 17 + 1 := by exact_mod_cast this
    omega
  obtain ⟨m, rfl⟩ : ∃ m : Nat, n = m := ⟨n.toNat, by omega⟩
  by_cases hlast : m = 10 ^ 17
  · refine ⟨(str "1", k + 2), ⟨⟨show str "1" ≠ [] by decide, show ∀ c ∈ str "1", 48 ≤ c ∧ c ≤ 57 by decide⟩,
      show (str "1").head? ≠ some 48 by decide, ?_⟩, show (str "1").length ≤ 17 by decide⟩
    have : digitsValue (str "1", k + 2) = ((m : Int) : Rat) * u := by
      rw [hlast, ← hU]
      have e3 : (10 : Rat) ^ (k + 1) = 10 ^ 17 * 10 ^ (k - 16) := by
        rw [← zpow_natCast, ← zpow_add₀ (by norm_num)]; congr 1; push_cast; ring
      have hc : (((10 ^ 17 : Nat) : Int) : Rat) = 10 ^ 17 := by norm_num
      have h1 : numeralsVal (str "1") = 1 := by decide
      rw [hc, ← e3]
      simp only [digitsValue]
      rw [h1, show (str "1").length = 1 by decide, Nat.cast_one, one_mul, Nat.cast_one]
      congr 1
      ring
    rw [this]
    exact hr
  · have hm17 : m < 10 ^ 17 := by
      have : m ≤ 10 ^ 17 := by exact_mod_cast hnle
      omega
    refine ⟨(natDec m, ((natDec m).length : Int) + (k - 16)), ⟨natDec_digits m, natDec_head_pos (by exact_mod_cast hnpos), ?_⟩, natDec_length (by norm_num) hm17⟩
    have : digitsValue (natDec m, ((natDec m).length : Int) + (k - 16)) = ((m : Int) : Rat) * u := by
      simp only [digitsValue, val_natDec]
      rw [← hU]
      push_cast
      congr 2
      ring
    rw [this]
    exact hr

/-- Texts of some numbers. -/
example : formatF (str "125") 2 = str "12.5" ∧ formatF (str "125") (-1) = str "0.0125" ∧ formatF (str "125") 5 = str "12500" ∧
    formatE (str "125") (-8) = str "1.25e-9" ∧ formatE (str "1") 22 = str "1e+21" := by decide +kernel

/-- A number that meets the hypotheses: 0.1 is no `float64`, but the digit 1 is enough for the closest one, and no text is shorter. -/
example : ∃ q : Rat, 0 < q ∧ DoubleValue q ∧ q ≠ 1 / 10 ∧ Shortest q (str "1", 0) := by
  have hr : F64.round (1 / 10) = .fin (3602879701896397 / 2 ^ 55) := by decide +kernel
  have hs : digitsValue (str "1", 0) = 1 / 10 := by decide +kernel
  refine ⟨3602879701896397 / 2 ^ 55, by norm_num, ⟨3602879701896397, -55, by norm_num, by norm_num, by norm_num, ?_⟩, by norm_num,
    ⟨⟨by decide, by decide⟩, by decide, by rw [hs]; exact hr⟩, fun d' h => ?_⟩
  · rw [zpow_neg]; norm_num
  · have : d'.1 ≠ [] := h.1.1
    have : 0 < d'.1.length := List.length_pos_of_ne_nil this
    exact this

/-- And their values. -/
example : decimalOf (str "12.5") = 25 / 2 ∧ decimalOf (str "-0.0125") = -1 / 80 ∧ decimalOf (str "1.25e-2") = 1 / 80 ∧ decimalOf (str "2E+3") = 2000 := by decide +kernel

end Verif.Props
