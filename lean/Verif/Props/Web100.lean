import Verif.Spec.Web100

/-!
# C27, C28: RTT summaries and polling
-/

namespace Verif.Props
open Verif.Go Verif.Ndt5 Verif.Spec

/-! ## C27 -/

private theorem u32_sum (l : List Snap) (a : RttAcc) :
    (l.foldl RttAcc.add a).sum.toNat = (a.sum.toNat + (rtts l).sum) % 2 ^ 32 ∧
    (l.foldl RttAcc.add a).count.toNat = (a.count.toNat + l.length) % 2 ^ 32 := by
  induction l generalizing a with
  | nil => simp [rtts, Nat.mod_eq_of_lt, UInt32.toNat_lt]
  | cons s l ih =>
    obtain ⟨h1, h2⟩ := ih (a.add s)
    constructor
    · have e : (a.add s).sum.toNat = (a.sum.toNat + s.rtt.toNat) % 2 ^ 32 := by simp [RttAcc.add, UInt32.toNat_add]
      rw [List.foldl_cons, h1, e]
      simp only [rtts, List.map_cons, List.sum_cons]
      omega
    · have e : (a.add s).count.toNat = (a.count.toNat + 1) % 2 ^ 32 := by simp [RttAcc.add, UInt32.toNat_add]
      rw [List.foldl_cons, h2, e]
      simp only [List.length_cons]
      omega

private theorem u32_max (l : List Snap) (a : RttAcc) :
    a.max.toNat ≤ (l.foldl RttAcc.add a).max.toNat ∧
    (∀ y ∈ rtts l, y ≤ (l.foldl RttAcc.add a).max.toNat) ∧
    ((l.foldl RttAcc.add a).max.toNat = a.max.toNat ∨ (l.foldl RttAcc.add a).max.toNat ∈ rtts l) := by
  induction l generalizing a with
  | nil => simp [rtts]
  | cons s l ih =>
    obtain ⟨h1, h2, h3⟩ := ih (a.add s)
    have hm : (a.add s).max.toNat = max a.max.toNat s.rtt.toNat := by
      simp only [RttAcc.add, gt_iff_lt, UInt32.lt_iff_toNat_lt]
      split <;> omega
    simp only [rtts, List.map_cons, List.mem_cons, List.foldl_cons, forall_eq_or_imp] at *
    rw [hm] at h1 h3
    refine ⟨by omega, ⟨by omega, h2⟩, ?_⟩
    rcases h3 with h3 | h3
    · rw [h3]
      rcases Nat.le_total a.max.toNat s.rtt.toNat with h | h
      · right; left; omega
      · left; omega
    · exact .inr (.inr h3)

private theorem u32_min (l : List Snap) (a : RttAcc) (hz : ∀ y ∈ rtts l, y ≠ 0) (ha : a.min.toNat ≠ 0) :
    (l.foldl RttAcc.add a).min.toNat ≤ a.min.toNat ∧
    (∀ y ∈ rtts l, (l.foldl RttAcc.add a).min.toNat ≤ y) ∧
    ((l.foldl RttAcc.add a).min.toNat = a.min.toNat ∨ (l.foldl RttAcc.add a).min.toNat ∈ rtts l) := by
  induction l generalizing a with
  | nil => simp [rtts]
  | cons s l ih =>
    simp only [rtts, List.map_cons, List.mem_cons, List.foldl_cons, forall_eq_or_imp] at *
    have hm : (a.add s).min.toNat = min a.min.toNat s.rtt.toNat := by
      simp only [RttAcc.add, UInt32.lt_iff_toNat_lt, ← UInt32.toNat_inj]
      split <;> rename_i h
      · simp at h; omega
      · simp at h; omega
    obtain ⟨h1, h2, h3⟩ := ih (a.add s) hz.2 (by rw [hm]; have := hz.1; omega)
    rw [hm] at h1 h3
    refine ⟨by omega, ⟨by omega, h2⟩, ?_⟩
    rcases h3 with h3 | h3
    · rw [h3]
      rcases Nat.le_total a.min.toNat s.rtt.toNat with h | h
      · left; omega
      · right; left; omega
    · exact .inr (.inr h3)

/-- C27 as far as it holds. Every non-empty sequence of samples has a summary. Its maximum and the counters of the last sample are
always right; the number of samples is right if it fits 32 bits; the sum is right if the sum in microseconds fits 32 bits; the
minimum is right if no sample is zero. (The full statement has no such conditions, see `C27_min_false` and `C27_sum_false`.) -/
theorem C27_summary_partial (snaps : List Snap) (hne : snaps ≠ []) : ∃ m, summarize snaps = some m ∧
    (snaps.length < 2 ^ 32 → m.countRTT.toNat = snaps.length) ∧
    ((rtts snaps).sum < 2 ^ 32 → m.sumRTT.toNat = (rtts snaps).sum / 1000) ∧
    (∃ x, IsLargest (rtts snaps) x ∧ m.maxRTT.toNat = x / 1000) ∧
    (0 ∉ rtts snaps → ∃ x, IsSmallest (rtts snaps) x ∧ m.minRTT.toNat = x / 1000) ∧
    (∃ l ∈ snaps.getLast?, m.tcpInfo = l.info ∧ m.curMSS = l.sndMSS ∧ m.pktsOut = l.segsOut.toUInt32) := by
  obtain ⟨last, hl⟩ : ∃ last, snaps.getLast? = some last := by
    cases h : snaps.getLast? with
    | none => exact absurd (List.getLast?_eq_none_iff.1 h) hne
    | some x => exact ⟨x, rfl⟩
  have hs := u32_sum snaps {}
  have hmx := u32_max snaps {}
  obtain ⟨m, hm⟩ : ∃ m, summarize snaps = some m := by simp only [summarize, hl]; exact ⟨_, rfl⟩
  have hm' := hm
  simp only [summarize, hl, Option.some.injEq] at hm'
  subst hm'
  refine ⟨_, hm, ?_, ?_, ?_, ?_, last, hl, rfl, rfl, rfl⟩
  · intro h
    rw [hs.2]
    simpa using Nat.mod_eq_of_lt h
  · intro h
    simp only [UInt32.toNat_div, hs.1]
    simp only [UInt32.toNat_zero, Nat.zero_add, Nat.mod_eq_of_lt h]
    rfl
  · refine ⟨(snaps.foldl RttAcc.add {}).max.toNat, ⟨?_, hmx.2.1⟩, by simp [UInt32.toNat_div]⟩
    rcases hmx.2.2 with h | h
    · cases snaps with
      | nil => exact absurd rfl hne
      | cons s l =>
        have h0 : (List.foldl RttAcc.add {} (s :: l)).max.toNat = 0 := by rw [h]; rfl
        have := hmx.2.1 s.rtt.toNat (by simp [rtts])
        rw [h0] at this ⊢
        simp only [rtts, List.map_cons, List.mem_cons]
        left; omega
    · exact h
  · intro hz
    cases snaps with
    | nil => exact absurd rfl hne
    | cons s l =>
      have hs0 : s.rtt.toNat ≠ 0 := fun h => hz (by simp [rtts, h])
      have h1 : (RttAcc.add {} s).min = s.rtt := by simp [RttAcc.add]
      have := u32_min l (RttAcc.add {} s)
        (fun y hy h => hz (by subst h; simp only [rtts, List.map_cons, List.mem_cons] at hy ⊢; exact .inr hy))
        (by rw [h1]; exact hs0)
      rw [h1] at this
      refine ⟨(List.foldl RttAcc.add {} (s :: l)).min.toNat, ⟨?_, ?_⟩, by simp [UInt32.toNat_div]⟩
      · simp only [List.foldl_cons, rtts, List.map_cons, List.mem_cons]
        exact this.2.2
      · simp only [List.foldl_cons, rtts, List.map_cons, List.mem_cons, forall_eq_or_imp]
        exact ⟨this.1, this.2.1⟩

/-- Consequently the summary is correct for every sequence of samples that are not zero and add up to less than 2^32
microseconds. -/
theorem C27_summary_correct_partial (snaps : List Snap) (hne : snaps ≠ []) (hz : 0 ∉ rtts snaps) (hsum : (rtts snaps).sum < 2 ^ 32) :
    ∃ m, summarize snaps = some m ∧ CorrectSummary snaps m := by
  obtain ⟨m, hm, h1, h2, h3, h4, h5⟩ := C27_summary_partial snaps hne
  have hlen : snaps.length ≤ (rtts snaps).sum := by
    clear hm h1 h2 h3 h4 h5 hne hsum
    induction snaps with
    | nil => simp
    | cons s l ih =>
      simp only [rtts, List.map_cons, List.mem_cons, not_or, List.length_cons, List.sum_cons] at *
      have := ih hz.2
      omega
  exact ⟨m, hm, h1 (by omega), h2 hsum, h3, h4 hz, h5⟩

/-- Three samples of 5, 2 and 9 milliseconds: the hypotheses hold and the numbers are as expected. -/
example : ∃ m, summarize [{ rtt := 5000, sndMSS := 1460 }, { rtt := 2000, sndMSS := 1448 }, { rtt := 9999, sndMSS := 536, segsOut := 7 }] =
    some m ∧ m.countRTT = 3 ∧ m.sumRTT = 16 ∧ m.maxRTT = 9 ∧ m.minRTT = 2 ∧ m.curMSS = 536 ∧ m.pktsOut = 7 :=
  ⟨_, rfl, by decide, by decide, by decide, by decide, rfl, by decide⟩

/-- C27 fails: a sample of zero is taken for "no minimum yet". For 5 ms, 0 ms and 7 ms the minimum reported is 7 ms. -/
theorem C27_min_false : ¬ ∀ snaps : List Snap, snaps ≠ [] → ∃ m, summarize snaps = some m ∧
    ∃ x, IsSmallest (rtts snaps) x ∧ m.minRTT.toNat = x / 1000 := by
  intro h
  obtain ⟨m, hm, x, hx, hmin⟩ := h [{ rtt := 5000 }, { rtt := 0 }, { rtt := 7000 }] (by simp)
  cases hm
  have h0 := hx.2 0 (by simp [rtts])
  obtain rfl : x = 0 := by omega
  revert hmin
  decide

/-- C27 fails: the sum wraps around. For 150 samples of 30 seconds the sum reported is not their sum. -/
theorem C27_sum_false : ¬ ∀ snaps : List Snap, snaps ≠ [] → ∃ m, summarize snaps = some m ∧
    m.sumRTT.toNat = (rtts snaps).sum / 1000 := by
  intro h
  obtain ⟨m, hm, hsum⟩ := h (List.replicate 150 { rtt := 30000000 }) (by simp)
  revert hsum
  cases hm
  decide +kernel

/-! ## C28 -/

private theorem poll_samples {as : List PollAct} {p : Poll} (h : polling.Reaches as p) :
    p.snaps = successfulReads as := by
  refine LTS.invariant (T := polling) (P := fun as p => p.snaps = successfulReads as) rfl ?_ h
  intro as s a s' _ ih hst
  simp only [successfulReads, List.filterMap_append] at ih ⊢
  rw [← ih]
  simp only [polling, Poll.step] at hst
  split at hst
  all_goals (try split at hst)
  all_goals (try split at hst)
  all_goals (try split at hst)
  all_goals first | (cases hst; done) | (cases hst; simp) | skip
  rename_i r _ _
  cases r <;> rfl

private theorem poll_result {as : List PollAct} {p : Poll} (h : polling.Reaches as p) :
    (∀ m, p.pc = .send m → summarize p.snaps = some m ∧ p.buf = none) ∧
    (p.pc = .close ∨ p.pc = .ended → p.buf = summarize p.snaps) ∧
    (p.pc = .check ∨ p.pc = .read ∨ p.pc = .tick → p.buf = none) := by
  refine LTS.state_invariant (T := polling) (P := fun p => (∀ m, p.pc = .send m → summarize p.snaps = some m ∧ p.buf = none) ∧
    (p.pc = .close ∨ p.pc = .ended → p.buf = summarize p.snaps) ∧
    (p.pc = .check ∨ p.pc = .read ∨ p.pc = .tick → p.buf = none)) ?_ ?_ h
  · refine ⟨?_, ?_, fun _ => rfl⟩
    · intro m h; cases h
    · rintro (h | h) <;> cases h
  · rintro ⟨pc, c, snaps, buf, cl⟩ a s' ih hst
    simp only [polling, Poll.step] at hst
    cases a <;> cases pc <;> simp_all
    all_goals (try split at hst)
    all_goals (try split at hst)
    all_goals first | (cases hst; simp_all; done) | (subst hst; simp_all)

/-- C28 as far as it holds. However ticks, readings, failures and cancellation are interleaved, when the polling goroutine has ended
it has left the summary of exactly the successful readings, in order, and nothing if there were none. After the
measurement is stopped it takes at most one more reading. (The full statement asks for exactly one, see
`C28_final_measurement_false`.) -/
theorem C28_polling_partial {as : List PollAct} {p : Poll} (h : polling.Reaches as p) :
    (p.pc = .ended → p.buf = summarize (successfulReads as)) ∧ readings (afterCancel as) ≤ 1 := by
  refine ⟨fun he => ?_, ?_⟩
  · rw [← poll_samples h]
    exact (poll_result h).2.1 (.inr he)
  · have := LTS.invariant (T := polling) (P := fun as p =>
      (p.cancelled = false → afterCancel as = []) ∧
      (p.pc = .read → readings (afterCancel as) = 0) ∧
      readings (afterCancel as) ≤ 1) ?_ ?_ h
    · exact this.2.2
    · exact ⟨fun _ => rfl, fun h => (by cases h), by simp [afterCancel, readings]⟩
    · rintro as ⟨pc, c, snaps, buf, cl⟩ a s' _ ⟨ih1, ih2, ih3⟩ hst
      have key : afterCancel (as ++ [a]) =
          if (afterCancel as).isEmpty then afterCancel [a] else afterCancel as ++ [a] := List.dropWhile_append ..
      rw [key]
      have e0 : readings [] = 0 := rfl
      have e1 : ∀ l b, readings (l ++ [b]) = readings l + readings [b] := fun l b => by simp [readings, List.countP_append]
      clear key
      cases hac : afterCancel as with
      | nil =>
        rw [hac] at ih1 ih2 ih3
        simp only [List.isEmpty_nil, if_true]
        cases a <;> cases pc <;> simp [polling, Poll.step] at hst
        all_goals (try split at hst)
        all_goals (try split at hst)
        all_goals first | (cases hst; simp_all [afterCancel, readings]; done) | (obtain ⟨_, rfl⟩ := hst; simp_all [afterCancel, readings])
      | cons x l =>
        rw [hac] at ih1 ih2 ih3
        simp only [List.isEmpty_cons, Bool.false_eq_true, if_false]
        rw [e1]
        cases a <;> cases pc <;> simp [polling, Poll.step] at hst
        all_goals (try split at hst)
        all_goals (try split at hst)
        all_goals first | (cases hst; simp_all [readings]; done) | (obtain ⟨_, rfl⟩ := hst; simp_all [readings])

/-- Two samples, cancellation between the loop condition and the second of them, and the end: one reading after the cancellation. -/
example : ∃ p, polling.Reaches [.check, .read (some { rtt := 5000 }), .tick, .check, .cancel, .read (some { rtt := 7000 }), .tick,
    .check, .send, .close] p ∧ p.pc = .ended ∧ ∃ m, p.buf = some m ∧ m.countRTT = 2 :=
  ⟨_, rfl, rfl, _, rfl, by decide⟩

/-- C28 fails: if the measurement is stopped while the goroutine waits for the next tick, the loop condition is evaluated before the
next reading, and no measurement is taken after the stop. -/
theorem C28_final_measurement_false : ¬ ∀ as p, polling.Reaches as p → p.pc = .ended → readings (afterCancel as) = 1 := by
  intro h
  have := h [.check, .read (some { rtt := 5000 }), .cancel, .tick, .check, .send, .close] _ rfl rfl
  revert this
  decide

end Verif.Props
