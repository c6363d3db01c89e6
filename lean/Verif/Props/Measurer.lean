import Verif.Spec.Web100

/-!
# C29: stopping a measurement
-/

namespace Verif.Props
open Verif.Go Verif.Ndt5 Verif.Spec

/-- What holds of every polling goroutine; `drained` says whether its summary was already received. -/
private def PollOk (p : Poll) (drained : Bool) : Prop :=
  match p.pc with
  | .check | .read | .tick => p.buf = none ∧ p.closed = false ∧ drained = false
  | .send m => p.buf = none ∧ p.closed = false ∧ summarize p.snaps = some m ∧ drained = false
  | .close => p.closed = false ∧ p.buf = if drained then none else summarize p.snaps
  | .ended => p.closed = true ∧ p.buf = if drained then none else summarize p.snaps

/-- A drained channel: the goroutine is past its send. -/
private theorem PollOk.step {p p' : Poll} {d : Bool} {a : PollAct} (h : PollOk p d) (hs : p.step a = some p') :
    PollOk p' d ∧ p'.snaps = p.snaps ++ (match a with | .read r => r.toList | _ => []) ∧ (p.cancelled = true → p'.cancelled = true) := by
  obtain ⟨pc, c, snaps, buf, cl⟩ := p
  cases a <;> cases pc <;> simp [Poll.step] at hs
  all_goals (try split at hs)
  all_goals (try split at hs)
  all_goals first | (cases hs; simp_all [PollOk]; done) | (obtain ⟨_, rfl⟩ := hs; simp_all [PollOk])

private structure MeasOk (as : List MeasAct) (s : Measurer) : Prop where
  len : s.polls.length = starts as
  cur : s.current = if starts as = 0 then none else some (starts as - 1)
  fresh : ∀ k, starts as ≤ k → samplesOf k as = []
  ok : ∀ k p, s.polls[k]? = some p → p.snaps = samplesOf k as ∧ ∃ d, PollOk p d ∧ (s.current = some k → d = stoppedAlready as)
  stopping : s.stopping = true → ∀ k p, s.current = some k → s.polls[k]? = some p → p.cancelled = true

private theorem starts_snoc (as : List MeasAct) (a : MeasAct) : starts (as ++ [a]) = starts as + (match a with | .start => 1 | _ => 0) := by
  cases a <;> simp [starts, List.countP_append]

private theorem samplesOf_snoc (k : Nat) (as : List MeasAct) (a : MeasAct) : samplesOf k (as ++ [a]) = samplesOf k as ++
    (match a with | .poll j (.read r) => if j = k then r.toList else [] | _ => []) := by
  rcases a with _ | _ | _ | ⟨j, _ | _ | r | _ | _ | _⟩ <;> simp [samplesOf, List.filterMap_append]
  split <;> rename_i h
  · subst h
    cases r <;> simp
  · simp [h]

private theorem stoppedAlready_snoc (as : List MeasAct) (a : MeasAct) : stoppedAlready (as ++ [a]) =
    (match a with | .start => false | .stopped => true | _ => stoppedAlready as) := by
  cases a <;> simp [stoppedAlready]

private theorem stoppedAlready_starts {as : List MeasAct} {s : Measurer} (h : measurer.Reaches as s) : MeasOk as s := by
  refine LTS.invariant (T := measurer) (P := MeasOk) ?_ ?_ h
  · exact ⟨rfl, rfl, fun _ _ => rfl, fun k p h => (by simp [measurer] at h), fun h => (by cases h)⟩
  · rintro as ⟨polls, current, stopping, returned⟩ a s' - ⟨h1, h2, h3, h4, h5⟩ hst
    simp only at h1 h2 h4 h5
    have hcur : ∀ k, current = some k → k < polls.length ∧ k = starts as - 1 := by
      intro k hk
      rw [h2] at hk
      split at hk <;> cases hk
      omega
    cases a with
    | start =>
      simp only [measurer, Measurer.step] at hst
      split at hst <;> cases hst
      refine ⟨?_, ?_, ?_, ?_, ?_⟩
      · simp [starts_snoc, h1]
      · simp [starts_snoc, h1]
      · intro k hk
        rw [starts_snoc] at hk
        rw [samplesOf_snoc]
        simpa using h3 k (by simp at hk; omega)
      · intro k p hp
        simp only [stoppedAlready_snoc, samplesOf_snoc, List.append_nil]
        simp only [List.getElem?_append] at hp
        split at hp
        · obtain ⟨e, d, hd, -⟩ := h4 k p hp
          refine ⟨e, d, hd, fun h => ?_⟩
          simp at h
          omega
        · have : k = polls.length := by
            refine Decidable.byContradiction fun hne => ?_
            rw [List.getElem?_eq_none (by simp; omega)] at hp
            cases hp
          subst this
          simp at hp
          subst hp
          refine ⟨(h3 _ (by omega)).symm, false, ?_, fun _ => rfl⟩
          simp [PollOk]
      · intro h
        simp_all
    | stop =>
      simp only [measurer, Measurer.step] at hst
      split at hst
      · cases hst
      split at hst <;> cases hst
      · refine ⟨?_, ?_, ?_, ?_, ?_⟩
        · simpa [starts_snoc] using h1
        · simpa [starts_snoc] using h2
        · simpa [starts_snoc, samplesOf_snoc] using h3
        · simpa [stoppedAlready_snoc, samplesOf_snoc] using h4
        · intro _ k p hk; cases hk
      · rename_i k
        refine ⟨?_, ?_, ?_, ?_, ?_⟩
        · simpa [starts_snoc] using h1
        · simpa [starts_snoc] using h2
        · simpa [starts_snoc, samplesOf_snoc] using h3
        · intro j p hp
          simp only [List.getElem?_modify] at hp
          cases hj : polls[j]? with
          | none => rw [hj] at hp; cases hp
          | some q =>
            rw [hj] at hp
            obtain ⟨e, d, hd, hd'⟩ := h4 j q hj
            simp only [stoppedAlready_snoc, samplesOf_snoc, List.append_nil]
            by_cases hjk : k = j
            · simp [hjk] at hp
              subst hp
              exact ⟨e, d, hd, hd'⟩
            · simp [hjk] at hp
              subst hp
              exact ⟨e, d, hd, hd'⟩
        · intro _ j p hj hp
          simp only [Option.some.injEq] at hj
          subst hj
          simp only [List.getElem?_modify, if_true] at hp
          cases hj : polls[k]? with
          | none => rw [hj] at hp; cases hp
          | some q => rw [hj] at hp; cases hp; rfl
    | stopped =>
      simp only [measurer, Measurer.step] at hst
      split at hst
      · split at hst
        · cases hst
          refine ⟨?_, ?_, ?_, ?_, ?_⟩
          · simpa [starts_snoc] using h1
          · simpa [starts_snoc] using h2
          · simpa [starts_snoc, samplesOf_snoc] using h3
          · intro k p hp
            obtain ⟨e, d, hd, -⟩ := h4 k p hp
            simp only [samplesOf_snoc, List.append_nil]
            exact ⟨e, d, hd, fun h => by cases h⟩
          · intro h; cases h
        · rename_i k
          split at hst
          · cases hst
          · rename_i q hq
            rw [Option.map_eq_some_iff] at hst
            obtain ⟨⟨r, q'⟩, hr, rfl⟩ := hst
            have hq' := h4 k q hq
            refine ⟨?_, ?_, ?_, ?_, ?_⟩
            · simpa [starts_snoc] using h1
            · simpa [starts_snoc] using h2
            · simpa [starts_snoc, samplesOf_snoc] using h3
            · intro j p hp
              simp only [samplesOf_snoc, List.append_nil, stoppedAlready_snoc]
              simp only [List.getElem?_set] at hp
              split at hp
              · rename_i hjk
                subst hjk
                split at hp <;> cases hp
                obtain ⟨e, d, hd, -⟩ := hq'
                obtain ⟨pc, c, snaps, buf, cl⟩ := q
                refine ⟨?_, true, ?_, fun _ => rfl⟩
                · simp only [Poll.recv] at hr
                  split at hr
                  · cases hr; exact e
                  · split at hr <;> cases hr
                    exact e
                · simp only [Poll.recv] at hr
                  split at hr
                  · cases hr
                    rename_i hb
                    clear h1 h2 h3 h4 h5 hcur hq
                    cases pc <;> simp_all [PollOk]
                  · split at hr <;> cases hr
                    rename_i hb hcl
                    clear h1 h2 h3 h4 h5 hcur hq
                    cases pc <;> simp_all [PollOk]
              · rename_i hjk
                obtain ⟨e, d, hd, -⟩ := h4 j p hp
                exact ⟨e, d, hd, fun h => by simp at h; exact absurd h hjk⟩
            · intro h; cases h
      · cases hst
    | poll k a =>
      simp only [measurer, Measurer.step] at hst
      split at hst
      · cases hst
      · rename_i q hq
        rw [Option.map_eq_some_iff] at hst
        obtain ⟨q', hq', rfl⟩ := hst
        obtain ⟨e, d, hd, hd'⟩ := h4 k q hq
        obtain ⟨g1, g2, g3⟩ := hd.step hq'
        have hk : k < starts as := by
          rw [← h1]
          exact (List.getElem?_eq_some_iff.1 hq).1
        refine ⟨?_, ?_, ?_, ?_, ?_⟩
        · simpa [starts_snoc] using h1
        · simpa [starts_snoc] using h2
        · intro j hj
          rw [starts_snoc] at hj
          rw [samplesOf_snoc]
          have := h3 j (by simpa using hj)
          simp only [this, List.nil_append]
          split
          · rename_i k' r heq
            cases heq
            rw [if_neg (by simp at hj; omega)]
          · rfl
        · intro j p hp
          simp only [stoppedAlready_snoc]
          simp only [List.getElem?_set] at hp
          rw [samplesOf_snoc]
          split at hp
          · rename_i hjk
            subst hjk
            split at hp <;> cases hp
            refine ⟨?_, d, g1, hd'⟩
            rw [g2, e]
            cases a <;> simp
          · rename_i hjk
            obtain ⟨e', d', hd1, hd2⟩ := h4 j p hp
            refine ⟨?_, d', hd1, hd2⟩
            rw [e']
            cases a <;> simp [hjk]
        · intro hs j p hj hp
          simp only [List.getElem?_set] at hp
          split at hp
          · rename_i hjk
            subst hjk
            split at hp <;> cases hp
            exact g3 (h5 hs _ _ hj hq)
          · exact h5 hs _ _ hj hp

/-- C29: whenever a call of `StopMeasuring` returns, it returns the summary of the samples of the last start, or an error if
nothing was started, nothing was sampled, or the measurement was stopped before. -/
theorem C29_result {as : List MeasAct} {s : Measurer} (h : measurer.Reaches (as ++ [.stopped]) s) :
    s.returned.getLast? = some (stopResult as) := by
  obtain ⟨t, ht, hst⟩ := LTS.reaches_snoc.1 h
  have hok := stoppedAlready_starts ht
  simp only [measurer, Measurer.step] at hst
  split at hst
  · split at hst
    · rename_i hc
      cases hst
      have : starts as = 0 := by
        have := hok.cur
        rw [hc] at this
        split at this
        · assumption
        · cases this
      simp [stopResult, this]
    · rename_i k hc
      have hk := hok.cur
      rw [hc] at hk
      split at hk
      · cases hk
      rename_i hne
      cases hk
      split at hst
      · cases hst
      · rename_i q hq
        rw [Option.map_eq_some_iff] at hst
        obtain ⟨⟨r, q'⟩, hr, rfl⟩ := hst
        obtain ⟨e, d, hd, hd'⟩ := hok.ok _ q hq
        have hd' := hd' hc
        subst hd'
        simp only [List.getLast?_append, List.getLast?_singleton, Option.some_or, stopResult, hne, false_or, ← e]
        congr 1
        simp only [Poll.recv] at hr
        obtain ⟨pc, c, snaps, buf, cl⟩ := q
        split at hr
        · cases hr
          cases pc <;> simp_all [PollOk]
        · split at hr <;> cases hr
          cases pc <;> simp_all [PollOk]
  · cases hst

/-- How many steps a cancelled polling goroutine still takes. -/
private def rank : PollPc → Nat
  | .read => 5 | .tick => 4 | .check => 3 | .send _ => 2 | .close => 1 | .ended => 0

private def own : PollAct → Nat | .cancel => 0 | _ => 1

private theorem rank_step {p p' : Poll} {a : PollAct} (hc : p.cancelled = true) (h : p.step a = some p') :
    rank p'.pc + own a ≤ rank p.pc ∧ p'.cancelled = true := by
  obtain ⟨pc, c, snaps, buf, cl⟩ := p
  simp only at hc
  subst hc
  cases a <;> cases pc <;> simp [Poll.step] at h
  all_goals (try split at h)
  all_goals first | (cases h; simp [rank, own]; done) | (obtain ⟨_, rfl⟩ := h; simp [rank, own])

private theorem steps_le_rank (k : Nat) (bs : List MeasAct) : ∀ (s s' : Measurer) (p : Poll), s.stopping = true → s.current = some k →
    s.polls[k]? = some p → p.cancelled = true → measurer.runFrom s bs = some s' → .stopped ∉ bs → stepsOf k bs ≤ rank p.pc := by
  induction bs with
  | nil => intro s s' p _ _ _ _ _ _; simp [stepsOf]
  | cons a bs ih =>
    intro s s' p hs hc hp hcan hr hns
    obtain ⟨t, ht, hr⟩ := LTS.runFrom_cons_eq.1 hr
    simp only [List.mem_cons, not_or] at hns
    have hcons : stepsOf k (a :: bs) = stepsOf k bs + stepsOf k [a] := by
      simp only [stepsOf, List.countP_cons]
      simp
    rw [hcons]
    cases a with
    | start => simp [measurer, Measurer.step, hs] at ht
    | stop => simp [measurer, Measurer.step, hs] at ht
    | stopped => simp at hns
    | poll j a =>
      simp only [measurer, Measurer.step] at ht
      split at ht
      · cases ht
      · rename_i q hq
        rw [Option.map_eq_some_iff] at ht
        obtain ⟨q', hq', rfl⟩ := ht
        by_cases hjk : j = k
        · subst hjk
          rw [hp] at hq
          cases hq
          obtain ⟨h1, h2⟩ := rank_step hcan hq'
          have hlt := (List.getElem?_eq_some_iff.1 hp).1
          have := ih { s with polls := s.polls.set j q' } s' q' hs hc (by simp [hlt]) h2 hr hns.2
          have e : stepsOf j [.poll j a] = own a := by cases a <;> simp [stepsOf, own]
          omega
        · have := ih { s with polls := s.polls.set j q' } s' p hs hc (by simp [List.getElem?_set, hjk, hp]) hcan hr hns.2
          have e : stepsOf k [.poll j a] = 0 := by cases a <;> simp [stepsOf, hjk]
          omega

/-- C29: stopping never blocks forever. While `StopMeasuring` waits, either it can return, or the goroutine it waits for can take a
step. And however the execution goes on, that goroutine takes at most five steps before the call has returned. -/
theorem C29_never_blocks {as : List MeasAct} {s : Measurer} (h : measurer.Reaches as s) (hs : s.stopping = true) :
    ((∃ s', measurer.step s .stopped = some s') ∨
      ∃ k a s', s.current = some k ∧ stepsOf k [.poll k a] = 1 ∧ measurer.step s (.poll k a) = some s') ∧
    ∀ bs s' k, s.current = some k → measurer.runFrom s bs = some s' → .stopped ∉ bs → stepsOf k bs ≤ 5 := by
  have hok := stoppedAlready_starts h
  constructor
  · cases hc : s.current with
    | none => left; exact ⟨_, by simp only [measurer, Measurer.step, hs, hc]; rfl⟩
    | some k =>
      have hk := hok.cur
      rw [hc] at hk
      split at hk
      · cases hk
      rename_i hne
      cases hk
      have hlt : starts as - 1 < s.polls.length := by rw [hok.len]; omega
      obtain ⟨p, hp⟩ : ∃ p, s.polls[starts as - 1]? = some p := ⟨_, List.getElem?_eq_getElem hlt⟩
      have hcan := hok.stopping hs _ _ hc hp
      obtain ⟨e, d, hd, -⟩ := hok.ok _ p hp
      obtain ⟨pc, c, snaps, buf, cl⟩ := p
      simp only at hcan
      subst hcan
      have go : ∀ a p', stepsOf (starts as - 1) [.poll (starts as - 1) a] = 1 →
          Poll.step { pc := pc, cancelled := true, snaps := snaps, buf := buf, closed := cl } a = some p' →
          ∃ k a s', some (starts as - 1) = some k ∧ stepsOf k [.poll k a] = 1 ∧ measurer.step s (.poll k a) = some s' := by
        intro a p' h1 h2
        exact ⟨_, a, _, rfl, h1, by simp only [measurer, Measurer.step, hp, h2]; rfl⟩
      cases pc with
      | check =>
        right
        cases hsum : summarize snaps with
        | none => exact go .check _ (by simp [stepsOf]) (by simp only [Poll.step, hsum]; rfl)
        | some m => exact go .check _ (by simp [stepsOf]) (by simp only [Poll.step, hsum]; rfl)
      | read => right; exact go (.read none) _ (by simp [stepsOf]) rfl
      | tick => right; exact go .tick _ (by simp [stepsOf]) rfl
      | send m =>
        right
        obtain ⟨rfl, -⟩ := hd
        exact go .send _ (by simp [stepsOf]) rfl
      | close => right; exact go .close _ (by simp [stepsOf]) rfl
      | ended =>
        left
        obtain ⟨rfl, -⟩ := hd
        cases buf with
        | none => exact ⟨_, by simp only [measurer, Measurer.step, hs, hc, hp]; rfl⟩
        | some m => exact ⟨_, by simp only [measurer, Measurer.step, hs, hc, hp]; rfl⟩
  · intro bs s' k hc hr hns
    have hk := hok.cur
    rw [hc] at hk
    split at hk
    · cases hk
    rename_i hne
    cases hk
    have hlt : starts as - 1 < s.polls.length := by rw [hok.len]; omega
    obtain ⟨p, hp⟩ : ∃ p, s.polls[starts as - 1]? = some p := ⟨_, List.getElem?_eq_getElem hlt⟩
    have hcan := hok.stopping hs _ _ hc hp
    have : rank p.pc ≤ 5 := by cases p.pc <;> simp [rank]
    have := steps_le_rank _ bs s s' p hs hc hp hcan hr hns
    omega

/-- Start, two samples, stop, stop again, and a start without a sample: the calls return the summary, an error and an error. -/
example : ∃ s, measurer.Reaches [.start, .poll 0 .check, .poll 0 (.read (some { rtt := 5000 })), .poll 0 .tick, .poll 0 .check,
    .poll 0 (.read (some { rtt := 7000 })), .stop, .poll 0 .tick, .poll 0 .check, .poll 0 .send, .stopped, .stop, .poll 0 .close,
    .stopped, .start, .stop, .poll 1 .check, .poll 1 .close, .stopped] s ∧
    ∃ m, s.returned = [some m, none, none] ∧ m.countRTT = 2 :=
  ⟨_, rfl, _, rfl, by decide⟩

/-- While the first stop waits for the tick the hypotheses of `C29_never_blocks` hold. -/
example : ∃ s, measurer.Reaches [.start, .poll 0 .check, .poll 0 (.read none), .stop] s ∧ s.stopping = true ∧ s.current = some 0 ∧
    measurer.step s .stopped = none :=
  ⟨_, rfl, rfl, rfl, rfl⟩

end Verif.Props
