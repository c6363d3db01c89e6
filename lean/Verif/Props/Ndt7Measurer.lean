import Verif.Ndt7.Measurer
import Mathlib.Data.List.Forall2

/-!
# The ndt7 measurer: C50, C51, C71
-/

namespace Verif.Props
open Verif.Go Verif.Ndt7 Verif.Ndt5 Verif.Netx

variable {c : MConfig} {as : List MAct} {s : MState}

/-! ## Invariants -/

/-- How far the measurer is. -/
private def phase : MPos → Nat
  | .setup => 0
  | .started _ => 0
  | .made _ => 1
  | .exited => 3
  | _ => 2

/-- How the positions of the goroutines hang together. -/
private structure MInv (s : MState) : Prop where
  setup : phase s.m = 0 → s.t = .none ∧ s.buf = [] ∧ s.ticker = false
  active : (phase s.m = 1 ∨ phase s.m = 2 ∨ s.ticker = true) → s.t ≠ .none
  notMade : phase s.m = 2 → s.ticker = true
  closed : s.tickClosed = if s.t = .exited then 1 else 0
  dst : s.dstClosed = if phase s.m = 3 then 1 else 0
  exited : phase s.m = 3 → (s.t = .exited ∨ s.t = .none) ∧ s.expired = true ∧ s.buf = []
  done : s.s = .done → phase s.m = 3
  stopped : s.stopped = true → s.ticker = true
  cancelling : s.s = .cancelling → s.ticker = true
  draining : s.s = .draining ∨ s.s = .done ∨ s.stopped = false

macro "m_cases" h:ident : tactic => `(tactic| (
  simp only [measurer, mStep] at $h:ident
  repeat' split at $h:ident
  all_goals first | (cases $h:ident; done) | (simp only [Option.some.injEq] at $h:ident; subst $h:ident)))

private theorem minv (h : (measurer c).Reaches as s) : MInv s := by
  refine LTS.state_invariant (P := MInv) ?_ ?_ h
  · constructor <;> simp [measurer, phase]
  · intro s a s' hi hst
    obtain ⟨i1, i2, i3, i4, i5, i6, i7, i8, i9, i10⟩ := hi
    cases a <;> m_cases hst
    all_goals (constructor <;> simp_all [phase, MState.over] <;> grind)

/-! ## C50: everything ends -/

/-- Nothing is left to do: the measurer and its ticker (if it was created) have ended, `Stop` has returned, and the channel was closed
exactly once. -/
structure MFinished (s : MState) : Prop where
  measurer : s.m = .exited
  ticker : s.t = .exited ∨ s.t = .none
  sender : s.s = .done
  closed : s.dstClosed = 1

/-- C50: when `Stop` returns, the goroutines of the measurer and of its ticker have ended. -/
theorem C50_stop_returns_after_end (h : (measurer c).Reaches as s) (hs : s.s = .done) : MFinished s := by
  have hi := minv h
  have h3 := hi.done hs
  have hm : s.m = .exited := by cases hx : s.m <;> simp [hx, phase] at h3; rfl
  exact ⟨hm, (hi.exited h3).1, hs, by rw [hi.dst, if_pos h3]⟩

/-- C50: the channel to the sender and that of the ticker are closed at most once, so closing them never panics. -/
theorem C50_closed_at_most_once (h : (measurer c).Reaches as s) : s.dstClosed ≤ 1 ∧ s.tickClosed ≤ 1 := by
  have hi := minv h
  rw [hi.dst, hi.closed]
  constructor <;> split <;> omega

/-- C50: nothing can be sent on a closed channel. -/
theorem C50_no_send_after_close (h : (measurer c).Reaches as s) :
    ((∃ st m, s.m = .sending st m) → s.dstClosed = 0) ∧ (s.t = .waiting → s.tickClosed = 0) := by
  have hi := minv h
  refine ⟨?_, fun ht => ?_⟩
  · rintro ⟨st, m, hm⟩
    rw [hi.dst, hm]; rfl
  · rw [hi.closed, ht]; rfl

/-- C50: once the measurer's context has ended or the ticker was stopped, there is no deadlock: as long as not everything is
finished, some goroutine can make a step. -/
theorem C50_no_deadlock (h : (measurer c).Reaches as s) (ho : s.expired = true ∨ s.stopped = true) (hf : ¬ MFinished s) :
    ∃ a, a ≠ .expire ∧ ((measurer c).step s a).isSome = true := by
  have hi := minv h
  have hover : s.over = true := by simpa [MState.over] using ho
  cases hs : s.s with
  | done => exact absurd (C50_stop_returns_after_end h hs) hf
  | running => exact ⟨.stop, by simp, by simp [measurer, mStep, hs]⟩
  | stopping => exact ⟨.lookAtTicker, by simp, by simp [measurer, mStep, hs]⟩
  | cancelling => exact ⟨.cancelTicker, by simp, by simp [measurer, mStep, hs]⟩
  | draining =>
    cases hm : s.m with
    | setup => exact ⟨.start s.clock, by simp, by simp [measurer, mStep, hm]⟩
    | started st => exact ⟨.newTicker true, by simp, by simp [measurer, mStep, hm]⟩
    | made st => exact ⟨.assign, by simp, by simp [measurer, mStep, hm]⟩
    | «have» st now => exact ⟨.measure (.error []), by simp, by simp [measurer, mStep, hm]⟩
    | sending st m => exact ⟨.drain, by simp, by simp [measurer, mStep, hm, hs]⟩
    | exited =>
      have hd : s.dstClosed = 1 := by rw [hi.dst, hm]; rfl
      exact ⟨.drained, by simp, by simp [measurer, mStep, hs, hd]⟩
    | ranging st =>
      cases hb : s.buf with
      | cons x rest => exact ⟨.take, by simp, by simp [measurer, mStep, hm, hb]⟩
      | nil =>
        cases ht : s.t with
        | none => exact absurd ht (hi.active (by simp [hm, phase]))
        | check => exact ⟨.check, by simp, by simp [measurer, mStep, ht, hover]⟩
        | waiting => exact ⟨.wakeUp, by simp, by simp [measurer, mStep, ht, hover]⟩
        | exited =>
          have hd : s.tickClosed = 1 := by rw [hi.closed, ht]; rfl
          exact ⟨.exit, by simp, by simp [measurer, mStep, hm, hb, hd]⟩

/-- C50: the measurer and its ticker by themselves: when the context of the ticker has ended, one of them can make a step (with any reading of the clock that is not earlier than the latest one),
until the measurer has a measurement to pass on or has exited. -/
theorem C50_measurer_runs (h : (measurer c).Reaches as s) (ho : s.expired = true ∨ s.stopped = true) (hns : ∀ st m, s.m ≠ .sending st m) (hne : s.m ≠ .exited)
    {n : Int} (hn : s.clock ≤ n) :
    ∃ a, (a = .start n ∨ a = .newTicker true ∨ a = .assign ∨ a = .take ∨ (∃ i, a = .measure i) ∨ a = .check ∨ a = .wakeUp ∨ a = .exit) ∧ ((measurer c).step s a).isSome = true := by
  have hi := minv h
  have hover : s.over = true := by simpa [MState.over] using ho
  cases hm : s.m with
  | setup => exact ⟨.start n, by simp, by simp [measurer, mStep, hm, hn]⟩
  | started st => exact ⟨.newTicker true, by simp, by simp [measurer, mStep, hm]⟩
  | made st => exact ⟨.assign, by simp, by simp [measurer, mStep, hm]⟩
  | «have» st now => exact ⟨.measure (.error []), by simp, by simp [measurer, mStep, hm]⟩
  | sending st m => exact absurd hm (hns _ _)
  | exited => exact absurd hm hne
  | ranging st =>
    cases hb : s.buf with
    | cons x rest => exact ⟨.take, by simp, by simp [measurer, mStep, hm, hb]⟩
    | nil =>
      cases ht : s.t with
      | none => exact absurd ht (hi.active (by simp [hm, phase]))
      | check => exact ⟨.check, by simp, by simp [measurer, mStep, ht, hover]⟩
      | waiting => exact ⟨.wakeUp, by simp, by simp [measurer, mStep, ht, hover]⟩
      | exited =>
        have hd : s.tickClosed = 1 := by rw [hi.closed, ht]; rfl
        exact ⟨.exit, by simp, by simp [measurer, mStep, hm, hb, hd]⟩

/-- C50: the channel to the sender is closed once the measurer has exited, and not before. -/
theorem C50_closed_iff_exited (h : (measurer c).Reaches as s) : 0 < s.dstClosed ↔ s.m = .exited := by
  rw [(minv h).dst]
  cases s.m <;> simp [phase]

/-- The number of steps left when the context of the ticker has ended. -/
def measurerRank (s : MState) : Nat :=
  (match s.s with | .running => 4 | .stopping => 3 | .cancelling => 2 | .draining => 1 | .done => 0) +
  (if s.expired then 0 else 1) +
  (match s.t with | .none => 0 | .check => 1 | .waiting => 5 | .exited => 0) +
  (match s.m with | .setup => 5 | .started _ => 4 | .made _ => 2 | .ranging _ => 1 | .have _ _ => 3 | .sending _ _ => 2 | .exited => 0) +
  3 * s.buf.length

theorem measurerRank_step {a : MAct} {s' : MState} (ho : s.over = true) (hst : (measurer c).step s a = some s') :
    s'.over = true ∧ measurerRank s' < measurerRank s := by
  cases a <;> m_cases hst
  all_goals simp_all [MState.over, measurerRank]
  all_goals first | omega | (split <;> omega) | grind

/-- C50: once the measurer's context has ended (which its timeout guarantees) or the ticker was stopped, every execution ends after a
bounded number of steps, under every schedule; `C50_no_deadlock` says that it can only end with everything finished. -/
theorem C50_terminates {bs : List MAct} {s' : MState} (ho : s.expired = true ∨ s.stopped = true)
    (hr : (measurer c).runFrom s bs = some s') : bs.length ≤ 15 + 3 * s.buf.length := by
  have hover : s.over = true := by simpa [MState.over] using ho
  have hrank : measurerRank s ≤ 15 + 3 * s.buf.length := by
    unfold measurerRank
    cases s.s <;> cases s.expired <;> cases s.t <;> cases s.m <;> simp
  suffices H : bs.length ≤ measurerRank s by omega
  clear hrank ho
  induction bs generalizing s with
  | nil => simp
  | cons a bs ih =>
    obtain ⟨t, h1, h2⟩ := LTS.runFrom_cons_eq.1 hr
    obtain ⟨h3, h4⟩ := measurerRank_step hover h1
    have := ih h2 h3
    simp only [List.length_cons]
    omega

/-! ## C71: stopping without delay -/

private theorem buf_le (h : (measurer c).Reaches as s) : s.buf.length ≤ c.cap := by
  refine LTS.state_invariant (P := fun s => s.buf.length ≤ c.cap) ?_ ?_ h
  · simp [measurer]
  · intro s a s' hi hst
    cases a <;> m_cases hst
    all_goals simp_all
    all_goals omega

/-- C71, partial: if the ticker is in place when the sender calls `Stop`, then everything ends within a fixed number of steps after
`Stop` has begun to drain the channel, without the need to wait for the timeout of the measurer. -/
theorem C71_stop_is_prompt_partial {bs cs : List MAct} {s1 s2 s3 : MState} (h1 : (measurer c).Reaches (as ++ [.stop]) s1)
    (ht : s1.ticker = true) (h2 : (measurer c).runFrom s1 bs = some s2) (hd : s2.s = .draining) (h3 : (measurer c).runFrom s2 cs = some s3) :
    cs.length ≤ 15 + 3 * c.cap := by
  have hreach : (measurer c).Reaches ((as ++ [.stop]) ++ bs) s2 := LTS.runFrom_append_eq.2 ⟨s1, h1, h2⟩
  have hb := buf_le hreach
  have hs1 : s1.s = .stopping := by
    obtain ⟨s0, h0, hst⟩ := LTS.reaches_snoc.1 h1
    m_cases hst
    rfl
  have hp : s2.ticker = true ∧ s2.s ≠ .running ∧ (s2.s = .draining ∨ s2.s = .done → s2.stopped = true) := by
    refine LTS.runFrom_invariant (P := fun s => s.ticker = true ∧ s.s ≠ .running ∧ (s.s = .draining ∨ s.s = .done → s.stopped = true)) ?_
      (by simp [hs1, ht]) h2
    intro s a s' hi hst
    cases a <;> m_cases hst
    all_goals simp_all
  have := C50_terminates (.inr (hp.2.2 (.inl hd))) h3
  omega

private theorem ticking_forever (st : Int) (n : Nat) (s : MState) (hm : s.m = .ranging st) (ht : s.t = .check) (ho : s.over = false) (hb : s.buf = [])
    (hs : s.s = .draining) : ∃ bs s', (measurer c).runFrom s bs = some s' ∧ (∀ a ∈ bs, a ≠ .expire) ∧ s'.drained.length = s.drained.length + n ∧
      s'.s = .draining := by
  induction n generalizing s with
  | zero => exact ⟨[], s, rfl, by simp, rfl, hs⟩
  | succ n ih =>
    have hrun : (measurer c).runFrom s [.check, .tickHand s.clock, .measure (.error []), .drain] =
        some { s with m := .ranging st, drained := s.drained ++ [measure (c.conn st) (s.clock - st) (.error [])] } := by
      obtain ⟨s1, s2, s3, s4, s5, s6, s7, s8, s9, s10, s11, s12⟩ := s
      simp only at hm ht hb hs
      subst hm ht hb hs
      simp [LTS.runFrom, measurer, mStep, ho]
    obtain ⟨bs, s', h1, h2, h3, h4⟩ := ih { s with m := .ranging st, drained := s.drained ++ [measure (c.conn st) (s.clock - st) (.error [])] } rfl
      (by simpa using ht) (by simpa [MState.over] using ho) hb hs
    refine ⟨_ ++ bs, s', LTS.runFrom_append_eq.2 ⟨_, hrun, h1⟩, ?_, ?_, h4⟩
    · intro a ha
      rcases List.mem_append.1 ha with ha | ha
      · simp at ha; grind
      · exact h2 a ha
    · simp at h3; omega

/-- C71 is violated: if the sender calls `Stop` before the measurer has created its ticker, `Stop` does not find it, and until the
timeout there can be any number of further measurements, for which `Stop` keeps waiting. -/
theorem C71_stop_is_prompt_false : ∃ s, (measurer c).Reaches [.stop, .lookAtTicker] s ∧ s.s = .draining ∧
    ∀ n, ∃ bs s', (measurer c).runFrom s bs = some s' ∧ (∀ a ∈ bs, a ≠ .expire) ∧ s'.drained.length = n ∧ s'.s = .draining := by
  refine ⟨{ s := .draining }, rfl, rfl, fun n => ?_⟩
  obtain ⟨bs, s', h1, h2, h3, h4⟩ := ticking_forever (c := c) 0 n { s := .draining, m := .ranging 0, t := .check, ticker := true } rfl rfl rfl rfl rfl
  refine ⟨[.start 0, .newTicker true, .assign] ++ bs, s', LTS.runFrom_append_eq.2 ⟨_, rfl, h1⟩, ?_, by simpa using h3, h4⟩
  intro a ha
  rcases List.mem_append.1 ha with ha | ha
  · simp at ha; grind
  · exact h2 a ha

/-! ## C51: the measurements -/

/-- The times of the ticks that get through to the measurer. -/
def acceptedTicks (as : List MAct) : List Int := as.filterMap fun | .tickHand n => some n | .tickBuffer n => some n | _ => none

/-- The outcomes of reading the statistics. -/
def readOutcomes (as : List MAct) : List (Except Err (BbrInfo × TcpInfo)) := as.filterMap fun | .measure i => some i | _ => none

/-- The time at which the measurements started. -/
def startTimes (as : List MAct) : List Int := as.filterMap fun | .start n => some n | _ => none

/-- What the measurement at a time with a given outcome of reading the statistics must be. -/
structure IsMeasurement (c : MConfig) (start : Int) (p : Int × Except Err (BbrInfo × TcpInfo)) (m : Measurement) : Prop where
  /-- every measurement identifies the connection -/
  conn : m.conn = some { client := c.client, server := c.server, uuid := c.uuid, startTime := start }
  app : m.app = none
  /-- no statistics if they could not be read -/
  error : ∀ e, p.2 = .error e → m.bbr = none ∧ m.tcp = none
  /-- otherwise both, with the whole number of microseconds since the start -/
  ok : ∀ b t, p.2 = .ok (b, t) → ∃ us : Int, m.bbr = some ⟨b, us⟩ ∧ m.tcp = some ⟨t, us⟩ ∧ 1000 * us ≤ p.1 - start ∧ p.1 - start < 1000 * (us + 1)

private theorem isMeasurement_measure {start now : Int} {i : Except Err (BbrInfo × TcpInfo)} (h : start ≤ now) :
    IsMeasurement c start (now, i) (measure (c.conn start) (now - start) i) := by
  cases i with
  | error e => exact ⟨rfl, rfl, fun _ _ => ⟨rfl, rfl⟩, by simp⟩
  | ok bt =>
    obtain ⟨b, t⟩ := bt
    refine ⟨rfl, rfl, by simp, ?_⟩
    intro b' t' hbt
    simp only [Except.ok.injEq, Prod.mk.injEq] at hbt
    obtain ⟨rfl, rfl⟩ := hbt
    refine ⟨_, rfl, rfl, ?_⟩
    rw [Int.tdiv_eq_ediv_of_nonneg (by omega)]
    omega

/-- The measurement on its way to the sender. -/
private def inflight : MPos → List Measurement
  | .sending _ m => [m]
  | _ => []

private def pending : MPos → List Int
  | .have _ n => [n]
  | _ => []

/-- The start time known to the measurer. -/
private def startOf : MPos → Option (List Int)
  | .setup => some []
  | .started st | .made st | .ranging st | .have st _ | .sending st _ => some [st]
  | .exited => none

/-- What holds between the ticks `acc`, the outcomes `outs`, the start times `sts` and the state. -/
private structure Hist (c : MConfig) (acc : List Int) (outs : List (Except Err (BbrInfo × TcpInfo))) (sts : List Int) (s : MState) : Prop where
  ex : ∃ ps : List (Int × Except Err (BbrInfo × TcpInfo)), acc = ps.map Prod.fst ++ pending s.m ++ s.buf ∧
    outs = ps.map Prod.snd ∧ List.Forall₂ (IsMeasurement c (sts.headD 0)) ps (s.delivered ++ s.drained ++ inflight s.m)
  start : ∀ st, startOf s.m = some st → sts = st
  sorted : (sts ++ acc).Pairwise (· ≤ ·)
  clock : ∀ t ∈ sts ++ acc, t ≤ s.clock
  drained : s.s = .running ∨ s.s = .stopping ∨ s.s = .cancelling → s.drained = []
  fresh : phase s.m = 0 → acc = []
  begun : sts = [] → s.m = .setup

private theorem pairwise_snoc {l : List Int} {x y : Int} (h : l.Pairwise (· ≤ ·)) (hx : ∀ t ∈ l, t ≤ x) (hy : x ≤ y) :
    (l ++ [y]).Pairwise (· ≤ ·) := by
  rw [List.pairwise_append]
  refine ⟨h, by simp, fun a ha b hb => ?_⟩
  simp at hb
  have := hx a ha
  omega

private theorem hist (h : (measurer c).Reaches as s) : Hist c (acceptedTicks as) (readOutcomes as) (startTimes as) s := by
  refine LTS.invariant (P := fun as s => Hist c (acceptedTicks as) (readOutcomes as) (startTimes as) s) ?_ ?_ h
  · refine ⟨⟨[], rfl, rfl, .nil⟩, ?_, ?_, ?_, ?_, ?_, ?_⟩ <;> simp [measurer, startOf, startTimes, acceptedTicks]
  · intro as s a s' hr hi hst
    have hinv := minv hr
    rw [show acceptedTicks (as ++ [a]) = acceptedTicks as ++ acceptedTicks [a] by simp [acceptedTicks],
      show readOutcomes (as ++ [a]) = readOutcomes as ++ readOutcomes [a] by simp [readOutcomes],
      show startTimes (as ++ [a]) = startTimes as ++ startTimes [a] by simp [startTimes]]
    generalize acceptedTicks as = acc at hi ⊢
    generalize readOutcomes as = outs at hi ⊢
    generalize startTimes as = sts at hi ⊢
    obtain ⟨⟨ps, e1, e2, e3⟩, i2, i3, i4, i5, i6, i7⟩ := hi
    cases a with
    | start now =>
      m_cases hst
      rename_i hm hc
      have h0 := i2 [] (by rw [hm]; rfl)
      have ha := i6 (by rw [hm]; rfl)
      subst h0 ha
      obtain ⟨rfl, hp⟩ : ps = [] ∧ s.buf = [] := by simp at e1; simp [e1]
      rw [hm] at e3
      refine ⟨⟨[], ?_, ?_, ?_⟩, ?_, ?_, ?_, ?_, ?_, by simp [startTimes]⟩
      · simp [pending, hp, acceptedTicks]
      · simp [e2, readOutcomes]
      · simp only [inflight] at e3 ⊢
        generalize s.delivered ++ s.drained ++ [] = l at e3 ⊢
        cases e3; exact .nil
      · simp [startOf, startTimes]
      · simp [startTimes, acceptedTicks]
      · simp [startTimes, acceptedTicks]
      · exact i5
      · simp [acceptedTicks]
    | measure info =>
      m_cases hst
      rename_i st now hm
      have h0 := i2 [st] (by rw [hm]; rfl)
      subst h0
      rw [hm] at e1 e3
      simp only [acceptedTicks, startTimes, List.filterMap_cons, List.filterMap_nil, List.append_nil]
      refine ⟨⟨ps ++ [(now, info)], ?_, ?_, ?_⟩, ?_, i3, i4, i5, ?_, by simp⟩
      · simpa [pending] using e1
      · simp [e2, readOutcomes]
      · simp only [inflight, List.append_nil] at e3 ⊢
        refine List.rel_append e3 (.cons (isMeasurement_measure ?_) .nil)
        rw [e1] at i3
        simp at i3
        exact i3.1 now (.inr (.inl (by simp [pending])))
      · simp [startOf]
      · simp [phase]
    | take =>
      m_cases hst
      rename_i st now rest hm hb
      have h0 := i2 [st] (by rw [hm]; rfl)
      subst h0
      rw [hm] at e1 e3
      rw [hb] at e1
      simp only [acceptedTicks, startTimes, readOutcomes, List.filterMap_cons, List.filterMap_nil, List.append_nil]
      refine ⟨⟨ps, ?_, e2, ?_⟩, ?_, i3, i4, i5, ?_, by simp⟩
      · simpa [pending] using e1
      · simpa [inflight] using e3
      · simp [startOf]
      · simp [phase]
    | tickHand now =>
      m_cases hst
      rename_i st ht hm hb hc
      have h0 := i2 [st] (by rw [hm]; rfl)
      subst h0
      rw [hm] at e1 e3
      rw [hb] at e1
      simp only [acceptedTicks, startTimes, readOutcomes, List.filterMap_cons, List.filterMap_nil, List.append_nil]
      refine ⟨⟨ps, ?_, e2, ?_⟩, ?_, ?_, ?_, i5, ?_, by simp⟩
      · simp [pending, e1, hb]
      · simpa [inflight] using e3
      · simp [startOf]
      · rw [← List.append_assoc]; exact pairwise_snoc i3 i4 hc
      · intro t ht'
        rw [← List.append_assoc] at ht'
        rcases List.mem_append.1 ht' with h' | h'
        · exact Int.le_trans (i4 t h') hc
        · simp at h'; simp [h']
      · simp [phase]
    | tickBuffer now =>
      m_cases hst
      rename_i ht hc
      have hph : phase s.m ≠ 0 := by
        intro h0
        have := (hinv.setup h0).1
        simp [ht] at this
      simp only [acceptedTicks, startTimes, readOutcomes, List.filterMap_cons, List.filterMap_nil, List.append_nil]
      refine ⟨⟨ps, ?_, e2, e3⟩, i2, ?_, ?_, i5, fun h0 => absurd h0 hph, i7⟩
      · simp [e1]
      · rw [← List.append_assoc]; exact pairwise_snoc i3 i4 hc.1
      · intro t ht'
        rw [← List.append_assoc] at ht'
        rcases List.mem_append.1 ht' with h' | h'
        · exact Int.le_trans (i4 t h') hc.1
        · simp at h'; simp [h']
    | receive =>
      m_cases hst
      rename_i st m hm hs
      have h0 := i2 [st] (by rw [hm]; rfl)
      subst h0
      rw [hm] at e1 e3
      have hd := i5 (.inl hs)
      simp only [acceptedTicks, startTimes, readOutcomes, List.filterMap_cons, List.filterMap_nil, List.append_nil]
      refine ⟨⟨ps, by simpa [pending] using e1, e2, ?_⟩, by simp [startOf], i3, i4, i5, by simp [phase], by simp⟩
      simpa [inflight, hd] using e3
    | drain =>
      m_cases hst
      rename_i st m hm hs
      have h0 := i2 [st] (by rw [hm]; rfl)
      subst h0
      rw [hm] at e1 e3
      simp only [acceptedTicks, startTimes, readOutcomes, List.filterMap_cons, List.filterMap_nil, List.append_nil]
      refine ⟨⟨ps, by simpa [pending] using e1, e2, ?_⟩, by simp [startOf], i3, i4, by simp [hs], by simp [phase], by simp⟩
      simpa [inflight] using e3
    | exit =>
      m_cases hst
      rename_i st hm hb hc
      rw [hm] at e1 e3
      simp only [acceptedTicks, startTimes, readOutcomes, List.filterMap_cons, List.filterMap_nil, List.append_nil]
      exact ⟨⟨ps, by simpa [pending] using e1, e2, by simpa [inflight] using e3⟩, by simp [startOf], i3, i4, i5, by simp [phase], fun h0 => absurd (i7 h0) (by simp [hm])⟩
    | newTicker ok =>
      m_cases hst
      all_goals
        rename_i st hm hc
        have h0 := i2 [st] (by rw [hm]; rfl)
        rw [hm] at e1 e3
        simp only [acceptedTicks, startTimes, readOutcomes, List.filterMap_cons, List.filterMap_nil, List.append_nil]
        refine ⟨⟨ps, by simpa [pending] using e1, e2, by simpa [inflight] using e3⟩, ?_, i3, i4, i5, by simp [phase], fun h0 => absurd (i7 h0) (by simp [hm])⟩
        simp [startOf, h0]
    | assign =>
      m_cases hst
      rename_i st hm
      have h0 := i2 [st] (by rw [hm]; rfl)
      rw [hm] at e1 e3
      simp only [acceptedTicks, startTimes, readOutcomes, List.filterMap_cons, List.filterMap_nil, List.append_nil]
      refine ⟨⟨ps, by simpa [pending] using e1, e2, by simpa [inflight] using e3⟩, ?_, i3, i4, i5, by simp [phase], fun h0 => absurd (i7 h0) (by simp [hm])⟩
      simp [startOf, h0]
    | tickDrop now =>
      m_cases hst
      rename_i ht hc
      simp only [acceptedTicks, startTimes, readOutcomes, List.filterMap_cons, List.filterMap_nil, List.append_nil]
      exact ⟨⟨ps, e1, e2, e3⟩, i2, i3, fun t ht => Int.le_trans (i4 t ht) hc.1, i5, i6, i7⟩
    | _ =>
      m_cases hst
      all_goals
        simp only [acceptedTicks, startTimes, readOutcomes, List.filterMap_cons, List.filterMap_nil, List.append_nil]
        refine ⟨⟨ps, e1, e2, e3⟩, i2, i3, i4, ?_, i6, i7⟩
        grind

/-- C50, C51: what the sender receives, before and after it calls `Stop`, are the measurements for the ticks that got through, each of
them once and in their order, with the statistics read for that tick. -/
theorem C51_measurements (h : (measurer c).Reaches as s) :
    ∃ ps : List (Int × Except Err (BbrInfo × TcpInfo)), ps.map Prod.fst <+: acceptedTicks as ∧ ps.map Prod.snd <+: readOutcomes as ∧
      List.Forall₂ (IsMeasurement c ((startTimes as).headD 0)) ps (s.delivered ++ s.drained) := by
  obtain ⟨⟨ps, e1, e2, e3⟩, -, -, -, -, -, -⟩ := hist h
  have hlen := e3.length_eq
  refine ⟨ps.take (s.delivered ++ s.drained).length, ?_, ?_, ?_⟩
  · rw [e1, List.append_assoc, List.map_take]
    exact (List.take_prefix _ _).trans (List.prefix_append _ _)
  · rw [e2, List.map_take]; exact List.take_prefix _ _
  · have := List.forall₂_take (s.delivered ++ s.drained).length e3
    rwa [List.take_left] at this

/-- C51: no tick gets through before the measurer has read the start time, and none is earlier than it. -/
theorem C51_ticks_after_start (h : (measurer c).Reaches as s) {t : Int} (ht : t ∈ acceptedTicks as) : ∃ st rest, startTimes as = st :: rest ∧ st ≤ t := by
  obtain ⟨-, -, i3, -, -, i6, i7⟩ := hist h
  cases hst : startTimes as with
  | nil =>
    rw [i6 (by rw [i7 hst]; rfl)] at ht
    simp at ht
  | cons a rest =>
    rw [hst] at i3
    simp at i3
    exact ⟨a, rest, rfl, i3.1 t (.inr ht)⟩

/-- C51: elapsed times never decrease, and are not negative. -/
theorem C51_elapsed_monotone (h : (measurer c).Reaches as s) :
    (s.delivered ++ s.drained).Pairwise (fun m m' => ∀ x y, m.tcp = some x → m'.tcp = some y → x.elapsed ≤ y.elapsed) ∧
    ∀ m ∈ s.delivered ++ s.drained, ∀ x, m.tcp = some x → 0 ≤ x.elapsed := by
  obtain ⟨ps, h1, -, h3⟩ := C51_measurements h
  obtain ⟨⟨qs, e1, e2, e3⟩, i2, i3, -, -, i6, i7⟩ := hist h
  have hsorted : (ps.map Prod.fst).Pairwise (· ≤ ·) := (List.pairwise_append.1 i3).2.1.sublist h1.sublist
  have hne : ∀ t ∈ ps.map Prod.fst, (startTimes as).headD 0 ≤ t := by
    intro t ht
    have hacc : t ∈ acceptedTicks as := h1.subset ht
    cases hst : startTimes as with
    | nil =>
      rw [i6 (by rw [i7 hst]; rfl)] at hacc
      simp at hacc
    | cons a rest =>
      rw [hst] at i3
      simp at i3
      simp
      exact i3.1 t (.inr hacc)
  generalize s.delivered ++ s.drained = ms at h3
  generalize (startTimes as).headD 0 = st at *
  have key : ∀ {p m x}, IsMeasurement c st p m → m.tcp = some x → 1000 * x.elapsed ≤ p.1 - st ∧ p.1 - st < 1000 * (x.elapsed + 1) := by
    intro p m x hm hx
    obtain ⟨p1, p2⟩ := p
    cases p2 with
    | error e => rw [(hm.error e rfl).2] at hx; cases hx
    | ok bt =>
      obtain ⟨us, -, h5, h6⟩ := hm.ok bt.1 bt.2 rfl
      rw [h5] at hx
      cases hx
      exact h6
  clear h1 e1 e2 e3 i2 i3 i6 i7
  induction h3 with
  | nil => simp
  | cons hm hrest ih =>
    rename_i p m ps ms
    simp only [List.map_cons, List.pairwise_cons, List.mem_cons, forall_eq_or_imp] at hsorted hne
    obtain ⟨ih1, ih2⟩ := ih hsorted.2 hne.2
    refine ⟨List.pairwise_cons.2 ⟨?_, ih1⟩, ?_⟩
    · intro m' hm' x y hx hy
      obtain ⟨p', hp', hpm'⟩ : ∃ p' ∈ ps, IsMeasurement c st p' m' := by
        clear ih ih1 ih2 hsorted hne
        induction hrest with
        | nil => simp at hm'
        | cons hr _ ih =>
          rcases List.mem_cons.1 hm' with rfl | hm'
          · exact ⟨_, by simp, hr⟩
          · obtain ⟨p', hp', h'⟩ := ih hm'; exact ⟨p', by simp [hp'], h'⟩
      have h4 := key hm hx
      have h5 := key hpm' hy
      have h6 := hsorted.1 p'.1 (List.mem_map_of_mem hp')
      omega
    · intro m' hm' x hx
      rcases List.mem_cons.1 hm' with rfl | hm'
      · have h4 := key hm hx
        have h5 := hne.1
        omega
      · exact ih2 m' hm' x hx

/-! ## An execution -/

/-- Unbuffered ticker, as in the library. -/
def exMeasurer : MConfig := { client := str "client", server := str "server", uuid := str "uuid", cap := 0 }

/-- Two measurements are delivered, one tick is lost, and `Stop` is called while a third measurement is on its way; the ticker
fires once more after it was stopped. -/
def exActs : List MAct :=
  [.start 1000, .newTicker true, .assign, .check, .tickHand 251999, .measure (.error []), .receive, .check, .tickHand 501000,
    .measure (.error []), .receive, .check, .tickHand 600000, .check, .measure (.error []), .tickDrop 700000, .check, .stop, .lookAtTicker,
    .cancelTicker, .tickDrop 800000, .check, .drain, .exit, .drained]

example : ∃ s, (measurer exMeasurer).Reaches exActs s ∧ MFinished s ∧ s.delivered.length = 2 ∧ s.drained.length = 1 ∧ s.stopped = true :=
  ⟨_, rfl, ⟨rfl, .inl rfl, rfl, rfl⟩, rfl, rfl, rfl⟩

example : acceptedTicks exActs = [251999, 501000, 600000] ∧ startTimes exActs = [1000] := by decide +kernel

/-- The hypotheses of `C71_stop_is_prompt_partial`. -/
example : ∃ s1 s2, (measurer exMeasurer).Reaches (exActs.take 17 ++ [.stop]) s1 ∧ s1.ticker = true ∧
    (measurer exMeasurer).runFrom s1 [.lookAtTicker, .cancelTicker] = some s2 ∧ s2.s = .draining ∧
    ∃ s3, (measurer exMeasurer).runFrom s2 [.tickDrop 800000, .check, .drain, .exit, .drained] = some s3 :=
  ⟨_, _, rfl, rfl, rfl, rfl, _, rfl⟩

/-- The same without `Stop`: the timeout ends everything. -/
example : ∃ s, (measurer exMeasurer).Reaches [.start 0, .newTicker true, .assign, .check, .expire, .wakeUp, .check, .exit, .stop, .lookAtTicker,
    .cancelTicker, .drained] s ∧ MFinished s := ⟨_, rfl, ⟨rfl, .inl rfl, rfl, rfl⟩⟩

/-- A measurement with statistics, 250.999 microseconds after the start. -/
example (b : BbrInfo) (t : TcpInfo) : ∃ m, IsMeasurement exMeasurer 1000 (251999, .ok (b, t)) m ∧ m.tcp = some ⟨t, 250⟩ :=
  ⟨_, isMeasurement_measure (by decide), rfl⟩

end Verif.Props
