import Verif.Ndt7.Pacing
import Verif.Props.Ndt7TestFile

/-!
# C107: the measurements of the server are paced
-/

namespace Verif.Props
open Verif.Go Verif.Ndt7 Verif.Ndt5

variable {c : MConfig} {p : Sampling}

/-! ## The configuration -/

/-- C107: the ticker accepts its configuration, so that the measurer always gets to measure. -/
theorem C107_accepted {as : List PAct} {s : PState} (h : (pacedMeasurer c sampling).Reaches as s) : .newTicker false ∉ as.map PAct.act := by
  refine LTS.invariant (P := fun as _ => MAct.newTicker false ∉ as.map PAct.act) (by simp) ?_ h
  intro as s a s' _ hi hst
  simp only [List.map_append, List.mem_append, not_or, List.map_cons, List.map_nil, List.mem_singleton]
  refine ⟨hi, fun ha => ?_⟩
  simp only [pacedMeasurer, pStep, ← ha] at hst
  cases hm : mStep c s.m (.newTicker false) with
  | none => rw [hm] at hst; cases hst
  | some m => rw [hm] at hst; simp [sampling, Sampling.ok] at hst

/-- C107: every wait takes between 25 and 625 milliseconds, and as long as was drawn if that is in this range. -/
theorem C107_wait (draw : Int) :
    25 * 1000000 ≤ sampling.wait draw ∧ sampling.wait draw ≤ 625 * 1000000 ∧ (25 * 1000000 ≤ draw → draw ≤ 625 * 1000000 → sampling.wait draw = draw) := by
  by_cases h1 : draw < 25000000 <;> by_cases h2 : 625000000 < draw <;> simp [sampling, Sampling.wait, h1, h2] <;> omega

/-! ## Executions -/

/-- With its timer the measurer does nothing it could not do without. -/
theorem paced_measurer {as : List PAct} {s : PState} (h : (pacedMeasurer c p).Reaches as s) : (measurer c).Reaches (as.map PAct.act) s.m := by
  refine LTS.invariant (T := pacedMeasurer c p) (P := fun as s => (measurer c).Reaches (as.map PAct.act) s.m) rfl ?_ h
  intro as s a s' _ hi hst
  rw [List.map_append]
  refine LTS.reaches_snoc.2 ⟨_, hi, ?_⟩
  simp only [pacedMeasurer, pStep] at hst
  cases hm : mStep c s.m a.act with
  | none => rw [hm] at hst; cases hst
  | some m =>
    rw [hm] at hst
    have : s'.m = m := by
      simp only [Option.bind_some] at hst
      repeat' split at hst
      all_goals first | (cases hst; done) | (cases hst; rfl)
    rw [this]; exact hm

private theorem timer {as : List PAct} {s : PState} (h : (pacedMeasurer c sampling).Reaches as s) :
    (s.m.m = .setup → s.m.t = .none) ∧ (s.m.t = .waiting → s.m.clock ≤ s.armed ∧ s.armed + 25 * 1000000 ≤ s.due ∧ s.due ≤ s.armed + 625 * 1000000) := by
  refine LTS.state_invariant (T := pacedMeasurer c sampling)
    (P := fun s => (s.m.m = .setup → s.m.t = .none) ∧ (s.m.t = .waiting → s.m.clock ≤ s.armed ∧ s.armed + 25 * 1000000 ≤ s.due ∧ s.due ≤ s.armed + 625 * 1000000)) ?_ ?_ h
  · simp [pacedMeasurer]
  · intro s a s' hi hst
    obtain ⟨i1, i2⟩ := hi
    obtain ⟨a, arm, draw⟩ := a
    have hwt := C107_wait draw
    cases a <;> simp only [pacedMeasurer, pStep, mStep] at hst
    all_goals (repeat' split at hst)
    all_goals try (simp at hst; done)
    all_goals simp only [Option.bind_some] at hst
    all_goals (repeat' split at hst)
    all_goals first | (cases hst; done) | (simp only [Option.some.injEq] at hst; subst hst)
    all_goals simp_all

/-- C107: while the ticker waits, its timer was started for 25 to 625 milliseconds, and not before the tick (or start) before it. -/
theorem C107_timer {as : List PAct} {s : PState} (h : (pacedMeasurer c sampling).Reaches as s) (hw : s.m.t = .waiting) :
    s.m.clock ≤ s.armed ∧ s.armed + 25 * 1000000 ≤ s.due ∧ s.due ≤ s.armed + 625 * 1000000 := (timer h).2 hw

/-- The start and the ticks that get through are apart. -/
private theorem apart {as : List PAct} {s : PState} (h : (pacedMeasurer c sampling).Reaches as s) :
    (startTimes (as.map PAct.act) ++ acceptedTicks (as.map PAct.act)).Pairwise (fun a b => a + 25000000 ≤ b) ∧
    (∀ t ∈ startTimes (as.map PAct.act) ++ acceptedTicks (as.map PAct.act), t ≤ s.m.clock) ∧
    (s.m.m = .setup → startTimes (as.map PAct.act) = [] ∧ acceptedTicks (as.map PAct.act) = []) := by
  refine LTS.invariant (T := pacedMeasurer c sampling) (P := fun as s => (startTimes (as.map PAct.act) ++ acceptedTicks (as.map PAct.act)).Pairwise (fun a b => a + 25000000 ≤ b) ∧
    (∀ t ∈ startTimes (as.map PAct.act) ++ acceptedTicks (as.map PAct.act), t ≤ s.m.clock) ∧
    (s.m.m = .setup → startTimes (as.map PAct.act) = [] ∧ acceptedTicks (as.map PAct.act) = [])) (by simp [startTimes, acceptedTicks]) ?_ h
  intro as s a s' hr hi hst
  have ht := C107_timer hr
  have ht0 := (timer hr).1
  rw [List.map_append, show startTimes (as.map PAct.act ++ [a].map PAct.act) = startTimes (as.map PAct.act) ++ startTimes [a.act] by simp [startTimes],
    show acceptedTicks (as.map PAct.act ++ [a].map PAct.act) = acceptedTicks (as.map PAct.act) ++ acceptedTicks [a.act] by simp [acceptedTicks]]
  generalize startTimes (as.map PAct.act) = sts at *
  generalize acceptedTicks (as.map PAct.act) = acc at *
  obtain ⟨i1, i2, i3⟩ := hi
  have htick : ∀ now : Int, s.m.t = .waiting → s.due ≤ now → (sts ++ (acc ++ [now])).Pairwise (fun a b => a + 25000000 ≤ b) := by
    intro now hw hd
    rw [← List.append_assoc, List.pairwise_append]
    refine ⟨i1, by simp, ?_⟩
    intro a ha b hb
    rw [List.mem_singleton.1 hb]
    have := i2 a ha
    have := ht hw
    omega
  have hle : ∀ now : Int, s.m.clock ≤ now → ∀ t ∈ sts ++ (acc ++ [now]), t ≤ now := by
    intro now hc t ht
    rw [← List.append_assoc, List.mem_append] at ht
    rcases ht with ht | ht
    · have := i2 t ht; omega
    · rw [List.mem_singleton.1 ht]
  obtain ⟨a, arm, draw⟩ := a
  cases a <;> simp only [pacedMeasurer, pStep, mStep] at hst
  all_goals (repeat' split at hst)
  all_goals try (simp at hst; done)
  all_goals simp only [Option.bind_some] at hst
  all_goals (repeat' split at hst)
  all_goals first | (cases hst; done) | (simp only [Option.some.injEq] at hst; subst hst)
  all_goals simp only [startTimes, acceptedTicks, List.filterMap_cons, List.filterMap_nil, List.append_nil]
  all_goals first
    | exact ⟨i1, i2, i3⟩
    | exact ⟨i1, i2, by simp⟩
    | exact ⟨htick _ (by assumption) (by assumption), hle _ (by simp_all), by simp_all⟩
    | exact ⟨i1, fun t ht => Int.le_trans (i2 t ht) (by simp_all), i3⟩
    | (rename_i hm hc
       obtain ⟨rfl, rfl⟩ := i3 hm
       simp)

/-- In a list whose elements are `d` apart, those at `i < j` are `(j - i) * d` apart. -/
private theorem apart_index {d : Int} {l : List Int} (h : l.Pairwise (fun a b => a + d ≤ b)) :
    ∀ (n i : Nat) {a b : Int}, l[i]? = some a → l[i + n]? = some b → a + d * n ≤ b := by
  intro n
  induction n with
  | zero => intro i a b h1 h2; rw [Nat.add_zero, h1] at h2; cases h2; simp
  | succ n ih =>
    intro i a b h1 h2
    have hlen : i + (n + 1) < l.length := by
      by_contra hc
      rw [List.getElem?_eq_none (by omega)] at h2; cases h2
    have h3 := ih i h1 (List.getElem?_eq_getElem (show i + n < l.length by omega))
    rw [List.getElem?_eq_getElem hlen] at h2
    cases h2
    have := (List.pairwise_iff_getElem.1 h) (i + n) (i + (n + 1)) (by omega) hlen (by omega)
    push_cast
    rw [Int.mul_add, Int.mul_one]
    omega

private theorem elapsed_of {st : Int} {q : Int × Except Err (Netx.BbrInfo × TcpInfo)} {m : Measurement} {x}
    (hm : IsMeasurement c st q m) (hx : m.tcp = some x) : 1000 * x.elapsed ≤ q.1 - st ∧ q.1 - st < 1000 * (x.elapsed + 1) := by
  obtain ⟨p1, p2⟩ := q
  cases p2 with
  | error e => rw [(hm.error e rfl).2] at hx; cases hx
  | ok bt =>
    obtain ⟨us, -, h5, h6⟩ := hm.ok bt.1 bt.2 rfl
    rw [h5] at hx
    cases hx
    exact h6

/-- The elapsed times (in microseconds) of these measurements are at least 25 ms apart for every step from one to a later one, and from the start to the first. -/
def PacedMeasurements (ms : List Measurement) : Prop :=
  (∀ (i : Nat) m x, ms[i]? = some m → m.tcp = some x → 25000 * ((i : Int) + 1) ≤ x.elapsed) ∧
  ∀ (i j : Nat) m m' x y, i ≤ j → ms[i]? = some m → ms[j]? = some m' → m.tcp = some x → m'.tcp = some y → x.elapsed + 25000 * ((j : Int) - i) ≤ y.elapsed

private theorem paced_of {st : Int} {acc : List Int} {ps : List (Int × Except Err (Netx.BbrInfo × TcpInfo))} {ms : List Measurement}
    (h1 : ps.map Prod.fst <+: acc) (h2 : (st :: acc).Pairwise (fun a b => a + 25000000 ≤ b)) (h3 : List.Forall₂ (IsMeasurement c st) ps ms) : PacedMeasurements ms := by
  have hp : (st :: ps.map Prod.fst).Pairwise (fun a b => a + 25000000 ≤ b) := h2.sublist (h1.sublist.cons_cons st)
  have get : ∀ (i : Nat) m, ms[i]? = some m → ∃ q, ps[i]? = some q ∧ IsMeasurement c st q m := by
    intro i m hm
    have hi : i < ms.length := by
      by_contra hc
      rw [List.getElem?_eq_none (by omega)] at hm; cases hm
    rw [List.getElem?_eq_getElem hi] at hm
    cases hm
    have hi' : i < ps.length := by rw [h3.length_eq]; exact hi
    exact ⟨ps[i], List.getElem?_eq_getElem hi', (List.forall₂_iff_get.1 h3).2 i hi' hi⟩
  constructor
  · intro i m x hm hx
    obtain ⟨q, hq, hqm⟩ := get i m hm
    have he := elapsed_of hqm hx
    have := apart_index hp (i + 1) 0 (a := st) (b := q.1) rfl (by simp [hq])
    push_cast at this
    omega
  · intro i j m m' x y hij hm hm' hx hy
    obtain ⟨q, hq, hqm⟩ := get i m hm
    obtain ⟨q', hq', hqm'⟩ := get j m' hm'
    have he := elapsed_of hqm hx
    have he' := elapsed_of hqm' hy
    have := apart_index hp (j - i) (i + 1) (a := q.1) (b := q'.1) (by simp [hq]) (by
      rw [show i + 1 + (j - i) = j + 1 by omega]
      simp [hq'])
    push_cast [hij] at this
    omega

private theorem apart_cons {as : List PAct} {s : PState} (h : (pacedMeasurer c sampling).Reaches as s) :
    ((startTimes (as.map PAct.act)).headD 0 :: acceptedTicks (as.map PAct.act)).Pairwise (fun a b => a + 25000000 ≤ b) := by
  have h1 := (apart h).1
  cases hst : startTimes (as.map PAct.act) with
  | nil =>
    cases hacc : acceptedTicks (as.map PAct.act) with
    | nil => simp
    | cons t l =>
      obtain ⟨st, rest, h2, -⟩ := C51_ticks_after_start (paced_measurer h) (t := t) (by rw [hacc]; simp)
      rw [hst] at h2; cases h2
  | cons a rest =>
    rw [hst] at h1
    exact h1.sublist (by simp)

/-- C107: the measurements that reach the sender are at least 25 milliseconds apart, and the first one is taken at least 25 milliseconds after the start. -/
theorem C107_paced {as : List PAct} {s : PState} (h : (pacedMeasurer c sampling).Reaches as s) :
    (∀ (i : Nat) m x, (s.m.delivered ++ s.m.drained)[i]? = some m → m.tcp = some x → 25000 * ((i : Int) + 1) ≤ x.elapsed) ∧
    ∀ (i j : Nat) m m' x y, i ≤ j → (s.m.delivered ++ s.m.drained)[i]? = some m → (s.m.delivered ++ s.m.drained)[j]? = some m' →
      m.tcp = some x → m'.tcp = some y → x.elapsed + 25000 * ((j : Int) - i) ≤ y.elapsed := by
  obtain ⟨ps, h1, -, h3⟩ := C51_measurements (paced_measurer h)
  exact paced_of h1 (apart_cons h) h3

/-- C107: the same in the record of a subtest. As its measurer is paced, so are the measurements of the server in the record. -/
theorem C107_record {c : TestCfg} {as : List TAct} {s : TestState} (h : (test c).Reaches as s) {pas : List PAct} {ps : PState} (hp : (pacedMeasurer c.m sampling).Reaches pas ps)
    (ha : pas.map PAct.act = as.flatMap toM) {e : SubtestEnd} (hf : s.file = some e) : PacedMeasurements e.serverMeasurements := by
  obtain ⟨-, ⟨qs, h1, -, h3⟩, -⟩ := C91_server_measurements h hf
  rw [← ha] at h1 h3
  exact paced_of h1 (apart_cons hp) h3

/-- C107: if the statistics could be read for the last measurement in the record, and it was taken after at most `t` milliseconds, there are at most `t / 25` measurements: no more than 400 in the ten seconds
of a subtest. -/
theorem C107_count {ms : List Measurement} (h : PacedMeasurements ms) {m : Measurement} {x} (hm : ms.getLast? = some m) (hx : m.tcp = some x) {t : Int} (ht : x.elapsed ≤ 1000 * t) :
    (ms.length : Int) ≤ t / 25 := by
  rw [List.getLast?_eq_getElem?] at hm
  have hlen : 0 < ms.length := by
    by_contra hc
    rw [List.getElem?_eq_none (by omega)] at hm; cases hm
  have := h.1 _ _ _ hm hx
  omega

/-! ## An execution -/

/-- The steps of a download. The second wait is drawn too short and the third too long, and the third tick comes 5 ms late. -/
def exPacedTest : List TAct :=
  [.measurer (.start 5000000), .prepare none, .rxDeadline none, .measurer (.newTicker true), .deadline none, .measurer .assign, .stamp 5000007, .measurer .check, .bulk none none, .rxCheck,
   .measurer (.tickHand 255000000), .measurer (.measure (.ok ({}, {}))), .receive, .output none none, .bulk none none, .measurer .check,
   .measurer (.tickHand 280000000), .measurer (.measure (.error (str "EBADF"))), .receive, .output none none, .measurer .check,
   .measurer (.tickHand 910000000), .measurer (.measure (.ok ({}, {}))), .receive, .output none none,
   .ctxEnd, .measurer .expire, .measurer .check, .measurer .exit, .closed, .rxNext [] (.broken (str "closed")), .finish 990000000, .stopping .lookAtTicker, .stopping .cancelTicker, .stopping .drained, .received, .write]

/-- What its measurer does. -/
def exPaced : List PAct :=
  [⟨.start 5000000, 0, 0⟩, ⟨.newTicker true, 0, 0⟩, ⟨.assign, 0, 0⟩, ⟨.check, 5000000, 250000000⟩, ⟨.tickHand 255000000, 0, 0⟩, ⟨.measure (.ok ({}, {})), 0, 0⟩, ⟨.receive, 0, 0⟩,
   ⟨.check, 255000000, 1⟩, ⟨.tickHand 280000000, 0, 0⟩, ⟨.measure (.error (str "EBADF")), 0, 0⟩, ⟨.receive, 0, 0⟩,
   ⟨.check, 280000000, 900000000⟩, ⟨.tickHand 910000000, 0, 0⟩, ⟨.measure (.ok ({}, {})), 0, 0⟩, ⟨.receive, 0, 0⟩,
   ⟨.expire, 0, 0⟩, ⟨.check, 0, 0⟩, ⟨.exit, 0, 0⟩, ⟨.stop, 0, 0⟩, ⟨.lookAtTicker, 0, 0⟩, ⟨.cancelTicker, 0, 0⟩, ⟨.drained, 0, 0⟩]

example : ∃ s ps e, (test exTestCfg).Reaches exPacedTest s ∧ (pacedMeasurer exTestCfg.m sampling).Reaches exPaced ps ∧ exPaced.map PAct.act = exPacedTest.flatMap toM ∧ s.file = some e ∧
    e.serverMeasurements.map (fun m => m.tcp.map (·.elapsed)) = [some 250000, none, some 905000] :=
  ⟨_, _, _, rfl, rfl, rfl, rfl, rfl⟩

/-- A tick that comes 24 ms after the one before it is not one of this ticker. -/
example : (pacedMeasurer exTestCfg.m sampling).runFrom {} (exPaced.take 8 ++ [⟨.tickHand 279000000, 0, 0⟩]) = none := rfl

end Verif.Props
