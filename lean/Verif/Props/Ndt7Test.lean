import Verif.Ndt7.Test
import Verif.Props.Ndt7Measurer
import Verif.Props.Ndt7Receiver
import Verif.Props.Ndt7Sender

/-!
# A whole ndt7 subtest (C91)
-/

namespace Verif.Props
open Verif.Go Verif.Ndt7 Verif.Spec

variable {c : TestCfg} {as : List TAct} {s : TestState}

macro "t_cases" h:ident hm:ident : tactic => `(tactic| (
  simp only [test, testStep] at $h:ident
  repeat' split at $h:ident
  all_goals first
    | (cases $h:ident; done)
    | (simp only [Option.some.injEq] at $h:ident; subst $h:ident)
    | (rw [Option.map_eq_some_iff] at $h:ident; obtain ⟨m', $hm:ident, h2⟩ := $h:ident; subst h2)))

/-! ## The measurer in the test -/

/-- What a step of the test is for the measurer. -/
def toM : TAct → List MAct
  | .measurer a => [a]
  | .prepare (some _) => [.stop]
  | .deadline (some _) => [.stop]
  | .finish _ => [.stop]
  | .receive => [.receive]
  | .stopping a => [a]
  | _ => []

/-- The measurer behaves in the test as in its own model. -/
theorem test_measurer (h : (test c).Reaches as s) : (measurer c.m).Reaches (as.flatMap toM) s.m := by
  refine LTS.invariant (P := fun as s => (measurer c.m).Reaches (as.flatMap toM) s.m) ?_ ?_ h
  · cases hk : c.kind <;> simp [test, hk] <;> rfl
  · intro as s a s' _ hi hst
    rw [List.flatMap_append]
    have key : ∀ x m', mStep c.m s.m x = some m' → (measurer c.m).Reaches (as.flatMap toM ++ [x]) m' := fun x m' hx => LTS.reaches_snoc.2 ⟨_, hi, hx⟩
    cases a <;> t_cases hst hm'
    all_goals simp only [List.flatMap_cons, List.flatMap_nil, toM, List.append_nil]
    all_goals first
      | exact hi
      | exact key _ _ hm'

/-! ## The sender in the test -/

/-- The sender of this test has done this and recorded this, and has returned `res` if it has returned. -/
def Ran (c : TestCfg) (sent : List SendEv) (server : List Measurement) (res : Option (Option Err)) : Prop :=
  match c.kind with
  | .download => ∃ prepare deadline as, downloadSender c.params prepare deadline as = (sent, server, res)
  | .upload => ∃ deadline as, uploadSender deadline as = (sent, server, res)

theorem Ran.run {sent : List SendEv} {server : List Measurement} {res : Option (Option Err)} (h : Ran c sent server res) : SenderRun c.kind sent server res := by
  unfold Ran at h
  split at h
  · rename_i hk
    obtain ⟨p, d, as, h⟩ := h
    rw [hk]
    exact .download _ _ _ _ h
  · rename_i hk
    obtain ⟨d, as, h⟩ := h
    rw [hk]
    exact .upload _ _ h

/-- What was done before the loop. -/
private def before : Subtest → List SendEv
  | .download => [.prepare (2 ^ 13) none]
  | .upload => []

private theorem runScript_snoc {A E σ R : Type} {step : σ → A → Iter E σ R} : ∀ {as : List A} {s s1 : σ} {e1 : List E}, runScript step s as = (e1, s1, none) →
    ∀ a, runScript step s (as ++ [a]) = (e1 ++ (step s1 a).1, (step s1 a).2)
  | [], s, s1, e1, h, a => by
    simp only [runScript, Prod.mk.injEq] at h
    obtain ⟨rfl, rfl, -⟩ := h
    simp only [List.nil_append, runScript]
    split <;> (rename_i hx; rw [hx])
    simp
  | b :: bs, s, s1, e1, h, a => by
    rw [runScript] at h
    rw [List.cons_append, runScript]
    split at h
    · simp at h
    · rename_i e2 s2 h2
      simp only [Prod.mk.injEq] at h
      obtain ⟨rfl, h3⟩ := h
      rw [runScript_snoc (e1 := (runScript step s2 bs).1) (s1 := s1) (Prod.ext rfl h3) a]
      simp

/-- The loop of the sender has these variables. -/
private def Looping (c : TestCfg) (sent : List SendEv) (l : DlState) : Prop :=
  match c.kind with
  | .download => ∃ as evs, runScript (dlStep c.params) loopStart as = (evs, l, none) ∧ sent = .prepare (2 ^ 13) none :: .setDeadline none :: evs
  | .upload => ∃ as evs, runScript ulStep [] as = (evs, l.recorded, none) ∧ sent = .setDeadline none :: evs

/-- An iteration. -/
private theorem Looping.step {sent : List SendEv} {l : DlState} (h : Looping c sent l) (a : DlAns) (ha : c.kind = .upload → ∀ w p, a ≠ .bulk w p) :
    match sendStep c l a with
    | (evs, l', none) => Looping c (sent ++ evs) l'
    | (evs, l', some r) => Ran c (sent ++ evs) l'.recorded (some r) := by
  unfold Looping at h
  cases hk : c.kind with
  | download =>
    simp only [hk] at h
    obtain ⟨as, evs, h1, rfl⟩ := h
    have h2 := runScript_snoc h1 a
    simp only [sendStep, hk]
    split
    · rename_i e l' h3
      rw [h3] at h2
      simp only [Looping, hk]
      exact ⟨_, _, h2, by simp⟩
    · rename_i e l' r h3
      rw [h3] at h2
      simp only [Ran, hk]
      refine ⟨none, none, as ++ [a], ?_⟩
      have h4 : downloadSender c.params none none (as ++ [a]) = (.prepare (2 ^ 13) none :: .setDeadline none :: (runScript (dlStep c.params) loopStart (as ++ [a])).1,
          (runScript (dlStep c.params) loopStart (as ++ [a])).2.1.recorded, (runScript (dlStep c.params) loopStart (as ++ [a])).2.2) := rfl
      rw [h4, h2]
      simp
  | upload =>
    simp only [hk] at h
    obtain ⟨as, evs, h1, rfl⟩ := h
    have key : ∀ b : UlAns, (∀ w p, a ≠ .bulk w p) → sendStep c l a = ((ulStep l.recorded b).1, { l with recorded := (ulStep l.recorded b).2.1 }, (ulStep l.recorded b).2.2) →
        match sendStep c l a with
        | (evs', l', none) => Looping c (.setDeadline none :: evs ++ evs') l'
        | (evs', l', some r) => Ran c (.setDeadline none :: evs ++ evs') l'.recorded (some r) := by
      intro b _ hb
      rw [hb]
      have h2 := runScript_snoc h1 b
      cases h4 : (ulStep l.recorded b).2.2 with
      | none =>
        simp only [Looping, hk]
        refine ⟨_, _, h2.trans ?_, by simp; rfl⟩
        rw [← h4]
      | some r =>
        simp only [Ran, hk]
        refine ⟨none, as ++ [b], ?_⟩
        simp only [uploadSender, h2, h4]
        simp
    cases a with
    | measurement m j p => exact key (.measurement m j p) (by simp) (by simp only [sendStep, hk])
    | closed => exact key .closed (by simp) (by simp only [sendStep, hk])
    | bulk w p => exact absurd rfl (ha hk w p)

private def SInv (c : TestCfg) (s : TestState) : Prop :=
  match s.pos with
  | .prepare => c.kind = .download ∧ s.sent = [] ∧ s.server = []
  | .deadline => s.sent = before c.kind ∧ s.server = []
  | .stamp => s.sent = before c.kind ++ [.setDeadline none] ∧ s.server = []
  | .loop l => Looping c s.sent l ∧ s.server = l.recorded
  | .got l _ => Looping c s.sent l ∧ s.server = l.recorded
  | .leaving r | .stopping r | .waiting r | .returned r => Ran c s.sent s.server (some r)
  | .written => ∃ e, s.file = some e ∧ e.crash = none ∧ e.serverMeasurements = s.server ∧ e.startTime = s.startTime ∧ e.endTime = s.endTime ∧ Ran c s.sent s.server (some e.err)

private theorem iterated_inv {l : DlState} {a : DlAns} (h : Looping c s.sent l) (ha : c.kind = .upload → ∀ w p, a ≠ .bulk w p) : SInv c (s.iterated (sendStep c l a)) := by
  have := h.step a ha
  unfold SInv TestState.iterated
  split at this
  · rename_i hx
    rw [hx]
    exact ⟨this, rfl⟩
  · rename_i hx
    rw [hx]
    exact this

private theorem sinv (h : (test c).Reaches as s) : SInv c s := by
  refine LTS.state_invariant (P := SInv c) ?_ ?_ h
  · cases hk : c.kind <;> simp [test, hk, SInv, before]
  · intro s a s' hi hst
    cases a <;> t_cases hst hm'
    all_goals first
      | exact hi
      | skip
    · rename_i hp
      simp only [SInv, hp] at hi
      simp [SInv, before, hi]
    · rename_i e hp _
      simp only [SInv, hp] at hi
      obtain ⟨hk, h1, h2⟩ := hi
      simp only [SInv, Ran, hk, h1, h2]
      exact ⟨some e, none, [], rfl⟩
    · rename_i hp
      simp only [SInv, hp] at hi
      simp [SInv, hi]
    · rename_i e hp _
      simp only [SInv, hp] at hi
      obtain ⟨h1, h2⟩ := hi
      cases hk : c.kind
      · simp only [SInv, Ran, hk, h1, h2]
        exact ⟨none, some e, [], rfl⟩
      · simp only [SInv, Ran, hk, h1, h2]
        exact ⟨some e, [], rfl⟩
    · rename_i hp _
      simp only [SInv, hp] at hi
      obtain ⟨h1, h2⟩ := hi
      refine ⟨?_, h2⟩
      cases hk : c.kind <;> simp only [Looping, hk, h1, before] <;> exact ⟨[], [], rfl, rfl⟩
    · rename_i hp _ _
      simp only [SInv, hp] at hi
      exact hi
    · rename_i hp
      simp only [SInv, hp] at hi
      exact iterated_inv hi.1 (by simp)
    · rename_i hp _
      simp only [SInv, hp] at hi
      exact iterated_inv hi.1 (by simp)
    · rename_i hp hk _ _
      simp only [SInv, hp] at hi
      exact iterated_inv hi.1 (by simp [hk])
    · rename_i hp _ _
      simp only [SInv, hp] at hi
      exact hi
    · rename_i hp _ m'
      simp only [SInv, hp] at hi
      by_cases hd : m'.s = .done
      · simpa only [SInv, if_pos hd] using hi
      · simpa only [SInv, if_neg hd] using hi
    · rename_i hp _
      simp only [SInv, hp] at hi
      exact hi
    · rename_i hp
      simp only [SInv, hp] at hi
      exact ⟨_, rfl, rfl, rfl, rfl, rfl, hi⟩

/-! ## What the sender received -/

/-- Received measurements: all were sent to the client, except the last one if sending failed. -/
private def Nearly (delivered server : List Measurement) : Prop := delivered = server ∨ ∃ x, delivered = server ++ [x]

private def DInv (s : TestState) : Prop :=
  match s.pos with
  | .prepare | .deadline | .stamp => s.m.s = .running ∧ s.m.delivered = [] ∧ s.server = []
  | .loop l => s.m.s = .running ∧ s.m.delivered = l.recorded ∧ s.server = l.recorded
  | .got l x => s.m.s = .running ∧ s.m.delivered = l.recorded ++ [x] ∧ s.server = l.recorded
  | .leaving _ => s.m.s = .running ∧ Nearly s.m.delivered s.server
  | .stopping _ => s.m.s ≠ .running ∧ s.m.s ≠ .done ∧ Nearly s.m.delivered s.server
  | .waiting _ | .returned _ | .written => s.m.s = .done ∧ Nearly s.m.delivered s.server

private theorem own_keeps {m m' : MState} {a : MAct} (ha : a.own = true) (h : mStep c.m m a = some m') : m'.s = m.s ∧ m'.delivered = m.delivered := by
  cases a <;> simp only [MAct.own] at ha
  all_goals m_cases h
  all_goals first | exact ⟨rfl, rfl⟩ | (cases ha)

private theorem ofStop_keeps {m m' : MState} {a : MAct} (ha : a.ofStop = true) (h : mStep c.m m a = some m') (hm : m.s ≠ .running) :
    m'.s ≠ .running ∧ m'.delivered = m.delivered := by
  cases a <;> simp only [MAct.ofStop] at ha
  all_goals m_cases h
  all_goals first | (refine ⟨?_, rfl⟩; simp_all; done) | (cases ha) | (refine ⟨?_, rfl⟩; simp only; split <;> simp)

private theorem stop_keeps {m m' : MState} (h : mStep c.m m .stop = some m') : m'.s = .stopping ∧ m'.delivered = m.delivered := by
  m_cases h
  exact ⟨rfl, rfl⟩

private theorem sent_measurement {l : DlState} {m : Measurement} {json ping : Option Err} :
    ((sendStep c l (.measurement m json ping)).2.2 = none → (sendStep c l (.measurement m json ping)).2.1.recorded = l.recorded ++ [m]) ∧
    ((sendStep c l (.measurement m json ping)).2.1.recorded = l.recorded ∨ (sendStep c l (.measurement m json ping)).2.1.recorded = l.recorded ++ [m]) := by
  cases hk : c.kind <;> cases json <;> cases ping <;> simp only [sendStep, hk, dlStep, ulStep]
  all_goals repeat' split
  all_goals simp

private theorem sent_closed {l : DlState} : (sendStep c l .closed).2.1.recorded = l.recorded ∧ (sendStep c l .closed).2.2 = some none := by
  cases hk : c.kind <;> simp [sendStep, hk, dlStep, ulStep]

private theorem sent_bulk {l : DlState} {w p : Option Err} : (sendStep c l (.bulk w p)).2.1.recorded = l.recorded := by
  cases hk : c.kind <;> simp only [sendStep, hk, dlStep, ulStep]
  all_goals repeat' split
  all_goals simp

private theorem dinv (h : (test c).Reaches as s) : DInv s := by
  refine LTS.state_invariant (P := DInv) ?_ ?_ h
  · cases hk : c.kind <;> simp [test, hk, DInv]
  · intro s a s' hi hst
    cases a <;> t_cases hst hm'
    all_goals first
      | exact hi
      | skip
    · rename_i ha _
      obtain ⟨h1, h2⟩ := own_keeps ha.1 hm'
      simpa only [DInv, h1, h2] using hi
    · rename_i hp
      simp only [DInv, hp] at hi
      exact hi
    · rename_i hp _
      simp only [DInv, hp] at hi
      obtain ⟨h1, h2⟩ := stop_keeps hm'
      simp [DInv, h1, h2, hi, Nearly]
    · rename_i hp
      simp only [DInv, hp] at hi
      exact hi
    · rename_i hp _
      simp only [DInv, hp] at hi
      obtain ⟨h1, h2⟩ := stop_keeps hm'
      simp [DInv, h1, h2, hi, Nearly]
    · rename_i hp _
      simp only [DInv, hp] at hi
      exact hi
    · rename_i hp hs _
      simp only [DInv, hp] at hi
      m_cases hm'
      rename_i h1 h2
      rw [hs] at h1
      cases h1
      simp [DInv, hi]
    · rename_i json ping _ l x hp
      simp only [DInv, hp] at hi
      obtain ⟨h1, h2⟩ := sent_measurement (c := c) (l := l) (m := x) (json := json) (ping := ping)
      simp only [DInv, TestState.iterated]
      cases hr : (sendStep c l (.measurement x json ping)).2.2 with
      | none => exact ⟨hi.1, hi.2.1.trans (h1 hr).symm, rfl⟩
      | some r =>
        refine ⟨hi.1, ?_⟩
        rw [hi.2.1]
        rcases h2 with h2 | h2 <;> rw [h2]
        · exact .inr ⟨_, rfl⟩
        · exact .inl rfl
    · rename_i l hp _
      simp only [DInv, hp] at hi
      obtain ⟨h1, h2⟩ := sent_closed (c := c) (l := l)
      simp only [DInv, TestState.iterated, h2]
      exact ⟨hi.1, .inl (hi.2.1.trans h1.symm)⟩
    · rename_i w p _ _ _ l hp hk _ _
      simp only [DInv, hp] at hi
      have h1 := sent_bulk (c := c) (l := l) (w := w) (p := p)
      simp only [DInv, TestState.iterated]
      cases hr : (sendStep c l (.bulk w p)).2.2 with
      | none => exact ⟨hi.1, hi.2.1.trans h1.symm, rfl⟩
      | some r => exact ⟨hi.1, .inl (hi.2.1.trans h1.symm)⟩
    · rename_i hp _ _
      simp only [DInv, hp] at hi
      obtain ⟨h1, h2⟩ := stop_keeps hm'
      simp [DInv, h1, h2, hi]
    · rename_i hp ha _
      simp only [DInv, hp] at hi
      obtain ⟨h1, h2⟩ := ofStop_keeps ha hm' hi.1
      simp only [DInv]
      split <;> simp_all <;> (split at * <;> simp_all)
    · rename_i hp _
      simp only [DInv, hp] at hi
      exact hi
    · rename_i hp
      simp only [DInv, hp] at hi
      exact hi

/-! ## The receiver in the test -/

/-- What a step of the test is for the receiver. -/
def toRx : TAct → List RxAns
  | .rxNext pongs i => [.next pongs i]
  | .rxExpired => [.expired]
  | _ => []

/-- The measurements that the client sent and that arrived, in order, up to the first message that is not acceptable. -/
def clientSent (c : TestCfg) (as : List TAct) : List Measurement :=
  ((arrived (as.flatMap toRx)).takeWhile (acceptable c.parse c.kind)).filterMap (·.bind c.parse)

private def RInv (c : TestCfg) (as : List TAct) (s : TestState) : Prop :=
  match s.r with
  | .deadline => s.client = [] ∧ s.heard = [] ∧ as.flatMap toRx = []
  | .top | .reading => receiver c.parse c.kind none (as.flatMap toRx) = (s.heard, s.client, none)
  | .appending l => receiver c.parse c.kind none (as.flatMap toRx) = (s.heard, l, none) ∧ ∃ x, l = s.client ++ [x]
  | .returned | .exited => receiver c.parse c.kind none (as.flatMap toRx) = (s.heard, s.client, some ()) ∨
      as.flatMap toRx = [] ∧ s.client = [] ∧ ∃ e, receiver c.parse c.kind (some e) [] = (s.heard, [], some ())

private theorem receiver_snoc {rx : List RxAns} {heard : List RecvEv} {l : List Measurement} (h : receiver c.parse c.kind none rx = (heard, l, none)) (a : RxAns) :
    receiver c.parse c.kind none (rx ++ [a]) = (heard ++ (rxStep c.parse c.kind l a).1, (rxStep c.parse c.kind l a).2) := by
  simp only [receiver, Prod.mk.injEq] at h
  obtain ⟨rfl, h2, h3⟩ := h
  have h1 : runScript (rxStep c.parse c.kind) [] rx = ((runScript (rxStep c.parse c.kind) [] rx).1, l, none) := by rw [← h2, ← h3]
  simp only [receiver, runScript_snoc h1 a]
  simp

private theorem rxStep_list (parse : Bytes → Option Measurement) (kind : Subtest) (l : List Measurement) (a : RxAns) :
    ((rxStep parse kind l a).2.1 = l) ∨ (∃ x, (rxStep parse kind l a).2.1 = l ++ [x]) ∧ (rxStep parse kind l a).2.2 = none := by
  cases a with
  | expired => exact .inl rfl
  | next pongs i =>
    simp only [rxStep]
    repeat' split
    all_goals simp

private theorem rinv (h : (test c).Reaches as s) : RInv c as s := by
  refine LTS.invariant (P := RInv c) ?_ ?_ h
  · cases hk : c.kind <;> simp [test, hk, RInv]
  · intro as s a s' _ hi hst
    cases a <;> t_cases hst hm'
    all_goals first
      | (simpa only [RInv, List.flatMap_append, List.flatMap_cons, List.flatMap_nil, toRx, List.append_nil, TestState.iterated] using hi)
      | simp only [RInv, List.flatMap_append, List.flatMap_cons, List.flatMap_nil, toRx, List.append_nil]
    · rename_i hr
      simp only [RInv, hr] at hi
      rw [hi.1, hi.2.1, hi.2.2]
      rfl
    · rename_i e hr
      simp only [RInv, hr] at hi
      exact .inr ⟨hi.2.2, hi.1, e, by rw [hi.2.1]; rfl⟩
    · rename_i hr _
      simpa only [RInv, hr] using hi
    · rename_i hr _
      simp only [RInv, hr] at hi
      exact .inl (receiver_snoc hi .expired)
    · rename_i pongs i _ hr _ u hx
      simp only [RInv, hr] at hi
      have h1 := receiver_snoc hi (.next pongs i)
      rcases rxStep_list c.parse c.kind s.client (.next pongs i) with h2 | ⟨-, h3⟩
      · rw [h1]
        refine .inl (Prod.ext rfl (Prod.ext h2 hx))
      · rw [hx] at h3; cases h3
    · rename_i pongs i _ hr _ hx hl
      simp only [RInv, hr] at hi
      have h1 := receiver_snoc hi (.next pongs i)
      rcases rxStep_list c.parse c.kind s.client (.next pongs i) with h2 | ⟨⟨x, h2⟩, h3⟩
      · rw [h1]
        exact Prod.ext rfl (Prod.ext h2 hx)
      · rw [h2] at hl; simp at hl
    · rename_i pongs i _ hr _ hx hl
      simp only [RInv, hr] at hi
      have h1 := receiver_snoc hi (.next pongs i)
      rcases rxStep_list c.parse c.kind s.client (.next pongs i) with h2 | ⟨⟨x, h2⟩, h3⟩
      · rw [h2] at hl; simp at hl
      · refine ⟨?_, x, h2⟩
        rw [h1]
        exact Prod.ext rfl (Prod.ext rfl hx)
    · rename_i l hr
      simp only [RInv, hr] at hi
      exact hi.1
    · rename_i hr
      simpa only [RInv, hr] using hi

/-- What is recorded of the client: everything that arrived, except the latest message while it is being recorded. -/
private theorem client_recorded (h : (test c).Reaches as s) :
    (∃ l x, s.r = .appending l ∧ clientSent c as = s.client ++ [x]) ∨ clientSent c as = s.client := by
  have hi := rinv h
  have key : ∀ {l res}, receiver c.parse c.kind none (as.flatMap toRx) = (s.heard, l, res) → clientSent c as = l := fun h1 => by
    rw [C47_recorded_exactly h1, if_pos rfl]; rfl
  unfold RInv at hi
  split at hi
  · refine .inr ?_
    rw [hi.1, clientSent, hi.2.2]; rfl
  · exact .inr (key hi)
  · exact .inr (key hi)
  · rename_i l hr
    obtain ⟨h1, x, rfl⟩ := hi
    exact .inl ⟨_, x, hr, key h1⟩
  · rcases hi with hi | ⟨h1, h2, -⟩
    · exact .inr (key hi)
    · rw [h2, clientSent, h1]; exact .inr rfl
  · rcases hi with hi | ⟨h1, h2, -⟩
    · exact .inr (key hi)
    · rw [h2, clientSent, h1]; exact .inr rfl

private theorem done_inv (h : (test c).Reaches as s) : (s.cancelled = true → s.r = .exited) ∧ (s.ctxDone = true → .ctxEnd ∈ as) := by
  refine LTS.invariant (P := fun as s => (s.cancelled = true → s.r = .exited) ∧ (s.ctxDone = true → .ctxEnd ∈ as)) ?_ ?_ h
  · cases hk : c.kind <;> simp [test, hk]
  · intro as s a s' _ hi hst
    cases a <;> t_cases hst hm'
    all_goals simp_all [TestState.iterated]
    all_goals grind

private theorem exited_cancelled (h : (test c).Reaches as s) : s.r = .exited → s.cancelled = true := by
  refine LTS.state_invariant (P := fun s => s.r = .exited → s.cancelled = true) ?_ ?_ h
  · cases hk : c.kind <;> simp [test, hk]
  · intro s a s' hi hst
    cases a <;> t_cases hst hm'
    all_goals simp_all [TestState.iterated]

/-! ## The clock -/

/-- The readings of the clock for `StartTime` and for `EndTime`. -/
def stamps (as : List TAct) : List Int := as.filterMap fun | .stamp n => some n | _ => none
def finishes (as : List TAct) : List Int := as.filterMap fun | .finish n => some n | _ => none

private structure Timed (st fi : List Int) (start finish : Int) (server : List Measurement) (r : Option Err) : Prop where
  none : st = [] → fi = [] ∧ start = 0 ∧ finish = 0 ∧ r ≠ .none ∧ server = []
  some : st ≠ [] → st = [start] ∧ fi = [finish] ∧ start ≤ finish

private def TInv (st fi : List Int) (s : TestState) : Prop :=
  match s.pos with
  | .prepare | .deadline | .stamp => st = [] ∧ fi = [] ∧ s.startTime = 0 ∧ s.endTime = 0
  | .loop _ | .got _ _ | .leaving _ => st = [s.startTime] ∧ fi = [] ∧ s.startTime ≤ s.clock
  | .stopping r | .waiting r | .returned r => Timed st fi s.startTime s.endTime s.server r
  | .written => ∃ e, s.file = some e ∧ e.startTime = s.startTime ∧ e.endTime = s.endTime ∧ Timed st fi s.startTime s.endTime s.server e.err

private theorem tinv_iterated {st fi : List Int} {x : Iter SendEv DlState (Option Err)} (h : st = [s.startTime] ∧ fi = [] ∧ s.startTime ≤ s.clock) : TInv st fi (s.iterated x) := by
  unfold TInv TestState.iterated
  cases x.2.2 <;> exact h

private theorem tinv (h : (test c).Reaches as s) : TInv (stamps as) (finishes as) s := by
  refine LTS.invariant (P := fun as s => TInv (stamps as) (finishes as) s) ?_ ?_ h
  · cases hk : c.kind <;> simp [test, hk, TInv, stamps, finishes]
  · intro as s a s' hr hi hst
    have hdi := dinv hr
    have e1 : stamps (as ++ [a]) = stamps as ++ stamps [a] := List.filterMap_append
    have e2 : finishes (as ++ [a]) = finishes as ++ finishes [a] := List.filterMap_append
    rw [e1, e2]
    clear e1 e2
    have n : ∀ l : List Int, l ++ [] = l := List.append_nil
    cases a <;> t_cases hst hm'
    all_goals first
      | (change TInv (stamps as ++ []) (finishes as ++ []) _; rw [n, n]; exact hi)
      | (change TInv (stamps as ++ []) (finishes as ++ []) _; rw [n, n])
      | (change TInv (stamps as ++ [_]) (finishes as ++ []) _; rw [n])
      | (change TInv (stamps as ++ []) (finishes as ++ [_]) _; rw [n])
    · rename_i ha _
      unfold TInv at hi ⊢
      simp only
      cases hp : s.pos <;> simp only [hp] at hi ⊢ <;> first | exact hi | exact ⟨hi.1, hi.2.1, hi.2.2.trans ha.2⟩
    · rename_i hp
      simp only [TInv, hp] at hi ⊢
      exact hi
    · rename_i hp _
      simp only [TInv, hp] at hi ⊢
      simp only [DInv, hp] at hdi
      exact ⟨fun _ => ⟨hi.2.1, hi.2.2.1, hi.2.2.2, by simp, hdi.2.2⟩, fun h => absurd hi.1 h⟩
    · rename_i hp
      simp only [TInv, hp] at hi ⊢
      exact hi
    · rename_i hp _
      simp only [TInv, hp] at hi ⊢
      simp only [DInv, hp] at hdi
      exact ⟨fun _ => ⟨hi.2.1, hi.2.2.1, hi.2.2.2, by simp, hdi.2.2⟩, fun h => absurd hi.1 h⟩
    · rename_i hp _
      simp only [TInv, hp] at hi ⊢
      simp [hi]
    · rename_i hp _ _
      simp only [TInv, hp] at hi ⊢
      exact hi
    · rename_i hp
      simp only [TInv, hp] at hi
      exact tinv_iterated hi
    · rename_i hp _
      simp only [TInv, hp] at hi
      exact tinv_iterated hi
    · rename_i hp _ _ _
      simp only [TInv, hp] at hi
      exact tinv_iterated hi
    · rename_i hp hle _
      simp only [TInv, hp] at hi ⊢
      exact ⟨by simp [hi], fun _ => ⟨hi.1, by simp [hi], hi.2.2.trans hle⟩⟩
    · rename_i hp _ m'
      simp only [TInv, hp] at hi
      by_cases hd : m'.s = .done
      · simpa only [TInv, if_pos hd] using hi
      · simpa only [TInv, if_neg hd] using hi
    · rename_i hp _
      simp only [TInv, hp] at hi ⊢
      exact hi
    · rename_i hp
      simp only [TInv, hp] at hi ⊢
      exact ⟨_, rfl, rfl, rfl, hi⟩

/-- Every tick so far is not later than the clock. -/
private theorem ticks_le (h : (test c).Reaches as s) : ∀ t ∈ acceptedTicks (as.flatMap toM), t ≤ s.clock := by
  refine LTS.invariant (P := fun as s => ∀ t ∈ acceptedTicks (as.flatMap toM), t ≤ s.clock) ?_ ?_ h
  · simp [acceptedTicks]
  · intro as s a s' _ hi hst t ht
    have hle : s.clock ≤ s'.clock := by
      cases a <;> t_cases hst hm'
      all_goals first | exact le_refl _ | (rename_i h _; exact h.2) | (rename_i h; exact h) | (rename_i h _; exact h)
    rw [List.flatMap_append, acceptedTicks, List.filterMap_append] at ht
    rcases List.mem_append.1 ht with ht2 | ht2
    · exact (hi t ht2).trans hle
    · obtain ⟨x, hx, ht3⟩ := List.mem_filterMap.1 ht2
      clear ht ht2
      rw [List.flatMap_cons, List.flatMap_nil, List.append_nil] at hx
      have hm : (a = .measurer x) ∨ (a = .stopping x) ∨ x = .stop ∨ x = .receive := by
        cases a
        case prepare e => cases e <;> simp [toM] at hx; simp [hx]
        case deadline e => cases e <;> simp [toM] at hx; simp [hx]
        all_goals simp [toM] at hx
        all_goals simp [hx]
      rcases hm with rfl | rfl | rfl | rfl
      · cases x <;> simp only [Option.some.injEq, reduceCtorEq] at ht3
        all_goals
          subst ht3
          t_cases hst hm'
          exact le_refl _
      · cases x <;> simp only [Option.some.injEq, reduceCtorEq] at ht3
        all_goals
          t_cases hst hm'
          simp_all [MAct.ofStop]
      · cases ht3
      · cases ht3

/-- Measurements received by the sender were taken before the end. -/
private def EInv (s : TestState) : Prop :=
  match s.pos with
  | .stopping _ | .waiting _ | .returned _ | .written => ∀ m ∈ s.m.delivered, ∀ conn x, m.conn = some conn → m.tcp = some x → conn.startTime + 1000 * x.elapsed ≤ s.endTime
  | _ => True

private theorem delivered_before (h : (test c).Reaches as s) : ∀ m ∈ s.m.delivered, ∀ conn x, m.conn = some conn → m.tcp = some x → conn.startTime + 1000 * x.elapsed ≤ s.clock := by
  intro m hm conn x hc hx
  obtain ⟨ps, h1, h2, h3⟩ := C51_measurements (test_measurer h)
  obtain ⟨i, hi, rfl⟩ := List.getElem_of_mem (List.mem_append_left s.m.drained hm)
  have hlt : i < ps.length := h3.length_eq ▸ hi
  have hp := (List.forall₂_iff_get.1 h3).2 i hlt hi
  simp only [List.get_eq_getElem] at hp
  have ht : ps[i].1 ≤ s.clock := ticks_le h _ (h1.subset (List.mem_map.2 ⟨_, List.getElem_mem hlt, rfl⟩))
  rw [hp.conn] at hc
  cases hc
  cases ho : ps[i].2 with
  | error e => rw [(hp.error e ho).2] at hx; cases hx
  | ok bt =>
    obtain ⟨us, -, h4, h5, -⟩ := hp.ok bt.1 bt.2 ho
    rw [h4] at hx
    cases hx
    simp only
    omega

private theorem einv_iterated {x : Iter SendEv DlState (Option Err)} : EInv (s.iterated x) := by
  unfold EInv TestState.iterated
  cases x.2.2 <;> trivial

private theorem einv (h : (test c).Reaches as s) : EInv s := by
  refine LTS.invariant (P := fun _ s => EInv s) ?_ ?_ h
  · cases hk : c.kind <;> simp [test, hk, EInv]
  · intro as s a s' hr hi hst
    have hd := dinv hr
    cases a <;> t_cases hst hm'
    all_goals first
      | exact hi
      | trivial
      | skip
    · rename_i ha _
      obtain ⟨-, h2⟩ := own_keeps ha.1 hm'
      simpa only [EInv, h2] using hi
    · rename_i hp _
      simp only [DInv, hp] at hd
      simp [EInv, (stop_keeps hm').2, hd]
    · rename_i hp _
      simp only [DInv, hp] at hd
      simp [EInv, (stop_keeps hm').2, hd]
    · exact einv_iterated
    · exact einv_iterated
    · exact einv_iterated
    · rename_i hp hle m'
      simp only [EInv, (stop_keeps hm').2]
      intro m hm conn x hc hx
      exact (delivered_before hr m hm conn x hc hx).trans hle
    · rename_i hp ha m'
      simp only [DInv, hp] at hd
      simp only [EInv, hp] at hi
      have h2 := (ofStop_keeps ha hm' hd.1).2
      by_cases hdn : m'.s = .done
      · simpa only [EInv, if_pos hdn, h2] using hi
      · simpa only [EInv, if_neg hdn, h2] using hi
    · rename_i hp _
      simp only [EInv, hp] at hi
      exact hi
    · rename_i hp
      simp only [EInv, hp] at hi
      exact hi

private theorem file_inv (h : (test c).Reaches as s) : (s.file ≠ none → s.pos = .written) ∧ (∀ r, s.pos = .returned r → s.recvDone = true) := by
  refine LTS.state_invariant (P := fun s => (s.file ≠ none → s.pos = .written) ∧ (∀ r, s.pos = .returned r → s.recvDone = true)) ?_ ?_ h
  · cases hk : c.kind <;> simp [test, hk]
  · intro s a s' hi hst
    cases a <;> t_cases hst hm'
    all_goals simp_all [TestState.iterated, TestState.recvDone]
    all_goals first | grind | (split <;> simp)

private theorem file_written (h : (test c).Reaches as s) {e : SubtestEnd} (hf : s.file = some e) : s.pos = .written := (file_inv h).1 (by simp [hf])

/-- `Do` returns after the receiver has ended, or with the context. -/
theorem returned_done (h : (test c).Reaches as s) (hp : ∃ r, s.pos = .returned r) : s.recvDone = true := by
  obtain ⟨r, hp⟩ := hp
  exact (file_inv h).2 r hp

/-! ## C91 -/

/-- C91, the server's measurements: when the result of a subtest is written, the server measurements in it are exactly the measurements that the client was sent, in this order. They are
measurements of this connection, one for each of the first ticks of the measurer that got through; their elapsed times never decrease, and none was taken after the recorded end. The sender received at most
one measurement more, which it could not send. -/
theorem C91_server_measurements (h : (test c).Reaches as s) {e : SubtestEnd} (hf : s.file = some e) :
    e.serverMeasurements = sentMeasurements s.sent ∧
    (∃ ps : List (Int × Except Err (Netx.BbrInfo × Ndt5.TcpInfo)), ps.map Prod.fst <+: acceptedTicks (as.flatMap toM) ∧ ps.map Prod.snd <+: readOutcomes (as.flatMap toM) ∧
      List.Forall₂ (IsMeasurement c.m ((startTimes (as.flatMap toM)).headD 0)) ps e.serverMeasurements) ∧
    e.serverMeasurements.Pairwise (fun m m' => ∀ x y, m.tcp = some x → m'.tcp = some y → x.elapsed ≤ y.elapsed) ∧
    (∀ m ∈ e.serverMeasurements, ∀ conn x, m.conn = some conn → m.tcp = some x → 0 ≤ x.elapsed ∧ conn.startTime + 1000 * x.elapsed ≤ e.endTime) ∧
    (s.m.delivered = e.serverMeasurements ∨ ∃ x, s.m.delivered = e.serverMeasurements ++ [x]) := by
  have hpos : s.pos = .written := file_written h hf
  have hs := sinv h
  have hd := dinv h
  have he := einv h
  simp only [SInv, hpos] at hs
  simp only [DInv, hpos] at hd
  simp only [EInv, hpos] at he
  obtain ⟨e', hf', -, h1, -, h2, h3⟩ := hs
  rw [hf] at hf'
  cases hf'
  rw [h1, h2]
  have hm := C51_measurements (test_measurer h)
  have hmono := C51_elapsed_monotone (test_measurer h)
  have hpre : s.server <+: s.m.delivered := by
    rcases hd.2 with h | ⟨x, h⟩ <;> rw [h]
    · exact List.prefix_refl _
    · exact List.prefix_append _ _
  have hpre2 := hpre.trans (List.prefix_append _ s.m.drained)
  refine ⟨C43_recorded_as_sent h3.run, ?_, hmono.1.sublist hpre2.sublist, fun m hm conn x hc hx => ⟨hmono.2 m (hpre2.subset hm) x hx, he m (hpre.subset hm) conn x hc hx⟩, hd.2⟩
  obtain ⟨ps, p1, p2, p3⟩ := hm
  obtain ⟨l, hl⟩ := hpre2
  refine ⟨ps.take s.server.length, ?_, ?_, ?_⟩
  · rw [List.map_take]
    exact (List.take_prefix _ _).trans p1
  · rw [List.map_take]
    exact (List.take_prefix _ _).trans p2
  · have := List.forall₂_take s.server.length p3
    rwa [← hl, List.take_left] at this

/-- C91, the client's measurements: at the moment when the result is written, the client measurements in it are exactly the acceptable messages that arrived from the client, in their order. If the time of the
subtest (or the request) ended first, the very latest one may be missing. -/
theorem C91_client_measurements (h : (test c).Reaches (as ++ [.write]) s) {e : SubtestEnd} (hf : s.file = some e) :
    e.clientMeasurements = clientSent c as ∨ .ctxEnd ∈ as ∧ ∃ x, clientSent c as = e.clientMeasurements ++ [x] := by
  obtain ⟨s0, h0, hst⟩ := LTS.reaches_snoc.1 h
  have hr : s0.recvDone = true := returned_done h0 (by
    simp only [test, testStep] at hst
    split at hst
    · rename_i r hp; exact ⟨r, hp⟩
    · cases hst)
  have he : e.clientMeasurements = s0.client := by
    t_cases hst hm'
    cases hf
    rfl
  obtain ⟨d1, d2⟩ := done_inv h0
  rw [he]
  rcases client_recorded h0 with ⟨l, x, hl, hx⟩ | hx
  · refine .inr ⟨?_, x, hx⟩
    simp only [TestState.recvDone, Bool.or_eq_true] at hr
    rcases hr with hr | hr
    · rw [d1 hr] at hl; cases hl
    · exact d2 hr
  · exact .inl hx.symm

/-- C91, the times: the start and the end in the result are one reading of the clock each, and the start is not later than the end. They are missing (zero) only if the sender failed before its loop. -/
theorem C91_times (h : (test c).Reaches as s) {e : SubtestEnd} (hf : s.file = some e) :
    e.startTime ≤ e.endTime ∧
    (stamps as = [e.startTime] ∧ finishes as = [e.endTime] ∨
     stamps as = [] ∧ finishes as = [] ∧ e.startTime = 0 ∧ e.endTime = 0 ∧ e.err ≠ none ∧ e.serverMeasurements = []) := by
  have hpos : s.pos = .written := file_written h hf
  have hs := sinv h
  have ht := tinv h
  simp only [SInv, hpos] at hs
  simp only [TInv, hpos] at ht
  obtain ⟨e', hf', -, h1, -, -, -⟩ := hs
  rw [hf] at hf'
  cases hf'
  obtain ⟨e', hf', h2, h3, h4⟩ := ht
  rw [hf] at hf'
  cases hf'
  rw [h1, h2, h3]
  by_cases hst : stamps as = []
  · obtain ⟨g1, g2, g3, g4, g5⟩ := h4.none hst
    exact ⟨by rw [g2, g3], .inr ⟨hst, g1, g2, g3, g4, g5⟩⟩
  · obtain ⟨g1, g2, g3⟩ := h4.some hst
    exact ⟨g3, .inl ⟨g1, g2⟩⟩

/-- C91: what the sender did, and the error it returned, are those of its own model, so that C42 to C46 hold of them. -/
theorem C91_sender (h : (test c).Reaches as s) {e : SubtestEnd} (hf : s.file = some e) : Ran c s.sent e.serverMeasurements (some e.err) ∧ e.crash = none := by
  have hpos : s.pos = .written := file_written h hf
  have hs := sinv h
  simp only [SInv, hpos] at hs
  obtain ⟨e', hf', h0, h1, -, -, h3⟩ := hs
  rw [hf] at hf'
  cases hf'
  exact ⟨h1 ▸ h3, h0⟩

/-- C91: once `Do` returns, the goroutines of the measurer and of its ticker have ended. -/
theorem C91_measurer_ended (h : (test c).Reaches as s) (hp : (∃ r, s.pos = .returned r) ∨ s.pos = .written) : MFinished s.m := by
  have hd := dinv h
  refine C50_stop_returns_after_end (test_measurer h) ?_
  unfold DInv at hd
  rcases hp with ⟨r, hp⟩ | hp <;> (rw [hp] at hd; exact hd.1)

/-! ## The subtest ends -/

/-- The steps that are not progress of the subtest itself: time passes, or more bulk data is sent. -/
def idle : TAct → Bool
  | .measurer .expire | .ctxEnd | .receiverTimeout | .bulk _ _ => true
  | _ => false

private theorem clock_le (h : (test c).Reaches as s) : s.m.clock ≤ s.clock := by
  refine LTS.state_invariant (P := fun s => s.m.clock ≤ s.clock) ?_ ?_ h
  · simp [test]
  · intro s a s' hi hst
    cases a <;> t_cases hst hm'
    all_goals first
      | exact hi
      | skip
    · rename_i a ha _
      cases a <;> simp only [MAct.own, MAct.now, Option.getD_some, Option.getD_none] at ha ⊢
      all_goals m_cases hm'
      all_goals first | exact hi | exact le_refl _ | (simp at ha)
    · m_cases hm'; exact hi
    · m_cases hm'; exact hi
    · rename_i h; exact hi.trans h
    · m_cases hm'; exact hi
    · rename_i h _; m_cases hm'; exact hi.trans h
    · rename_i a _ _ _ ha _
      cases a <;> simp only [MAct.ofStop] at ha
      all_goals m_cases hm'
      all_goals first | exact hi | (simp at ha)

private theorem measurer_moves (h : (test c).Reaches as s) (ho : s.m.expired = true ∨ s.m.stopped = true) (hns : ∀ st m, s.m.m ≠ .sending st m) (hne : s.m.m ≠ .exited) :
    ∃ a, idle a = false ∧ ((test c).step s a).isSome = true := by
  obtain ⟨a, ha, hs⟩ := C50_measurer_runs (test_measurer h) ho hns hne (clock_le h)
  obtain ⟨m', hm'⟩ := Option.isSome_iff_exists.1 hs
  have hm'' : mStep c.m s.m a = some m' := hm'
  refine ⟨.measurer a, ?_, ?_⟩
  · rcases ha with rfl | rfl | rfl | rfl | ⟨i, rfl⟩ | rfl | rfl | rfl <;> rfl
  · have : a.own = true ∧ s.clock ≤ a.now.getD s.clock := by
      rcases ha with rfl | rfl | rfl | rfl | ⟨i, rfl⟩ | rfl | rfl | rfl <;> simp [MAct.own, MAct.now]
    simp [test, testStep, this, hm'']

/-- C91: once the time is up for the measurer and for the receiver, a subtest is never stuck before its result is written: some goroutine can make a step that is not just more bulk data. -/
theorem C91_no_deadlock (h : (test c).Reaches as s) (hm : s.m.expired = true ∨ s.m.stopped = true) (hr : s.rxDone = true) (hw : s.pos ≠ .written) :
    ∃ a, idle a = false ∧ ((test c).step s a).isSome = true := by
  have hd := dinv h
  have hcl := C50_closed_iff_exited (test_measurer h)
  cases hp : s.pos with
  | prepare => exact ⟨.prepare none, rfl, by simp [test, testStep, hp]⟩
  | deadline => exact ⟨.deadline none, rfl, by simp [test, testStep, hp]⟩
  | stamp => exact ⟨.stamp s.clock, rfl, by simp [test, testStep, hp]⟩
  | loop l =>
    simp only [DInv, hp] at hd
    by_cases hne : s.m.m = .exited
    · exact ⟨.closed, rfl, by simp [test, testStep, hp, hcl.2 hne]⟩
    · by_cases hns : ∃ st m, s.m.m = .sending st m
      · obtain ⟨st, m, hs⟩ := hns
        exact ⟨.receive, rfl, by simp [test, testStep, hp, hs, mStep, hd.1]⟩
      · exact measurer_moves h hm (fun st m hs => hns ⟨st, m, hs⟩) hne
  | got l x => exact ⟨.output none none, rfl, by simp [test, testStep, hp]⟩
  | leaving r =>
    simp only [DInv, hp] at hd
    exact ⟨.finish s.clock, rfl, by simp [test, testStep, hp, mStep, hd.1]⟩
  | stopping r =>
    simp only [DInv, hp] at hd
    cases hs : s.m.s with
    | running => exact absurd hs hd.1
    | done => exact absurd hs hd.2.1
    | stopping => exact ⟨.stopping .lookAtTicker, rfl, by simp [test, testStep, hp, mStep, hs, MAct.ofStop]⟩
    | cancelling => exact ⟨.stopping .cancelTicker, rfl, by simp [test, testStep, hp, mStep, hs, MAct.ofStop]⟩
    | draining =>
      by_cases hne : s.m.m = .exited
      · exact ⟨.stopping .drained, rfl, by simp [test, testStep, hp, mStep, hs, MAct.ofStop, hcl.2 hne]⟩
      · by_cases hns : ∃ st m, s.m.m = .sending st m
        · obtain ⟨st, m, hx⟩ := hns
          exact ⟨.stopping .drain, rfl, by simp [test, testStep, hp, mStep, hs, hx, MAct.ofStop]⟩
        · exact measurer_moves h hm (fun st m hs => hns ⟨st, m, hs⟩) hne
  | waiting r =>
    by_cases hrd : s.recvDone = true
    · exact ⟨.received, rfl, by simp [test, testStep, hp, hrd]⟩
    · cases hx : s.r with
      | deadline => exact ⟨.rxDeadline none, rfl, by simp [test, testStep, hx]⟩
      | top => exact ⟨.rxExpired, rfl, by simp [test, testStep, hx, hr]⟩
      | reading => exact ⟨.rxNext [] .binary, rfl, by simp [test, testStep, hx]⟩
      | appending l => exact ⟨.rxAppend, rfl, by simp [test, testStep, hx]⟩
      | returned => exact ⟨.rxCancel, rfl, by simp [test, testStep, hx]⟩
      | exited => exact absurd (by simp [TestState.recvDone, exited_cancelled h hx]) hrd
  | returned r => exact ⟨.write, rfl, by simp [test, testStep, hp]⟩
  | written => exact absurd hp hw

private def posRank : TestPos → Nat
  | .prepare => 10
  | .deadline => 9
  | .stamp => 8
  | .loop _ => 6
  | .got _ _ => 7
  | .leaving _ => 5
  | .stopping _ => 3
  | .waiting _ => 2
  | .returned _ => 1
  | .written => 0

private def rxRank : RxPos → Nat
  | .deadline => 5
  | .top => 2
  | .reading => 4
  | .appending _ => 3
  | .returned => 1
  | .exited => 0

/-- The number of steps left, apart from sending bulk data, when time is up. -/
private def testRank (s : TestState) : Nat :=
  2 * measurerRank s.m + posRank s.pos + rxRank s.r + (if s.ctxDone then 0 else 1) + (if s.timedOut then 0 else 1)

/-- More bulk data. -/
def isBulk : TAct → Bool
  | .bulk _ _ => true
  | _ => false

private theorem posRank_iterated {x : Iter SendEv DlState (Option Err)} : posRank (s.iterated x).pos ≤ 6 := by
  unfold TestState.iterated
  cases x.2.2 <;> simp [posRank]

private theorem testRank_step {a : TAct} {s' : TestState} (hm : s.m.over = true) (hr : s.rxDone = true) (hst : (test c).step s a = some s') :
    s'.m.over = true ∧ s'.rxDone = true ∧ testRank s' + (if isBulk a then 0 else 1) ≤ testRank s := by
  have key : ∀ {x m'}, mStep c.m s.m x = some m' → m'.over = true ∧ measurerRank m' < measurerRank s.m := fun h => measurerRank_step (c := c.m) hm h
  cases a <;> t_cases hst hm'
  all_goals first
    | (obtain ⟨k1, k2⟩ := key ‹mStep c.m s.m _ = some _›; clear hm' key)
    | clear key
  all_goals simp_all [testRank, isBulk, TestState.rxDone, TestState.recvDone, posRank.eq_1, posRank.eq_2, posRank.eq_3, posRank.eq_4, posRank.eq_5, posRank.eq_6, posRank.eq_7, posRank.eq_8, posRank.eq_9, posRank.eq_10, rxRank.eq_1, rxRank.eq_2, rxRank.eq_3, rxRank.eq_4, rxRank.eq_5, rxRank.eq_6]
  all_goals first | omega | skip
  · rename_i json ping _ l x hp
    have := posRank_iterated (s := s) (x := sendStep c l (.measurement x json ping))
    refine ⟨hm, hr, ?_⟩
    simp only [TestState.iterated] at this ⊢
    rcases Bool.eq_false_or_eq_true s.ctxDone with h1 | h1 <;> rcases Bool.eq_false_or_eq_true s.timedOut with h2 | h2 <;> simp only [h1, h2, if_true, Bool.false_eq_true, if_false] <;> omega
  · rename_i l hp _
    refine ⟨hm, hr, ?_⟩
    simp only [TestState.iterated, sent_closed.2, posRank.eq_6]
    omega
  · rename_i w p _ _ _ l hp _ _ _
    have := posRank_iterated (s := s) (x := sendStep c l (.bulk w p))
    refine ⟨hm, hr, ?_⟩
    simp only [TestState.iterated] at this ⊢
    rcases Bool.eq_false_or_eq_true s.ctxDone with h1 | h1 <;> rcases Bool.eq_false_or_eq_true s.timedOut with h2 | h2 <;> simp only [h1, h2, if_true, Bool.false_eq_true, if_false] <;> omega
  · split
    · rw [posRank.eq_8]; omega
    · rw [posRank.eq_7]; omega

/-- C91: once the time is up for the measurer and for the receiver, only a bounded number of steps other than sending bulk data is left, under every schedule. With `C91_no_deadlock`: the result is written. -/
theorem C91_ends {bs : List TAct} {s' : TestState} (hm : s.m.expired = true ∨ s.m.stopped = true) (hr : s.rxDone = true) (h : (test c).runFrom s bs = some s') :
    (bs.filter (fun a => !isBulk a)).length ≤ 47 + 6 * s.m.buf.length := by
  have hover : s.m.over = true := by simpa [MState.over] using hm
  have hrank : testRank s ≤ 47 + 6 * s.m.buf.length := by
    have h1 : measurerRank s.m ≤ 15 + 3 * s.m.buf.length := by
      unfold measurerRank
      cases s.m.s <;> cases s.m.expired <;> cases s.m.t <;> cases s.m.m <;> simp
    have h2 : posRank s.pos ≤ 10 := by cases s.pos <;> simp [posRank]
    have h3 : rxRank s.r ≤ 5 := by cases s.r <;> simp [rxRank]
    have h4 : (if s.ctxDone = true then 0 else 1) ≤ 1 := by split <;> simp
    have h5 : (if s.timedOut = true then 0 else 1) ≤ 1 := by split <;> simp
    unfold testRank
    omega
  suffices H : (bs.filter (fun a => !isBulk a)).length ≤ testRank s by omega
  clear hrank hm
  induction bs generalizing s with
  | nil => simp
  | cons a bs ih =>
    obtain ⟨t, h1, h2⟩ := LTS.runFrom_cons_eq.1 h
    obtain ⟨h3, h4, h5⟩ := testRank_step hover hr h1
    have := ih h4 h2 h3
    rw [List.filter_cons]
    cases hb : isBulk a <;> simp [hb] at h5 ⊢ <;> omega

/-! ## Concrete runs -/

section Examples

private def cfg : TestCfg :=
  { kind := .download, params := {}, m := { client := str "192.0.2.1:443", server := str "192.0.2.2:1", uuid := str "u", cap := 1 }, parse := fun b => if b = str "{}" then some {} else none }

/-- A download: a tick, a measurement is sent, a message of the client arrives and is recorded, bulk data, the time is up, the measurer closes the channel. -/
private def exRun : List TAct :=
  [.measurer (.start 5), .prepare none, .rxDeadline none, .measurer (.newTicker true), .deadline none, .measurer .assign, .stamp 7, .measurer .check, .bulk none none, .rxCheck,
   .measurer (.tickHand 2007), .measurer (.measure (.ok ({}, {}))), .receive, .output none none, .rxNext [] (.text [] (.ok (str "{}"))), .rxAppend, .bulk none none, .ctxEnd, .measurer .expire,
   .measurer .check, .measurer .exit, .closed, .rxExpired, .finish 9000, .stopping .lookAtTicker, .stopping .cancelTicker, .stopping .drained, .received, .write]

private theorem exRun_ok : ∃ s e, (test cfg).Reaches exRun s ∧ s.file = some e ∧ e.serverMeasurements.length = 1 ∧ e.clientMeasurements.length = 1 ∧ e.startTime = 7 ∧ e.endTime = 9000 ∧ e.err = none := by
  refine ⟨_, _, rfl, rfl, rfl, rfl, rfl, rfl, rfl⟩

/-- In the middle of that run the time is up and the result is not yet written. -/
private theorem exMiddle : ∃ s, (test cfg).Reaches (exRun.take 19) s ∧ s.m.expired = true ∧ s.rxDone = true ∧ s.pos ≠ .written :=
  ⟨_, rfl, rfl, rfl, by intro h; cases h⟩

/-- The time is up just when a message of the client is about to be recorded: it is missing in the result. -/
private def exRace : List TAct :=
  [.measurer (.start 5), .prepare none, .rxDeadline none, .deadline none, .stamp 7, .rxCheck, .rxNext [] (.text [] (.ok (str "{}"))), .ctxEnd, .measurer (.newTicker false), .closed, .finish 9,
   .stopping .lookAtTicker, .stopping .drained, .received]

private theorem exRace_ok : ∃ s e, (test cfg).Reaches (exRace ++ [.write]) s ∧ s.file = some e ∧ e.clientMeasurements = [] ∧ clientSent cfg exRace = [{}] ∧ .ctxEnd ∈ exRace := by
  refine ⟨_, _, rfl, rfl, rfl, ?_, by simp [exRace]⟩
  simp [clientSent, exRace, toRx, arrived, acceptable, cfg]

/-- A failure before the loop: no times. -/
private def exFail : List TAct :=
  [.prepare none, .deadline (some (str "e")), .rxDeadline none, .ctxEnd, .measurer (.start 5), .measurer (.newTicker false), .stopping .lookAtTicker, .stopping .drained, .received, .write]

private theorem exFail_ok : ∃ s e, (test cfg).Reaches exFail s ∧ s.file = some e ∧ e.startTime = 0 ∧ e.endTime = 0 ∧ e.err = some (str "e") ∧ stamps exFail = [] :=
  ⟨_, _, rfl, rfl, rfl, rfl, rfl, rfl⟩

/-- An upload. -/
private def exUpload : List TAct :=
  [.measurer (.start 5), .deadline none, .rxDeadline none, .measurer (.newTicker true), .measurer .assign, .stamp 7, .measurer .check, .rxCheck, .rxNext [] .binary,
   .measurer (.tickHand 2007), .measurer (.measure (.ok ({}, {}))), .receive, .output none none, .rxCheck, .rxNext [] (.broken (str "e")), .rxCancel, .measurer .expire,
   .measurer .check, .measurer .exit, .closed, .finish 9000, .stopping .lookAtTicker, .stopping .cancelTicker, .stopping .drained, .received, .write]

private theorem exUpload_ok : ∃ s e, (test { cfg with kind := .upload }).Reaches exUpload s ∧ s.file = some e ∧ e.serverMeasurements.length = 1 ∧ e.err = none ∧ s.ctxDone = false :=
  ⟨_, _, rfl, rfl, rfl, rfl, rfl⟩

end Examples

end Verif.Props
