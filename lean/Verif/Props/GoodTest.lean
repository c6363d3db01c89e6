import Verif.Ndt7.GoodLemmas
import Verif.Props.ClientMessage
import Verif.Props.Ndt7Ping
import Verif.Props.Ndt7Rates
import Verif.Props.Ndt7TestFile
import Verif.Spec.GoodTest

/-!
# An ndt7 client that keeps to the protocol (C95)
-/

namespace Verif.Props
open Verif.Go Verif.Spec Verif.Ndt7

variable {c : TestCfg} {as : List TAct} {s : TestState}

/-! ## Why the measurer ends -/

private structure Why (mas : List MAct) (s : MState) : Prop where
  stopped : s.stopped = true → .cancelTicker ∈ mas
  tick : 0 < s.tickClosed → .expire ∈ mas ∨ .cancelTicker ∈ mas ∨ .newTicker false ∈ mas
  dst : 0 < s.dstClosed → .expire ∈ mas ∨ .cancelTicker ∈ mas ∨ .newTicker false ∈ mas
  expired : s.expired = true → .expire ∈ mas ∨ .cancelTicker ∈ mas ∨ .newTicker false ∈ mas
  running : .cancelTicker ∈ mas → s.s = .draining ∨ s.s = .done

private theorem why {mc : MConfig} {mas : List MAct} {m : MState} (h : (measurer mc).Reaches mas m) : Why mas m := by
  refine LTS.invariant (P := Why) ?_ ?_ h
  · constructor <;> simp [measurer]
  · intro mas s a s' _ hi hst
    obtain ⟨h1, h2, h3, h4, h5⟩ := hi
    simp only [measurer] at hst
    cases a <;> m_cases hst
    all_goals constructor
    all_goals simp_all [MState.over]
    all_goals grind

/-- A measurer that ended although nobody stopped it and its ticker could be made has run out of time. -/
private theorem expired_of_closed (h : (test c).Reaches as s) (hw : ∀ a ∈ as, testWorked a) (hr : s.m.s = .running) (hd : 0 < s.m.dstClosed) : .measurer .expire ∈ as := by
  have hy := why (test_measurer h)
  rcases hy.dst hd with h1 | h1 | h1
  · exact own_of h _ h1 rfl
  · have := hy.running h1
    rw [hr] at this
    simp at this
  · exact absurd (hw _ (own_of h _ h1 rfl)) (by simp [testWorked])

/-! ## The server -/

/-- How sending ended: the time was up, or a download has reached its limit. -/
def EndedWell (c : TestCfg) (as : List TAct) (sent : List SendEv) (server : List Measurement) : Prop :=
  (EndedWith c.kind (str "measurer-closed") sent ∧ .measurer .expire ∈ as) ∨
  (c.kind = .download ∧ EndedWith c.kind (str "measurer-closed-early") sent ∧ ∃ m, server.getLast? = some m ∧ LimitReached c.params m)

private def Calm (sent : List SendEv) : Prop := ∀ x ∈ sent, x ≠ .close ∧ ∀ d r, x ≠ .count d r

private def GInv (c : TestCfg) (as : List TAct) (s : TestState) : Prop :=
  match s.pos with
  | .prepare | .deadline | .stamp => s.m.s = .running ∧ s.m.delivered = [] ∧ Calm s.sent
  | .loop l => s.m.s = .running ∧ s.m.delivered = l.recorded ∧ Calm s.sent
  | .got l x => s.m.s = .running ∧ s.m.delivered = l.recorded ++ [x] ∧ Calm s.sent
  | .leaving r => s.m.s = .running ∧ r = none ∧ s.m.delivered = s.server ∧ EndedWell c as s.sent s.server
  | .stopping r | .waiting r | .returned r => s.m.s ≠ .running ∧ r = none ∧ s.m.delivered = s.server ∧ EndedWell c as s.sent s.server
  | .written => s.m.s ≠ .running ∧ s.m.delivered = s.server ∧ EndedWell c as s.sent s.server ∧ ∃ e, s.file = some e ∧ e.err = none ∧ e.serverMeasurements = s.server

private theorem EndedWell.mono {as bs : List TAct} {sent : List SendEv} {server : List Measurement} (h : EndedWell c as sent server) : EndedWell c (as ++ bs) sent server := by
  rcases h with ⟨h1, h2⟩ | h
  · exact .inl ⟨h1, List.mem_append_left _ h2⟩
  · exact .inr h

private theorem GInv.mono {bs : List TAct} (h : GInv c as s) : GInv c (as ++ bs) s := by
  unfold GInv at h ⊢
  split at h <;> first
    | exact h
    | exact ⟨h.1, h.2.1, h.2.2.1, h.2.2.2.mono⟩
    | exact ⟨h.1, h.2.1, h.2.2.1.mono, h.2.2.2⟩

private theorem calm_append {a b : List SendEv} (ha : Calm a) (hb : Calm b) : Calm (a ++ b) := by
  intro x hx
  rcases List.mem_append.1 hx with h | h
  · exact ha x h
  · exact hb x h

/-- A measurement that is sent. -/
private theorem good_measurement {sent : List SendEv} {l : DlState} {m : Measurement} (hq : Calm sent) :
    ((sendStep c l (.measurement m none none)).2.1.recorded = l.recorded ++ [m]) ∧
    ((sendStep c l (.measurement m none none)).2.2 = none ∧ Calm (sent ++ (sendStep c l (.measurement m none none)).1) ∨
     (sendStep c l (.measurement m none none)).2.2 = some none ∧ EndedWell c as (sent ++ (sendStep c l (.measurement m none none)).1) (l.recorded ++ [m])) := by
  have hj : Calm [SendEv.json m none, .ping none] := by simp [Calm]
  cases hk : c.kind with
  | upload => simp only [sendStep, hk, ulStep]; exact ⟨trivial, .inl ⟨trivial, calm_append hq hj⟩⟩
  | download =>
    simp only [sendStep, hk, dlStep]
    split
    · rename_i hr
      refine ⟨rfl, .inr ⟨rfl, .inr ⟨hk, ⟨sent ++ [.json m none, .ping none], by simp [leave, hk], calm_append hq hj⟩, m, by simp, ?_⟩⟩⟩
      unfold reached at hr
      rw [Bool.and_eq_true] at hr
      refine ⟨hr.1, ?_⟩
      have := hr.2
      split at this
      · cases this
      · rename_i t ht
        exact ⟨t, ht, by simpa using this⟩
    · exact ⟨rfl, .inl ⟨rfl, calm_append hq hj⟩⟩

private theorem good_closed {sent : List SendEv} {l : DlState} (hq : Calm sent) (hx : .measurer .expire ∈ as) :
    (sendStep c l .closed).2.1.recorded = l.recorded ∧ (sendStep c l .closed).2.2 = some none ∧ EndedWell c as (sent ++ (sendStep c l .closed).1) l.recorded := by
  cases hk : c.kind <;> simp only [sendStep, hk, dlStep, ulStep] <;>
    exact ⟨trivial, trivial, .inl ⟨⟨sent, by simp [leave, hk], hq⟩, hx⟩⟩

private theorem good_bulk {sent : List SendEv} {l : DlState} (hq : Calm sent) :
    (sendStep c l (.bulk none none)).2.1.recorded = l.recorded ∧ (sendStep c l (.bulk none none)).2.2 = none ∧ Calm (sent ++ (sendStep c l (.bulk none none)).1) := by
  cases hk : c.kind with
  | upload => simp only [sendStep, hk]; exact ⟨trivial, trivial, by simpa using hq⟩
  | download =>
    simp only [sendStep, hk, dlStep]
    repeat' split
    all_goals exact ⟨by first | rfl | trivial, by first | rfl | trivial, calm_append hq (by simp [Calm])⟩

private theorem own_same {m m' : MState} {a : MAct} (ha : a.own = true) (h : mStep c.m m a = some m') : m'.s = m.s ∧ m'.delivered = m.delivered := by
  cases a <;> simp only [MAct.own] at ha
  all_goals m_cases h
  all_goals first | exact ⟨rfl, rfl⟩ | (cases ha)

private theorem ofStop_same {m m' : MState} {a : MAct} (ha : a.ofStop = true) (h : mStep c.m m a = some m') (hm : m.s ≠ .running) :
    m'.s ≠ .running ∧ m'.delivered = m.delivered := by
  cases a <;> simp only [MAct.ofStop] at ha
  all_goals m_cases h
  all_goals first | (refine ⟨?_, rfl⟩; simp_all; done) | (cases ha) | (refine ⟨?_, rfl⟩; simp only; split <;> simp)

private theorem stop_same {m m' : MState} (h : mStep c.m m .stop = some m') : m'.s ≠ .running ∧ m'.delivered = m.delivered := by
  m_cases h
  exact ⟨by simp, rfl⟩

private theorem ginv (h : (test c).Reaches as s) : (∀ a ∈ as, testWorked a) → GInv c as s := by
  refine LTS.invariant (P := fun as s => (∀ a ∈ as, testWorked a) → GInv c as s) ?_ ?_ h
  · intro _
    cases hk : c.kind <;> simp [test, hk, GInv, Calm]
  · intro as s a s' hr hi hst hw
    have hwa : testWorked a := hw a (by simp)
    have hw0 : ∀ a ∈ as, testWorked a := fun b hb => hw b (List.mem_append_left _ hb)
    replace hi := (hi hw0).mono (bs := [a])
    cases a <;> t_cases hst hm'
    all_goals first
      | exact hi
      | (simp [testWorked] at hwa; done)
      | skip
    · rename_i ha _
      obtain ⟨h1, h2⟩ := own_same ha.1 hm'
      simpa only [GInv, h1, h2] using hi
    · rename_i hp
      simp only [GInv, hp] at hi
      exact ⟨hi.1, hi.2.1, calm_append hi.2.2 (by simp [Calm])⟩
    · rename_i hp
      simp only [GInv, hp] at hi
      exact ⟨hi.1, hi.2.1, calm_append hi.2.2 (by simp [Calm])⟩
    · rename_i hp _
      simp only [GInv, hp] at hi
      exact ⟨hi.1, hi.2.1, hi.2.2⟩
    · rename_i hp hs _
      simp only [GInv, hp] at hi
      m_cases hm'
      rename_i h1 h2
      rw [hs] at h1
      cases h1
      exact ⟨hi.1, by simp [hi.2.1], hi.2.2⟩
    · rename_i json ping _ l x hp
      simp only [GInv, hp] at hi
      obtain ⟨rfl, rfl⟩ := hwa
      obtain ⟨h1, h2⟩ := good_measurement (c := c) (as := as ++ [.output none none]) (l := l) (m := x) hi.2.2
      simp only [GInv, TestState.iterated]
      rcases h2 with ⟨h2, h3⟩ | ⟨h2, h3⟩ <;> simp only [h2]
      · exact ⟨hi.1, hi.2.1.trans h1.symm, h3⟩
      · exact ⟨hi.1, trivial, hi.2.1.trans h1.symm, by rw [h1]; exact h3⟩
    · rename_i l hp hd
      simp only [GInv, hp] at hi
      obtain ⟨h1, h2, h3⟩ := good_closed (c := c) (as := as ++ [.closed]) (l := l) hi.2.2 (List.mem_append_left _ (expired_of_closed hr hw0 hi.1 hd))
      simp only [GInv, TestState.iterated, h2]
      exact ⟨hi.1, trivial, hi.2.1.trans h1.symm, by rw [h1]; exact h3⟩
    · rename_i w p _ _ _ l hp hk _ _
      simp only [GInv, hp] at hi
      obtain ⟨rfl, rfl⟩ := hwa
      obtain ⟨h1, h2, h3⟩ := good_bulk (c := c) (l := l) hi.2.2
      simp only [GInv, TestState.iterated, h2]
      exact ⟨hi.1, hi.2.1.trans h1.symm, h3⟩
    · rename_i hp _ _
      simp only [GInv, hp] at hi
      obtain ⟨h1, h2⟩ := stop_same hm'
      exact ⟨h1, hi.2.1, h2.trans hi.2.2.1, hi.2.2.2⟩
    · rename_i hp ha _
      simp only [GInv, hp] at hi
      obtain ⟨h1, h2⟩ := ofStop_same ha hm' hi.1
      simp only [GInv]
      split <;> (rename_i heq; split at heq <;> cases heq)
      all_goals exact ⟨h1, hi.2.1, h2.trans hi.2.2.1, hi.2.2.2⟩
    · rename_i hp _
      simp only [GInv, hp] at hi
      exact hi
    · rename_i hp
      simp only [GInv, hp] at hi
      exact ⟨hi.1, hi.2.2.1, hi.2.2.2, _, rfl, hi.2.1, rfl⟩

private theorem written_of_file (h : (test c).Reaches as s) : ∀ e, s.file = some e → s.pos = .written := by
  refine LTS.state_invariant (P := fun s => ∀ e, s.file = some e → s.pos = .written) ?_ ?_ h
  · cases hk : c.kind <;> simp [test, hk]
  · intro s a s' hi hst
    cases a <;> t_cases hst hm'
    all_goals first
      | exact hi
      | (intro e he; rfl)
      | (intro e he; have := hi e he; simp_all; done)

/-- C95: if no call of the server fails, a subtest ends without an error: every measurement that was taken and handed to the sender was sent to the client and is in the result, each with the kernel's statistics; the
server closed the connection and counted one reason, and this was because the time was up or because the download reached its limit. -/
theorem C95_server (h : (test c).Reaches as s) (hw : ∀ a ∈ as, testWorked a) {e : SubtestEnd} (hf : s.file = some e) :
    e.err = none ∧ e.crash = none ∧ EndedWell c as s.sent e.serverMeasurements ∧ sentMeasurements s.sent = e.serverMeasurements ∧ s.m.delivered = e.serverMeasurements ∧
    ∀ m ∈ e.serverMeasurements, m.conn.isSome ∧ m.bbr.isSome ∧ m.tcp.isSome := by
  have hi := ginv h hw
  have hpos : s.pos = .written := written_of_file h _ hf
  simp only [GInv, hpos] at hi
  obtain ⟨-, h1, h2, e', he, h3, h4⟩ := hi
  rw [hf] at he
  cases he
  refine ⟨h3, (C91_sender h hf).2, h4 ▸ h2, (C91_server_measurements h hf).1.symm, h1.trans h4.symm, fun m hm => ?_⟩
  obtain ⟨-, ⟨ps, p1, p2, p3⟩, -, -, -⟩ := C91_server_measurements h hf
  obtain ⟨i, hi, rfl⟩ := List.getElem_of_mem hm
  have hlt : i < ps.length := p3.length_eq ▸ hi
  have hp := (List.forall₂_iff_get.1 p3).2 i hlt hi
  simp only [List.get_eq_getElem] at hp
  have : ps[i].2 ∈ readOutcomes (as.flatMap toM) := p2.subset (List.mem_map.2 ⟨_, List.getElem_mem hlt, rfl⟩)
  obtain ⟨y, hy, hx⟩ := List.mem_filterMap.1 this
  cases y <;> simp at hx
  rename_i info
  obtain ⟨b, t, hbt⟩ := hw _ (own_of h _ hy rfl)
  obtain ⟨us, h5, h6, -, -⟩ := hp.ok b t (by rw [← hx, hbt])
  simp [hp.conn, h5, h6]

/-! ## The client -/

/-- How receiving ended: the connection was closed (or broke), or the time was up. -/
def HeardOut (c : TestCfg) (as : List TAct) (heard : List RecvEv) : Prop :=
  (heard = [.setDeadline none, rxCount c.kind "read-message-type"] ∧ ∃ pongs e, .rxNext pongs (.broken e) ∈ as) ∨
  (heard = [.setDeadline none, rxCount c.kind "receiver-context-expired"] ∧ (.ctxEnd ∈ as ∨ .receiverTimeout ∈ as))

private theorem pongs_fine (kind : Subtest) : ∀ ps : List Pong, (∀ p ∈ ps, PongOk p) → handlePongs kind ps = ([], true)
  | [], _ => rfl
  | p :: ps, h => by
    obtain ⟨raw, n, h1, h2⟩ := h p (by simp)
    rw [handlePongs, (C56_accepted_exactly _ _ _).2 (.inl ⟨raw, n, h1, h2, rfl⟩)]
    exact pongs_fine kind ps fun q hq => h q (List.mem_cons_of_mem _ hq)

private def kept (c : TestCfg) : TAct → Prop := clientKept c.kind fun b => (c.parse b).isSome

private structure Heard (c : TestCfg) (as : List TAct) (s : TestState) : Prop where
  pos : match s.r with
    | .deadline => s.heard = [] ∧ s.client = [] ∧ clientTexts as = []
    | .top | .reading => s.heard = [.setDeadline none] ∧ (clientTexts as).map c.parse = s.client.map some
    | .appending l => s.heard = [.setDeadline none] ∧ (clientTexts as).map c.parse = l.map some ∧ ∃ x, l = s.client ++ [x]
    | .returned | .exited => HeardOut c as s.heard ∧ (clientTexts as).map c.parse = s.client.map some
  cancelled : s.cancelled = true → s.r = .exited
  ctx : s.ctxDone = true → .ctxEnd ∈ as
  timeout : s.timedOut = true → .receiverTimeout ∈ as

private theorem texts_append (as bs : List TAct) : clientTexts (as ++ bs) = clientTexts as ++ clientTexts bs := List.filterMap_append

private theorem HeardOut.mono {bs : List TAct} {heard : List RecvEv} (h : HeardOut c as heard) : HeardOut c (as ++ bs) heard := by
  rcases h with ⟨h1, p, e, h2⟩ | ⟨h1, h2⟩
  · exact .inl ⟨h1, p, e, List.mem_append_left _ h2⟩
  · exact .inr ⟨h1, h2.imp (List.mem_append_left _) (List.mem_append_left _)⟩

private theorem Heard.mono {a : TAct} (h : Heard c as s) (ha : clientTexts [a] = []) : Heard c (as ++ [a]) s := by
  obtain ⟨h1, h2, h3, h4⟩ := h
  refine ⟨?_, h2, fun h => List.mem_append_left _ (h3 h), fun h => List.mem_append_left _ (h4 h)⟩
  rw [texts_append, ha, List.append_nil]
  split at h1 <;> first
    | exact h1
    | exact ⟨h1.1.mono, h1.2⟩

/-- What a message in order does. -/
private theorem kept_step {pongs : List Pong} {i : Incoming} {l : List Measurement} (h : kept c (.rxNext pongs i)) :
    (∃ e, i = .broken e ∧ rxStep c.parse c.kind l (.next pongs i) = ([rxCount c.kind "read-message-type"], l, some ()) ∧ clientTexts [.rxNext pongs i] = []) ∨
    (rxStep c.parse c.kind l (.next pongs i) = ([], l, none) ∧ clientTexts [.rxNext pongs i] = []) ∨
    ∃ b m, c.parse b = some m ∧ rxStep c.parse c.kind l (.next pongs i) = ([], l ++ [m], none) ∧ clientTexts [.rxNext pongs i] = [b] := by
  obtain ⟨h1, h2⟩ := h
  have hp := pongs_fine c.kind pongs h1
  cases i with
  | broken e => exact .inl ⟨e, rfl, by simp [rxStep, hp], rfl⟩
  | binary =>
    have hk : c.kind = .upload := h2
    rw [hk] at hp
    exact .inr (.inl ⟨by simp [rxStep, hp, hk], rfl⟩)
  | text pongs2 body =>
    obtain ⟨h3, b, rfl, h4⟩ := h2
    obtain ⟨m, hm⟩ := Option.isSome_iff_exists.1 h4
    exact .inr (.inr ⟨b, m, hm, by simp [rxStep, hp, pongs_fine c.kind pongs2 h3, hm], rfl⟩)

private theorem heard_inv (h : (test c).Reaches as s) : (∀ a ∈ as, testWorked a) → (∀ a ∈ as, kept c a) → Heard c as s := by
  refine LTS.invariant (P := fun as s => (∀ a ∈ as, testWorked a) → (∀ a ∈ as, kept c a) → Heard c as s) ?_ ?_ h
  · intro _ _
    cases hk : c.kind <;> constructor <;> simp [test, hk, clientTexts]
  · intro as s a s' _ hi hst hw hk
    have hwa : testWorked a := hw a (by simp)
    have hka : kept c a := hk a (by simp)
    replace hi := hi (fun b hb => hw b (List.mem_append_left _ hb)) (fun b hb => hk b (List.mem_append_left _ hb))
    by_cases hn : ∃ pongs i, a = .rxNext pongs i
    · obtain ⟨pongs, i, rfl⟩ := hn
      obtain ⟨h1, h2, h3, h4⟩ := hi
      have hmem : .rxNext pongs i ∈ as ++ [.rxNext pongs i] := by simp
      have hc : s.r = .reading → s.cancelled = true → False := fun hr hcn => by rw [hr] at h2; cases h2 hcn
      simp only [test, testStep] at hst
      split at hst
      · rename_i hr
        simp only [hr] at h1
        simp only [Option.some.injEq] at hst
        subst hst
        rcases kept_step (l := s.client) hka with ⟨e, rfl, k1, k2⟩ | ⟨k1, k2⟩ | ⟨b, m, hm, k1, k2⟩
        · simp only [k1]
          exact ⟨⟨.inl ⟨by simp [h1.1], pongs, e, hmem⟩, by rw [texts_append, k2, List.append_nil]; exact h1.2⟩, fun h => (hc hr h).elim, fun h => List.mem_append_left _ (h3 h),
            fun h => List.mem_append_left _ (h4 h)⟩
        · simp only [k1]
          exact ⟨⟨by simp [h1.1], by rw [texts_append, k2, List.append_nil]; exact h1.2⟩, fun h => (hc hr h).elim, fun h => List.mem_append_left _ (h3 h),
            fun h => List.mem_append_left _ (h4 h)⟩
        · simp only [k1]
          have hlen : (s.client ++ [m]).length ≠ s.client.length := by simp
          simp only [if_neg hlen]
          exact ⟨⟨by simp [h1.1], by rw [texts_append, k2]; simp [h1.2, hm], m, rfl⟩, fun h => (hc hr h).elim, fun h => List.mem_append_left _ (h3 h),
            fun h => List.mem_append_left _ (h4 h)⟩
      · cases hst
    · replace hi := hi.mono (a := a) (by
        cases a <;> first | rfl | exact absurd ⟨_, _, rfl⟩ hn)
      cases a <;> t_cases hst hm'
      all_goals first
        | exact ⟨hi.pos, hi.cancelled, hi.ctx, hi.timeout⟩
        | (simp [testWorked] at hwa; done)
        | (exact absurd ⟨_, _, rfl⟩ hn)
        | skip
      all_goals obtain ⟨h1, h2, h3, h4⟩ := hi
      · exact ⟨h1, h2, fun _ => by simp, h4⟩
      · exact ⟨h1, h2, h3, fun _ => by simp⟩
      · rename_i hr
        simp only [hr] at h1 h2
        exact ⟨⟨by simp [h1.1], by simp [h1.2.1, h1.2.2]⟩, (fun h => by cases h2 h), h3, h4⟩
      · rename_i hr _
        simp only [hr] at h1 h2
        exact ⟨h1, (fun h => by cases h2 h), h3, h4⟩
      · rename_i hr hd
        simp only [hr] at h1 h2
        refine ⟨⟨.inr ⟨by simp [h1.1, rxStep], ?_⟩, h1.2⟩, (fun h => by cases h2 h), h3, h4⟩
        simp only [TestState.rxDone, TestState.recvDone, Bool.or_eq_true] at hd
        rcases hd with (hd | hd) | hd
        · cases h2 hd
        · exact .inl (h3 hd)
        · exact .inr (h4 hd)
      · rename_i l hr
        simp only [hr] at h1 h2
        exact ⟨⟨h1.1, h1.2.1⟩, (fun h => by cases h2 h), h3, h4⟩
      · rename_i hr
        simp only [hr] at h1
        exact ⟨h1, fun _ => rfl, h3, h4⟩

/-- C95: a client that keeps to the protocol is never counted under an error: receiving ends because the connection was closed or because the time was up. All its messages are in the result, in order; only if the time was
up before it closed the connection may the very last one be missing. -/
theorem C95_client (h : (test c).Reaches (as ++ [.write]) s) (hw : ∀ a ∈ as, testWorked a) (hk : ∀ a ∈ as, clientKept c.kind (fun b => (c.parse b).isSome) a) {e : SubtestEnd} (hf : s.file = some e) :
    (s.heard = [] ∨ s.heard = [.setDeadline none] ∨ HeardOut c as s.heard) ∧ (.ctxEnd ∉ as → HeardOut c as s.heard) ∧
    ((clientTexts as).map c.parse = e.clientMeasurements.map some ∨ .ctxEnd ∈ as ∧ ∃ y, (clientTexts as).map c.parse = (e.clientMeasurements ++ [y]).map some) := by
  obtain ⟨s0, h0, hst⟩ := LTS.reaches_snoc.1 h
  obtain ⟨h1, h2, h3, -⟩ := heard_inv h0 hw hk
  have hd : .ctxEnd ∉ as → s0.r = .exited := by
    intro hn
    have hp : ∃ r, s0.pos = .returned r := by
      simp only [test, testStep] at hst
      split at hst
      · rename_i r hp; exact ⟨r, hp⟩
      · cases hst
    have := returned_done h0 hp
    simp only [TestState.recvDone, Bool.or_eq_true] at this
    rcases this with hc | hc
    · exact h2 hc
    · exact absurd (h3 hc) hn
  have he : e.clientMeasurements = s0.client ∧ s.heard = s0.heard := by
    t_cases hst hm'
    cases hf
    exact ⟨rfl, rfl⟩
  rw [he.1, he.2]
  refine ⟨?_, ?_, ?_⟩
  · split at h1
    · exact .inl h1.1
    · exact .inr (.inl h1.1)
    · exact .inr (.inl h1.1)
    · exact .inr (.inl h1.1)
    · exact .inr (.inr h1.1)
    · exact .inr (.inr h1.1)
  · intro hn
    rw [hd hn] at h1
    exact h1.1
  · by_cases hn : .ctxEnd ∈ as
    · split at h1
      · exact .inl (by simp [h1.2.1, h1.2.2])
      · exact .inl h1.2
      · exact .inl h1.2
      · obtain ⟨-, h1, x, rfl⟩ := h1
        exact .inr ⟨hn, x, h1⟩
      · exact .inl h1.2
      · exact .inl h1.2
    · rw [hd hn] at h1
      exact .inl h1.2

/-! ## The request -/

/-- What the request asks for: no early exit, or one after 250 MB of 1000000 bytes. -/
def AskedFor (q : Query) (p : Params) : Prop :=
  Absent q (str "early_exit") ∧ p = ⟨false, 0⟩ ∨ FirstValue q (str "early_exit") (str "250") ∧ p = ⟨true, 250000000⟩

/-- What a subtest is told of this: an upload has no early exit. -/
def paramsFor (k : Subtest) (p : Params) : Option Params :=
  match k with
  | .download => some p
  | .upload => none

/-- C95: no request that follows the specification is turned away: if it asks for the subprotocol and has no early exit or the documented one, with whatever other parameters, and the machine does its part, it is counted as
"result" and nothing else, gets no error response, and its subtest runs. -/
theorem C95_request {h : Server} {kind : Subtest} {req : Request} {evs : List Ev} {out : Outcome Unit} {s' : Result} (hq : QueryOk req)
    (he : Exec (runMeasurement h kind req) {} evs out s') (hp : req.protocol = str "net.measurementlab.ndt.v7")
    {p : Params} (hv : AskedFor req.query p) (hw : ∀ x ∈ evs, requestWorked x) :
    statuses evs = [(directionText kind, str "result")] ∧ responses evs = [] ∧
      ∃ x, subtests evs = [(kind, paramsFor kind p, x)] := by
  obtain ⟨md, hmd, -⟩ := C38_metadata_exact (q := req.query2)
    ⟨(hq.same.map Prod.fst).nodup_iff.1 hq.wf.distinct, fun e he => hq.wf.nonempty e (hq.same.mem_iff.2 he)⟩
  have hp1 : validateEarlyExit req.query = .ok (.ok p) := by
    rcases hv with ⟨ha, rfl⟩ | ⟨ha, rfl⟩
    · exact (C37_accepts_absent hq.wf).2 ha
    · exact (C37_accepts_250 hq.wf).2 ha
  obtain ⟨h1, h2, h3⟩ := wp_iff.1 (runMeasurement_tested h kind req md hmd {} _ hp1 hp) _ _ _ he hw
  exact ⟨by rw [h1]; cases kind <;> rfl, h2, by cases kind <;> exact h3⟩

/-- C95: such a request, when also its subtest goes as it should, the client keeps to the protocol and the disk works, is counted once as "result" and once as a test without an error, and leaves one file: JSON with everything
that the server measured and sent to the client, each time with the kernel's statistics, with everything the client sent (only the very last message may be missing, if the time was up), and with the times of the subtest. This
holds beside any number of other requests, whatever they do. -/
theorem C95_file {K : Layout} (hK : LayoutOk K) {gz : Bytes → Bytes} {srv : Nat → Server} {kind : Nat → Subtest} {req : Nat → Request} {fs0 fs : Fs} {g : List (Nat × Ev)}
    (hint : Interleaved srv kind req g) (hr : FsRun (fun r => (encodeResult K r).getD []) gz fs0 g fs)
    {i : Nat} {out : Outcome Unit} {s' : Result} (hq : QueryOk (req i)) (he : Exec (runMeasurement (srv i) (kind i) (req i)) {} (mine i g) out s')
    (hp : (req i).protocol = str "net.measurementlab.ndt.v7") {p : Params} (hv : AskedFor (req i).query p)
    (hwork : ∀ x ∈ mine i g, requestWorked x) (hd : DiskInOrder K (mine i g)) (hclock : ∀ t, .clock t ∈ mine i g → FourDigitYear t)
    (hremote : ∀ a : TcpAddr, .call .remoteAddr (.ok (some a)) ∈ mine i g → InInt64 a.port) (hlocal : ∀ a : TcpAddr, .call .localAddr (.ok (some a)) ∈ mine i g → InInt64 a.port)
    {c : TestCfg} {as : List TAct} {s : TestState} (hw : ∀ x ∈ subtests (mine i g), WentAs K x c as s) (hsub : ∀ a ∈ as, testWorked a)
    (hkept : ∀ a ∈ as, clientKept (kind i) (fun b => ∃ m, decodeMeasurement K b = some m ∧ ∀ c, m.conn = some c → c.startZone.natAbs < 1440) a) :
    statuses (mine i g) = [(directionText (kind i), str "result")] ∧ responses (mine i g) = [] ∧
    (∃ label, testResults (mine i g) = [(label, directionText (kind i), str "okay-with-rate")] ∨ testResults (mine i g) = [(label, directionText (kind i), str "okay-without-rate")]) ∧
    ∃ t0 t1 path uuid id r d text j, marks (mine i g) = [.created t0 uuid id, .opened path, .wrote path r, .deleted t1 uuid] ∧
      fs.files path = some (if (srv i).compress then gz text else text) ∧ IsJson text j ∧ resultDoc K r j ∧
      under (kind i) r = some d ∧ under (other (kind i)) r = none ∧ d.uuid = uuid ∧
      d.serverMeasurements = s.m.delivered ∧ sentMeasurements s.sent = s.m.delivered ∧ EndedWell c as s.sent s.m.delivered ∧ (kind i = .download → c.params = p) ∧
      (∀ m ∈ d.serverMeasurements, m.conn.isSome ∧ m.bbr.isSome ∧ m.tcp.isSome) ∧
      ((clientTexts as).map (decodeMeasurement K) = d.clientMeasurements.map some ∨
        .ctxEnd ∈ as ∧ ∃ y, (clientTexts as).map (decodeMeasurement K) = (d.clientMeasurements ++ [y]).map some) ∧
      stamps as = [d.startTime] ∧ finishes as = [d.endTime] ∧ d.startTime ≤ d.endTime := by
  obtain ⟨h1, h2, x, hx⟩ := C95_request hq he hp hv hwork
  have hnp : ∀ q msg, .call q (.panic msg) ∉ mine i g := fun q msg hm => hwork _ hm
  generalize hxx : (kind i, paramsFor (kind i) p, x) = y at hx
  replace hw : WentAs K y c as s := hw y (by rw [hx]; simp)
  have hki : c.kind = kind i := hw.kind.trans (by rw [← hxx])
  have hall : ∀ a ∈ as ++ [.write], testWorked a := by
    intro a ha
    rcases List.mem_append.1 ha with ha | ha
    · exact hsub a ha
    · simp only [List.mem_singleton] at ha; subst ha; trivial
  obtain ⟨e1, e2, e3, e4, e5, e6⟩ := C95_server hw.run hall hw.file
  have hk2 : ∀ a ∈ as, clientKept c.kind (fun b => (c.parse b).isSome) a := by
    intro a ha
    have := hkept a ha
    rw [hki]
    revert this
    cases a <;> try exact fun _ => trivial
    rename_i pongs inc
    cases inc <;> simp only [clientKept] <;> try exact id
    rintro ⟨k1, k2, b, rfl, m, k3, -⟩
    exact ⟨k1, k2, b, rfl, by rw [hw.parse, k3]; rfl⟩
  obtain ⟨f1, f2, f3⟩ := C95_client hw.run hsub hk2 hw.file
  have hz : ∀ m ∈ y.2.2.clientMeasurements, ∀ c, m.conn = some c → c.startZone.natAbs < 1440 := by
    intro m hm cc hcc
    have hmem : some m ∈ (clientTexts as).map c.parse := by
      rcases f3 with f3 | ⟨-, z, f3⟩
      · rw [f3]; exact List.mem_map_of_mem hm
      · rw [f3]; exact List.mem_map_of_mem (by simp [hm])
    obtain ⟨b, hb, hbm⟩ := List.mem_map.1 hmem
    obtain ⟨a, ha, hab⟩ := List.mem_filterMap.1 hb
    have hka := hkept a ha
    split at hab
    · cases hab
      obtain ⟨-, -, b', hb', m', hm', hz⟩ := hka
      cases hb'
      rw [hw.parse, hm'] at hbm
      cases hbm
      exact hz _ hcc
    · cases hab
  have hxs : ∀ z ∈ subtests (mine i g), z = y := by rw [hx]; simp
  obtain ⟨o1, o2, o3⟩ := C91_in_order hw
  have ho : InOrder K (mine i g) := ⟨hclock, hremote, hlocal, fun z hz => hxs z hz ▸ o1, fun z hz => hxs z hz ▸ o2, fun z hz => hxs z hz ▸ o3⟩
  obtain ⟨t0, t1, path, uuid, id, r, d, text, j, g1, g2, g3, g4, -, -, g5, g6, g7, -, g8⟩ :=
    C90_request_file hK hint hr hq he (fun q msg hm => absurd hm (hnp q msg)) hd ho (by rw [h1]; simp) (fun z hz' => hxs z hz' ▸ hz)
  obtain ⟨g9, g10, g11, g12⟩ := g8 y (by rw [hx]; simp)
  obtain ⟨k2, k3⟩ := C91_times hw.run hw.file
  have hst : stamps (as ++ [.write]) = stamps as := by simp [stamps]
  have hfi : finishes (as ++ [.write]) = finishes as := by simp [finishes]
  rw [hst, hfi] at k3
  obtain ⟨k4, k5⟩ : stamps as = [d.startTime] ∧ finishes as = [d.endTime] := by
    rw [g11, g12]
    exact k3.resolve_right fun h => h.2.2.2.2.1 e1
  obtain ⟨label, k1, -⟩ := C41_counted_partial hq he (fun q msg hm => absurd hm (hnp q msg)) (x := y) (by rw [hx]; simp) e2
  refine ⟨h1, h2, ⟨label, ?_⟩, t0, t1, path, uuid, id, r, d, text, j, g1, g2, g3, g4, g5, g6, g7, ?_, ?_, ?_, ?_, ?_, ?_, k4, k5, by rw [g11, g12]; exact k2⟩
  · rw [k1, e1]
    simp only [Option.isSome_none, resultText]
    cases decide (subtestRate (kind i) y.2.2.serverMeasurements = F64.fin 0) <;> simp
  · rw [g9, e5]
  · rw [e4, e5]
  · rw [e5]
    exact e3.imp (fun h => ⟨h.1, by simpa using h.2⟩) fun h => h
  · intro hk
    refine hw.params p ?_
    rw [← hxx, hk]
    rfl
  · rw [g9]; exact e6
  · rw [g10, ← hw.parse]; exact f3

/-! ## Example -/

/-- A download up to its first measurement. -/
def exFirst : List TAct :=
  [.measurer (.start 5), .prepare none, .rxDeadline none, .measurer (.newTicker true), .deadline none, .measurer .assign, .stamp 7, .measurer .check, .bulk none none, .rxCheck,
   .measurer (.tickHand 2007), .measurer (.measure (.ok ({}, {}))), .receive, .output none none]

/-- Its second measurement, and the end of the time. -/
def exSecond : List TAct :=
  [.rxAppend, .rxCheck, .measurer .check, .measurer (.tickHand 4007), .measurer (.measure (.ok ({}, {}))), .receive, .output none none, .measurer .expire, .measurer .check,
   .measurer .exit, .closed]

/-- Its end. -/
def exThird : List TAct := [.rxCancel, .finish 9000, .stopping .lookAtTicker, .stopping .cancelTicker, .stopping .drained, .received]

/-- This download, with a message and pongs of the client. -/
def exFineOf (ps qs : List Pong) (b : Bytes) : List TAct :=
  exFirst ++ .rxNext ps (.text [] (.ok b)) :: (exSecond ++ .rxNext qs (.broken (str "closed")) :: exThird)

/-- The pongs answer the two pings. -/
def exFineSteps : List TAct := exFineOf [⟨ticksPayload 2007, 2009⟩] [⟨ticksPayload 4007, 4010⟩] exClientBody

/-- What it leaves. -/
def exFineLeft : SubtestEnd :=
  { startTime := 7, endTime := 9000, serverMeasurements := [exSample, { exSample with bbr := some ⟨{}, 4⟩, tcp := some ⟨{}, 4⟩ }], clientMeasurements := [exClientMeaning] }

private theorem runFrom_replace {c : TestCfg} {s : TestState} {as bs : List TAct} {a b : TAct} (h : ∀ s, (test c).step s a = (test c).step s b) :
    (test c).runFrom s (as ++ a :: bs) = (test c).runFrom s (as ++ b :: bs) := by
  rw [LTS.runFrom_append, LTS.runFrom_append]
  simp only [LTS.runFrom, h]

private theorem pongs_same {c : TestCfg} {ps : List Pong} (h : ∀ p ∈ ps, PongOk p) (i : Incoming) (s : TestState) : (test c).step s (.rxNext ps i) = (test c).step s (.rxNext [] i) := by
  simp only [test, testStep, rxStep, pongs_fine _ _ h, pongs_fine c.kind [] (by simp)]

theorem exFine_of (P : Bytes → Option Measurement) (b : Bytes) (m : Measurement) (hP : P b = some m) {ps qs : List Pong} (hps : ∀ p ∈ ps, PongOk p) (hqs : ∀ p ∈ qs, PongOk p) :
    ∃ s, (test { exTestCfg with parse := P }).Reaches (exFineOf ps qs b ++ [.write]) s ∧ s.file = some { exFineLeft with clientMeasurements := [m] } := by
  have h : (test { exTestCfg with parse := P }).runFrom (test { exTestCfg with parse := P }).init (exFineOf [] [] b ++ [.write]) =
    (test { exTestCfg with parse := fun _ => P b }).runFrom (test { exTestCfg with parse := fun _ => P b }).init (exFineOf [] [] b ++ [.write]) := rfl
  unfold LTS.Reaches
  have e : ∀ ps qs, exFineOf ps qs b ++ [.write] = exFirst ++ .rxNext ps (.text [] (.ok b)) :: (exSecond ++ .rxNext qs (.broken (str "closed")) :: (exThird ++ [.write])) := by
    intro ps qs; simp [exFineOf]
  have e' : ∀ ps qs, exFineOf ps qs b ++ [.write] = (exFirst ++ .rxNext ps (.text [] (.ok b)) :: exSecond) ++ .rxNext qs (.broken (str "closed")) :: (exThird ++ [.write]) := by
    intro ps qs; simp [exFineOf]
  rw [e, runFrom_replace (pongs_same hps _), ← e, e', runFrom_replace (pongs_same hqs _), ← e']
  rw [h, hP]
  refine ⟨_, rfl, ?_⟩
  rfl

/-- A pong that repeats the payload of a ping is in order. -/
theorem C95_pong {sent : Int} (h : InInt64 sent) (t : Int) : PongOk ⟨ticksPayload sent, t⟩ :=
  ⟨itoa sent, sent, parseJson_iff.1 (parseJson_itoa sent), atoi_iff.1 (atoi_itoa h)⟩

/-- The state at its end. -/
theorem exFine_reach : ∃ s, (test exTestCfg).Reaches (exFineSteps ++ [.write]) s ∧ s.file = some exFineLeft :=
  exFine_of _ _ _ exClient_read (by simp only [List.mem_singleton, forall_eq]; exact C95_pong (by simp [InInt64]) _) (by simp only [List.mem_singleton, forall_eq]; exact C95_pong (by simp [InInt64]) _)

theorem exFine_went : ∃ s, WentAs exLayout (.download, some ⟨false, 0⟩, exFineLeft) exTestCfg exFineSteps s := by
  obtain ⟨s, h1, h2⟩ := exFine_reach
  refine ⟨s, rfl, ?_, rfl, h1, h2, ?_, ?_⟩
  · rintro p ⟨⟩; rfl
  · intro a ha t ht
    have : t ∈ exFineSteps.filterMap reading := List.mem_filterMap.2 ⟨a, ha, ht⟩
    have : t ∈ [5, 7, 2007, 4007, 9000] := this
    simp only [List.mem_cons, List.not_mem_nil, or_false] at this
    rcases this with rfl | rfl | rfl | rfl | rfl <;> exact ⟨by unfold FourDigitYear; decide +kernel, by simp [InInt64]⟩
  · intro b t h
    simp [exFineSteps, exFineOf, exFirst, exSecond, exThird] at h
    rw [h.2]
    exact ⟨.cons (by decide) (.cons (by decide) .nil), rfl⟩

theorem exFine_worked : ∀ a ∈ exFineSteps, testWorked a := by
  simp [exFineSteps, exFineOf, exFirst, exSecond, exThird, testWorked]

theorem exFine_kept : ∀ a ∈ exFineSteps, clientKept .download (fun b => ∃ m, decodeMeasurement exLayout b = some m ∧ ∀ c, m.conn = some c → c.startZone.natAbs < 1440) a := by
  have h1 : PongOk ⟨ticksPayload 2007, 2009⟩ := C95_pong (by simp [InInt64]) _
  have h2 : PongOk ⟨ticksPayload 4007, 4010⟩ := C95_pong (by simp [InInt64]) _
  have h3 : ∃ m, decodeMeasurement exLayout exClientBody = some m ∧ ∀ c, m.conn = some c → c.startZone.natAbs < 1440 := ⟨_, exClient_read, by simp [exClientMeaning]⟩
  simp [exFineSteps, exFineOf, exFirst, exSecond, exThird, clientKept, h1, h2, h3]

/-- The record of the request. -/
def exFineRecord : Result :=
  { exDiskRecord with download := some { uuid := str "u", clientMetadata := [⟨str "client_name", str "x"⟩], serverMetadata := [⟨str "machine-type", str "virtual"⟩],
                                         startTime := 7, endTime := 9000, serverMeasurements := exFineLeft.serverMeasurements, clientMeasurements := [exClientMeaning] } }

/-- What happens before its result is written. -/
def exFineBegin : List Ev :=
  exBegin exFineLeft ++ [.call .localText (.ok (str "[::1]:443")), .emit (.testResult (str "ndt7+wss") (str "download") (str "okay-without-rate")), .clock exTime, .clock exTime,
    .call (.mkdirAll (str "/d/ndt7/2020/11/06")) (.ok none)]

/-- The events of the request. -/
def exFineEvents : List Ev := exFineBegin ++ [.call (.openExcl exDiskPath) (.ok none),
    .call (.write exDiskPath false exFineRecord) (.ok none), .call (.fileClose exDiskPath) (.ok none)] ++ exDiskEnd

private theorem exDir : resultDir calendar (str "/d") exTime = str "/d/ndt7/2020/11/06" := by decide +kernel
private theorem exName : resultName calendar (str "/d") Subtest.download.name (str "u") false exTime = exDiskPath := by decide +kernel

/-- The request. -/
theorem exFine_exec : Exec (runMeasurement (exDisk false) .download exRequest) {} exFineEvents (.ok ()) exFineRecord := by
  have hrate : downRate exFineLeft.serverMeasurements = .fin 0 :=
    C57_no_bytes .download (ms := [exSample]) (m := { exSample with bbr := some ⟨{}, 4⟩, tcp := some ⟨{}, 4⟩ }) rfl rfl (by decide) (by decide)
  rw [exFineEvents, ← exName, exFineBegin, ← exDir]
  follow
  dsimp only
  rw [hrate]
  repeat (first | exact rfl | refine ⟨rfl, ?_⟩)

theorem exFine_request : ∀ x ∈ exFineEvents, requestWorked x := by
  simp [exFineEvents, exFineBegin, exBegin, exDiskEnd, requestWorked]

theorem exFine_asked : AskedFor exRequest.query ⟨false, 0⟩ := .inl ⟨by simp [Absent, exRequest]; decide, rfl⟩

/-- The hypotheses hold for this request, beside requests that have not begun. -/
example (gz : Bytes → Bytes) : ∃ g fs s', Interleaved (fun _ => exDisk false) (fun _ => .download) (fun _ => exRequest) g ∧
    FsRun (fun r => (encodeResult exLayout r).getD []) gz exFs g fs ∧ QueryOk exRequest ∧ Exec (runMeasurement (exDisk false) .download exRequest) {} (mine 0 g) (.ok ()) s' ∧
    (∀ x ∈ mine 0 g, requestWorked x) ∧ DiskInOrder exLayout (mine 0 g) ∧ (∀ t, .clock t ∈ mine 0 g → FourDigitYear t) ∧
    (∀ a : TcpAddr, .call .remoteAddr (.ok (some a)) ∈ mine 0 g → InInt64 a.port) ∧ (∀ a : TcpAddr, .call .localAddr (.ok (some a)) ∈ mine 0 g → InInt64 a.port) ∧
    ∃ s, ∀ x ∈ subtests (mine 0 g), WentAs exLayout x exTestCfg exFineSteps s := by
  have h0 := fsRun_idle (json := fun r => (encodeResult exLayout r).getD []) (gz := gz) (fs0 := exFs) .nil 0 exFineBegin (by simp [exFineBegin, exBegin, isFileOp, isFileCall])
  have h1 := FsRun.snoc _ 0 _ _ _ h0 (.create _ exDiskPath (by decide +kernel))
  have h2 := FsRun.snoc _ 0 _ _ _ h1 (.write _ exDiskPath [] ((encodeResult exLayout exFineRecord).getD []) [] false exFineRecord (.ok none) (by simp [Fs.set]) (by simp [document])
    fun _ _ => rfl)
  have h3 := fsRun_idle h2 0 ([.call (.fileClose exDiskPath) (.ok none)] ++ exDiskEnd) (by simp [isFileOp, isFileCall, exDiskEnd])
  have hmine : mine 0 (exFineEvents.map (0, ·)) = exFineEvents := by
    generalize exFineEvents = l
    induction l with
    | nil => rfl
    | cons e l ih =>
      rw [List.map_cons, show ((0, e) :: l.map (0, ·) : List (Nat × Ev)) = [(0, e)] ++ l.map (0, ·) from rfl, mine_append, ih]
      simp [mine]
  have henc : (encodeResult exLayout exFineRecord).isSome = true := by decide +kernel
  refine ⟨exFineEvents.map (0, ·), _, _, interleaved_first exFine_exec, by simpa [exFineEvents] using h3, exRequest_ok, by rw [hmine]; exact exFine_exec, ?_⟩
  rw [hmine]
  obtain ⟨s, hs⟩ := exFine_went
  refine ⟨exFine_request, ⟨?_, ?_, ?_, ?_, ?_⟩, ?_, ?_, ?_, s, ?_⟩
  · intro d a; simp [exFineEvents, exFineBegin, exBegin, exDiskEnd]
  · intro d a; simp [exFineEvents, exFineBegin, exBegin, exDiskEnd]
  · intro p c r a; simp [exFineEvents, exFineBegin, exBegin, exDiskEnd]; rintro rfl rfl rfl h; cases h; exact ⟨_, rfl, by simp [henc]⟩
  · intro d a; simp [exFineEvents, exFineBegin, exBegin, exDiskEnd]
  · intro d a; simp [exFineEvents, exFineBegin, exBegin, exDiskEnd]
  · intro t; simp [exFineEvents, exFineBegin, exBegin, exDiskEnd]; rintro (rfl | rfl) <;> (unfold FourDigitYear; decide +kernel)
  · intro a; simp [exFineEvents, exFineBegin, exBegin, exDiskEnd]
  · intro a; simp [exFineEvents, exFineBegin, exBegin, exDiskEnd]
  · intro x hx
    have : subtests exFineEvents = [(.download, some ⟨false, 0⟩, exFineLeft)] := rfl
    rw [this, List.mem_singleton] at hx
    rw [hx]
    exact hs

end Verif.Props
