import Verif.Ndt5.RecordLemmas
import Verif.Spec.Control

/-! # Whole control connections -/

namespace Verif.Ndt5
open Verif.Go Verif.Spec

set_option maxRecDepth 20000
set_option linter.unusedSimpArgs false

/-- Events of a session that are neither accounting nor disk operations nor concern the control connection as a whole. -/
def inner : Ev → Bool
  | .emit o => !accounting o
  | .call (.close .control) _ => false
  | x => !ofDisk x

/-- Events outside of the session proper. -/
def outer : Ev → Bool
  | .emit o => accounting o
  | .call (.addrs .control) _ => true
  | .call (.uuid .control) _ => true
  | .call (.close .control) _ => true
  | .clock _ => true
  | x => ofDisk x

theorem inner_isSend {x : Ev} (h : isSend x = true) : inner x = true := by
  unfold isSend at h
  split at h
  · rfl
  · cases h

theorem inner_inTest {cfg : Cfg} {d : Dir} {x : Ev} (h : inTest cfg d x = true) : inner x = true := by
  cases x with
  | clock t => rfl
  | call q r =>
    cases q <;> simp_all [inTest, ofTest, inner, ofDisk]
    all_goals (rename_i c; cases c <;> simp_all [ofTest, inner, ofDisk])
  | emit o => cases o <;> simp_all [inTest, ofTest, inner, accounting]

theorem inner_inMeta {cfg : Cfg} {x : Ev} (h : inMeta cfg x = true) : inner x = true := by
  cases x with
  | clock t => rfl
  | call q r => cases q <;> simp_all [inMeta, inner, ofDisk]
  | emit o => cases o <;> simp_all [inMeta, inner, accounting]

theorem outer_silent {d : Dir} {e : List Ev} (h : ∀ x ∈ e, outer x = true) : Silent d e := by
  intro x hx
  have := h x hx
  clear h hx
  cases x with
  | clock t => exact ⟨rfl, fun _ => rfl⟩
  | call q r =>
    refine ⟨?_, fun _ => rfl⟩
    cases q <;> simp_all [outer, ofDisk, ofTest]
    all_goals (rename_i c; cases c <;> simp_all [outer, ofDisk, ofTest])
  | emit o => cases o <;> simp_all [outer, accounting, ofTest, countsResult]

theorem outer_attempts {e : List Ev} (h : ∀ x ∈ e, outer x = true) : attempts e = [] := by
  unfold attempts
  rw [List.filterMap_eq_nil_iff]
  intro x hx
  have := h x hx
  cases x with
  | call q r => cases q <;> simp_all [outer, ofDisk, attemptOf]
  | _ => rfl

theorem outer_sent {e : List Ev} (h : ∀ x ∈ e, outer x = true) : sent e = [] := by
  have := sent_sublist e
  rw [outer_attempts h] at this
  exact List.eq_nil_of_length_eq_zero (by simpa using this)

theorem outer_recv {e : List Ev} (h : ∀ x ∈ e, outer x = true) : e.findSome? recvAnswer = none := by
  rw [List.findSome?_eq_none_iff]
  intro x hx
  have := h x hx
  cases x with
  | call q r => cases q <;> simp_all [outer, ofDisk, recvAnswer]
  | _ => rfl

theorem Parts.inner {cfg : Cfg} {n : Int} {m : Messager} {s s' sU sD : Ctl} {e0 eU eD eM eF : List Ev} {o0 oM o : Outcome Unit}
    {oU oD : Outcome F64} (hp : Parts cfg n m s e0 eU eD eM eF o0 oU oD oM o sU sD s') :
    ∀ x ∈ e0 ++ (eU ++ (eD ++ (eM ++ eF))), inner x = true := by
  intro x hx
  simp only [List.mem_append] at hx
  rcases hx with h | h | h | h | h
  · exact inner_isSend (hp.foot0 x h)
  · exact inner_inTest (hp.footU x h)
  · exact inner_inTest (hp.footD x h)
  · exact inner_inMeta (hp.footM x h)
  · exact inner_isSend (hp.footF x h)

theorem inner_requestNotes {cfg : Cfg} {n : Int} : ∀ x ∈ requestNotes cfg n, inner x = true := by
  unfold requestNotes
  intro x hx
  simp only [List.mem_append] at hx
  rcases hx with h | h | h | h | h | h <;> (try split at h) <;> simp at h <;> subst h <;> rfl

theorem requestNotes_silent {cfg : Cfg} {n : Int} {d : Dir} : Silent d (requestNotes cfg n) := by
  unfold requestNotes
  intro x hx
  simp only [List.mem_append] at hx
  rcases hx with h | h | h | h | h | h <;> (try split at h) <;> simp at h <;> subst h <;> exact ⟨rfl, fun _ => rfl⟩

theorem requestNotes_attempts {cfg : Cfg} {n : Int} : attempts (requestNotes cfg n) = [] ∧ sent (requestNotes cfg n) = [] ∧
    NoCrash (requestNotes cfg n) := by
  unfold requestNotes
  cases requested n 0 <;> cases requested n 1 <;> cases requested n 2 <;> cases requested n 3 <;> cases requested n 5 <;>
    refine ⟨rfl, rfl, ?_⟩ <;> simp [NoCrash, crashed]

theorem Sess.inner {cfg : Cfg} {s s' : Ctl} {e : List Ev} {o : Outcome Unit} (h : Sess cfg s e o s') : ∀ x ∈ e, inner x = true := by
  cases h with
  | crashed => simp [Ndt5.inner, ofDisk]
  | nilLogin => simp [Ndt5.inner, ofDisk]
  | refused => simp [Ndt5.inner, ofDisk, accounting]
  | noStatus => simp [Ndt5.inner, ofDisk, accounting]
  | run frame m n e _ _ _ _ h =>
    obtain ⟨e0, eU, eD, eM, eF, o0, oU, oD, oM, sU, sD, rfl, hp⟩ := suite_parts h
    intro x hx
    simp only [List.mem_cons] at hx
    rcases hx with rfl | hx
    · rfl
    · rcases List.mem_append.1 hx with hx | hx
      · exact inner_requestNotes x hx
      · exact hp.inner x hx

/-! ## The end of a session -/

/-- Storing the record: the events, with the record that is stored. -/
structure Finish (cfg : Cfg) (s : Ctl) (e : List Ev) (o : Outcome Unit) : Prop where
  outer : ∀ x ∈ e, outer x = true ∧ closesControl x = false ∧ noteOf x = none
  clean : NoCrash e → ∃ v, o = .ok v
  works : ∃ t, e.filterMap clockOf = [t] ∧ (DiskWorks e → ∃ path, written e = (if Record.encodable { s.record with endTime := t } then
      [(path, { s.record with endTime := t })] else []) ∧
    (s.record.uuid ≠ badUUID → path = pathJoin [pathJoin [cfg.dataDir, cfg.lib.dateDir s.record.startTime], s.record.uuid ++ str ".json"]))
  atMost : (written e).length ≤ 1

theorem written_nil : written [] = [] := rfl

theorem written_cons (a : Ev) (b : List Ev) : written (a :: b) = (writeOf a).toList ++ written b := by
  unfold written
  rw [List.filterMap_cons]
  cases writeOf a <;> rfl

theorem written_append (a b : List Ev) : written (a ++ b) = written a ++ written b := List.filterMap_append

theorem diskWorks_cons (a : Ev) (b : List Ev) : DiskWorks (a :: b) ↔ diskFailure a = false ∧ DiskWorks b := by simp [DiskWorks]

theorem finish_spec (cfg : Cfg) (s : Ctl) : wp (finishRecord cfg) s (fun e o _ => Finish cfg s e o) := by
  refine wp_opaque fun Q hQ => ?_
  wp_paths [finishRecord, saveData, uuidToFile]
  all_goals refine hQ _ _ _ ?_
  all_goals clear hQ
  all_goals refine ⟨by simp [outer, ofDisk, closesControl, noteOf], ?_, ?_, ?_⟩
  all_goals simp_all [noCrash_cons, noCrash_nil, crashed, diskWorks_cons, diskFailure, written_cons, written_nil, writeOf, clockOf]
  all_goals first
    | (rename_i a _; cases a <;> simp_all [diskFailure, writeOf]; done)
    | (rename_i a _ _; cases a <;> simp_all [diskFailure, writeOf]; done)

/-! ## The whole -/

/-- The events before the session proper. -/
def preEvents (cfg : Cfg) (t0 : Int) (a : Addrs) (t : Int) (u : Bytes) : List Ev :=
  [.emit (.activeTests cfg.label 1), .clock t0, .call (.addrs .control) (.ok a), .clock t, .call (.uuid .control) (.ok u)]

/-- The events after the session proper. -/
def postEvents (cfg : Cfg) (eF : List Ev) (r o : Outcome Unit) (t0 t1 : Int) : List Ev :=
  eF ++ (.call (.close .control) r :: (endNotes cfg o ++
    [.clock t1, .emit (.duration cfg.label (t1 - t0)), .emit (.activeTests cfg.label (-1))]))

/-- All executions of a control connection. -/
inductive Whole (cfg : Cfg) : List Ev → Prop
  | early (mid : List Ev) (t0 t1 : Int) (o : Outcome Unit) : (∀ x ∈ mid, outer x = true ∧ noteOf x = none) → written mid = [] → ¬ NoCrash mid →
      count closesControl mid = 1 → (¬ ∃ v, o = .ok v) → (∀ u, .call (.uuid .control) (.ok u) ∉ mid) →
      Whole cfg ([.emit (.activeTests cfg.label 1), .clock t0] ++ (mid ++ (endNotes cfg o ++
        [.clock t1, .emit (.duration cfg.label (t1 - t0)), .emit (.activeTests cfg.label (-1))])))
  | run (t0 t t1 : Int) (a : Addrs) (u : Bytes) (eS eF : List Ev) (oS oF r : Outcome Unit) (s : Ctl) :
      Sess cfg { record := firstRecord cfg a t u } eS oS s → Finish cfg s eF oF →
      Whole cfg (preEvents cfg t0 a t u ++ (eS ++ postEvents cfg eF r (after (after oS oF) r) t0 t1))

theorem whole {cfg : Cfg} {s s' : Unit} {evs : List Ev} {out : Outcome Unit} (h : Exec (HandleControlChannel cfg) s evs out s') :
    out = .ok () ∧ Whole cfg evs := by
  obtain ⟨rfl, t0, t1, e, o, hc, rfl⟩ := control_parts h
  refine ⟨rfl, ?_⟩
  cases hc with
  | addrs msg r =>
    refine .early _ t0 t1 _ ?_ rfl ?_ ?_ ?_ (by simp)
    · simp [outer, noteOf]
    · simp [noCrash_cons, crashed]
    · simp [count_cons, count_nil, closesControl]
    · cases r <;> simp [after]
  | uuid a t msg r =>
    refine .early _ t0 t1 _ ?_ rfl ?_ ?_ ?_ (by simp)
    · simp [outer, noteOf]
    · simp [noCrash_cons, crashed]
    · simp [count_cons, count_nil, closesControl]
    · cases r <;> simp [after]
  | run a t u eS eF oS oF r s s' hS hF =>
    have h1 := wp_iff.1 (session_parts cfg _) _ _ _ hS
    have h2 := wp_iff.1 (finish_spec cfg _) _ _ _ hF
    have := Whole.run t0 t t1 a u eS eF oS oF r s h1 h2
    simpa [preEvents, postEvents] using this

theorem outer_pre {cfg : Cfg} {t0 t : Int} {a : Addrs} {u : Bytes} : ∀ x ∈ preEvents cfg t0 a t u, outer x = true := by
  simp [preEvents, outer, accounting]

theorem outer_end {cfg : Cfg} {o : Outcome Unit} : ∀ x ∈ endNotes cfg o, outer x = true := by
  cases o <;> simp [endNotes, outer, accounting]

theorem outer_post {cfg : Cfg} {s : Ctl} {eF : List Ev} {oF r o : Outcome Unit} {t0 t1 : Int} (h : Finish cfg s eF oF) :
    ∀ x ∈ postEvents cfg eF r o t0 t1, outer x = true := by
  intro x hx
  simp only [postEvents, List.mem_append, List.mem_cons] at hx
  rcases hx with hx | rfl | hx | rfl | rfl | rfl | hx
  · exact (h.outer x hx).1
  · rfl
  · exact outer_end x hx
  · rfl
  · rfl
  · rfl
  · cases hx

theorem notes_inner {e : List Ev} (h : ∀ x ∈ e, inner x = true) : accounts e = [] := by
  unfold accounts notes
  rw [List.filter_eq_nil_iff]
  intro o ho
  obtain ⟨x, hx, hn⟩ := List.mem_filterMap.1 ho
  have := h x hx
  cases x <;> simp [noteOf] at hn
  subst hn
  simpa [inner] using this

theorem accounts_append (a b : List Ev) : accounts (a ++ b) = accounts a ++ accounts b := by
  simp [accounts, notes_append]

theorem accounts_noNotes {e : List Ev} (h : ∀ x ∈ e, noteOf x = none) : accounts e = [] := by
  have : notes e = [] := List.filterMap_eq_nil_iff.2 h
  simp [accounts, this]

/-- What is accounted for a control connection that ends with `o`. -/
def ledger (cfg : Cfg) (o : Outcome Unit) (ns : Int) : List Note :=
  [.activeTests cfg.label 1] ++ (match o with
    | .ok _ => [.controlCount cfg.label (str "okay")]
    | .panic msg => [.panicCount cfg.label (panicMsgToErrType msg), .controlCount cfg.label (str "panic")]) ++
  [.duration cfg.label ns, .activeTests cfg.label (-1)]

theorem accounts_end (cfg : Cfg) (o : Outcome Unit) (t1 ns : Int) : [Note.activeTests cfg.label 1] ++ accounts (endNotes cfg o ++
    [.clock t1, .emit (.duration cfg.label ns), .emit (.activeTests cfg.label (-1))]) = ledger cfg o ns := by
  cases o <;> rfl

/-- The outcome of the session proper, with its accounts. -/
theorem accounts_run {cfg : Cfg} {t0 t t1 : Int} {a : Addrs} {u : Bytes} {eS eF : List Ev} {oS oF r o : Outcome Unit} {s s0 : Ctl}
    (h1 : Sess cfg s0 eS oS s) (h2 : Finish cfg s eF oF) :
    accounts (preEvents cfg t0 a t u ++ (eS ++ postEvents cfg eF r o t0 t1)) = ledger cfg o (t1 - t0) := by
  rw [accounts_append, accounts_append, notes_inner h1.inner, postEvents, accounts_append,
    accounts_noNotes (fun x hx => (h2.outer x hx).2.2), ← accounts_end cfg o t1]
  rfl

theorem accounts_early {cfg : Cfg} {mid : List Ev} {t0 t1 : Int} {o : Outcome Unit} (h : ∀ x ∈ mid, outer x = true ∧ noteOf x = none) :
    accounts ([.emit (.activeTests cfg.label 1), .clock t0] ++ (mid ++ (endNotes cfg o ++
        [.clock t1, .emit (.duration cfg.label (t1 - t0)), .emit (.activeTests cfg.label (-1))]))) = ledger cfg o (t1 - t0) := by
  rw [accounts_append, accounts_append, accounts_noNotes (fun x hx => (h x hx).2), ← accounts_end cfg o t1]
  rfl

theorem okay_iff {cfg : Cfg} {evs : List Ev} {o : Outcome Unit} {ns : Int} (h : accounts evs = ledger cfg o ns) :
    countedOkay cfg.label evs ↔ ∃ v, o = .ok v := by
  have : countedOkay cfg.label evs ↔ .controlCount cfg.label (str "okay") ∈ accounts evs := by
    simp [countedOkay, accounts, accounting]
  rw [this, h]
  cases o with
  | ok a => simp [ledger]
  | panic msg =>
    have : str "okay" ≠ str "panic" := by decide
    simp [ledger, this]

end Verif.Ndt5
