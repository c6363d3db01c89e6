import Verif.Ndt5.TimeOrder
import Verif.Props.Ndt5Whole

/-!
# The times in a record are in order

C92: if the clock of the server does not run backwards, the times in a record are in the order in which things happened.
-/

namespace Verif.Props
open Verif.Go Verif.Ndt5 Verif.Spec

/-- The times of a record are in order: the connection starts, then come the upload and the download, each if it was measured, and the connection ends. A test that was not
measured has neither time. -/
structure TimesInOrder (evs : List Ev) (r : Record) : Prop where
  connection : r.startTime ≤ r.endTime
  /-- the time that is reported as the duration of the session covers that -/
  duration : ∀ l ns, .emit (.duration l ns) ∈ evs → r.endTime - r.startTime ≤ ns
  upload : ∀ c, r.c2s = some c → (uploadMeasurement evs).isSome = true → r.startTime ≤ c.startTime ∧ c.startTime ≤ c.endTime ∧ c.endTime ≤ r.endTime
  noUpload : ∀ c, r.c2s = some c → uploadMeasurement evs = none → c.startTime = 0 ∧ c.endTime = 0
  download : ∀ d, r.s2c = some d → (downloadMeasurement evs).isSome = true → r.startTime ≤ d.startTime ∧ d.startTime ≤ d.endTime ∧ d.endTime ≤ r.endTime
  noDownload : ∀ d, r.s2c = some d → downloadMeasurement evs = none → d.startTime = 0 ∧ d.endTime = 0
  both : ∀ c d, r.c2s = some c → r.s2c = some d → (uploadMeasurement evs).isSome = true → (downloadMeasurement evs).isSome = true → c.endTime ≤ d.startTime

/-- C92: in a session whose clock never runs backwards, the times of the record are in order. -/
theorem C92_ndt5_times_in_order {cfg : Cfg} {evs : List Ev} {out : Outcome Unit} {r : Record} (h : Exec (HandleControlChannel cfg) () evs out ())
    (hu : ∃ u, .call (.uuid .control) (.ok u) ∈ evs) (ha : Archived cfg evs r) (hm : (clocks evs).Pairwise (· ≤ ·)) : TimesInOrder evs r := by
  obtain ⟨t0, t, tE, t1, during, hc, hs, hdur⟩ := whole_times (whole h).2 hu
  obtain ⟨t0', during', t1', hc'⟩ := ha.times
  rw [hc'] at hc
  simp only [List.cons.injEq] at hc
  obtain ⟨rfl, rfl, hc⟩ := hc
  obtain ⟨rfl, hc2⟩ := List.append_inj' hc rfl
  simp only [List.cons.injEq] at hc2
  obtain ⟨rfl, rfl, -⟩ := hc2
  have hsub : (r.startTime :: ((uploadTimes evs ++ downloadTimes evs) ++ [r.endTime])).Sublist (clocks evs) := by
    rw [hc']
    refine .cons _ (.cons_cons _ (hs.append ?_))
    exact .cons_cons _ (List.nil_sublist _)
  have hp := hm.sublist hsub
  have hU : ∀ c, r.c2s = some c → c.startTime = (uploadRecord evs).startTime ∧ c.endTime = (uploadRecord evs).endTime := fun c hcc => by
    rcases ha.upload with ⟨h1, -⟩ | ⟨-, er, h1, -⟩
    · rw [h1] at hcc; cases hcc
    · rw [h1] at hcc; cases hcc; exact ⟨rfl, rfl⟩
  have hD : ∀ d, r.s2c = some d → ∃ m, d.startTime = (downloadRecord cfg.lib m evs).startTime ∧ d.endTime = (downloadRecord cfg.lib m evs).endTime := fun d hdd => by
    rcases ha.download with ⟨h1, -⟩ | ⟨-, m, n, -, er, h1, -⟩
    · rw [h1] at hdd; cases hdd
    · rw [h1] at hdd; cases hdd; exact ⟨m, rfl, rfl⟩
  unfold uploadTimes downloadTimes at hp
  unfold uploadRecord at hU
  unfold downloadRecord at hD
  constructor
  · rw [List.pairwise_cons] at hp
    exact hp.1 _ (by simp)
  · intro l ns hd
    rw [hdur l ns hd]
    rw [hc', List.pairwise_cons, List.pairwise_cons, List.pairwise_append] at hm
    have h1 := hm.1 r.startTime (by simp)
    have h2 := hm.2.2.2.1
    simp only [List.pairwise_cons, List.mem_singleton, forall_eq] at h2
    omega
  all_goals
    rcases hu' : uploadMeasurement evs with _ | ⟨a, b, c, d⟩ <;> rcases hd' : downloadMeasurement evs with _ | ⟨a', b', _ | _⟩ <;>
    simp only [hu', hd', Option.isSome_none, Option.isSome_some, List.pairwise_cons, List.mem_cons, List.nil_append, List.cons_append, List.append_nil,
      forall_eq_or_imp, Bool.false_eq_true] at hp hU hD ⊢ <;>
    grind

/-- An environment in which everything works, for a client that logs in for an upload and a download. -/
private def bothEnv (h : List Ev) : (q : Call) → Outcome q.Answer
  | .recv => .ok (.ok (if h.length < 10 then [2, 0, 1, 22] else Messager.tlv.frame MsgType.testMsg (str "12")))
  | q => nanEnv h q

/-- A session in this environment; every event takes a second. -/
private def bothSession : List Ev × (Outcome Unit × Unit) :=
  Prog.exec (S := sig) bothEnv (fun h => h.length * 1000000000) (HandleControlChannel plainCfg ()) []

private theorem bothSession_facts : bothSession.1.all (fun x => !crashed x && !diskFailure x) = true ∧ (clocks bothSession.1).Pairwise (· ≤ ·) ∧
    (uploadMeasurement bothSession.1).isSome = true ∧ (downloadMeasurement bothSession.1).isSome = true ∧ (Spec.written bothSession.1).length = 1 ∧
    count (countsResult (labelText .plain) (str "c2s")) bothSession.1 = 1 ∧ count (countsResult (labelText .plain) (str "s2c")) bothSession.1 = 1 ∧
    bothSession.1.any (fun | .call (.uuid .control) (.ok _) => true | _ => false) = true := by decide +kernel

/-- The hypotheses hold for a session with an upload and a download. -/
example : ∃ evs out r, Exec (HandleControlChannel plainCfg) () evs out () ∧ (∃ u, .call (.uuid .control) (.ok u) ∈ evs) ∧ Archived plainCfg evs r ∧
    (clocks evs).Pairwise (· ≤ ·) ∧ (uploadMeasurement evs).isSome = true ∧ (downloadMeasurement evs).isSome = true ∧ r.c2s.isSome = true ∧ r.s2c.isSome = true := by
  obtain ⟨h1, h2, h3, h4, -, h6, h7, h8⟩ := bothSession_facts
  obtain ⟨b, hb⟩ : ∃ b, b = bothSession := ⟨_, rfl⟩
  rw [← hb] at h1 h2 h3 h4 h6 h7 h8
  have h0 := exec_in _ () bothEnv (fun h => h.length * 1000000000) (hb.trans bothSession.eq_1).symm
  have hu : ∃ u, .call (.uuid .control) (.ok u) ∈ b.1 := by
    obtain ⟨x, hx, hy⟩ := List.any_eq_true.1 h8
    split at hy
    · exact ⟨_, hx⟩
    · cases hy
  obtain ⟨r, ha, -⟩ := C16_record_written_partial h0 hu (fun x hx => by have := List.all_eq_true.1 h1 x hx; simp_all)
  refine ⟨_, _, r, h0, hu, ha, h2, h3, h4, ?_, ?_⟩
  · rcases ha.upload with ⟨-, hc⟩ | ⟨-, _, hc, -⟩
    · exact absurd (hc.symm.trans h6) (by decide)
    · rw [hc]; rfl
  · rcases ha.download with ⟨-, hc⟩ | ⟨-, _, _, -, _, hc, -⟩
    · exact absurd (hc.symm.trans h7) (by decide)
    · rw [hc]; rfl

end Verif.Props
