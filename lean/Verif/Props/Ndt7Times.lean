import Verif.Ndt7.TimeOrder
import Verif.Props.Ndt7TestFile

/-!
# The times in an ndt7 record are in order (C92)
-/

namespace Verif.Props
open Verif.Go Verif.Spec Verif.Ndt7

private theorem stamps_readings {as : List TAct} {t : Int} (h : t ∈ stamps as) : t ∈ as.filterMap reading := by
  obtain ⟨a, ha, hx⟩ := List.mem_filterMap.1 h
  cases a <;> simp at hx
  subst hx
  exact List.mem_filterMap.2 ⟨_, ha, rfl⟩

private theorem finishes_readings {as : List TAct} {t : Int} (h : t ∈ finishes as) : t ∈ as.filterMap reading := by
  obtain ⟨a, ha, hx⟩ := List.mem_filterMap.1 h
  cases a <;> simp at hx
  subst hx
  exact List.mem_filterMap.2 ⟨_, ha, rfl⟩

/-- C92: let the clock not run backwards during a request, its subtest included. Then the record of the request starts before it ends; the transfer, if it began, starts after the start of the record and ends
before its end; and the same holds for the start of the connection in all measurements of the server. -/
theorem C92_ndt7_times_in_order {h : Server} {kind : Subtest} {req : Request} {evs : List Ev} {out : Outcome Unit} {s' : Result} (hq : QueryOk req)
    (he : Exec (runMeasurement h kind req) {} evs out s') (hs : SetupOk evs) (hx : NoExit evs) (hc : (directionText kind, str "result") ∈ statuses evs)
    {k : Subtest} {p : Option Params} {e : SubtestEnd} (hx1 : subtests evs = [(k, p, e)]) {c : TestCfg} {as : List TAct} {s : TestState} (hw : (test c).Reaches as s)
    (hf : s.file = some e) (hm : (requestReadings (as.filterMap reading) evs).Pairwise (· ≤ ·)) :
    ∃ path r d, .wrote path r ∈ marks evs ∧ under kind r = some d ∧ r.startTime ≤ r.endTime ∧
      (stamps as ≠ [] → r.startTime ≤ d.startTime ∧ d.startTime ≤ d.endTime ∧ d.endTime ≤ r.endTime) ∧
      (stamps as = [] → d.startTime = 0 ∧ d.endTime = 0 ∧ d.serverMeasurements = []) ∧
      ∀ m ∈ d.serverMeasurements, ∃ conn, m.conn = some conn ∧ r.startTime ≤ conn.startTime ∧ conn.startTime ≤ r.endTime := by
  obtain ⟨t0, t1, path, uuid, id, r, d, hmk, -, h1, -, -, rfl, rfl, -, h2⟩ := C40_one_file_and_flow_partial hq he hs hx hc
  obtain ⟨g1, -, g3, g4⟩ := h2 _ (by rw [hx1]; exact List.mem_singleton.2 rfl)
  simp only at g1 g3 g4
  obtain ⟨mid, tail, hr, hmid⟩ := wp_iff.1 (request_readings h kind req (as.filterMap reading) {}) _ _ _ he r.startTime uuid id r.endTime uuid (by rw [hmk]; simp) (by rw [hmk]; simp)
  obtain rfl := hmid (by rw [hx1]; simp)
  rw [hr, List.pairwise_cons, List.pairwise_append] at hm
  obtain ⟨m1, -, -, m2⟩ := hm
  have lo : ∀ t ∈ as.filterMap reading, r.startTime ≤ t := fun t ht => m1 t (by simp only [List.mem_append]; exact .inl ht)
  have hi : ∀ t ∈ as.filterMap reading, t ≤ r.endTime := fun t ht => m2 t ht _ (by simp)
  obtain ⟨k1, k2⟩ := C91_times hw hf
  refine ⟨path, r, d, by rw [hmk]; simp, h1, m1 _ (by simp), fun hne => ?_, fun hne => ?_, fun m hmem => ?_⟩
  · rcases k2 with ⟨ha, hb⟩ | ⟨ha, -⟩
    · rw [g3, g4]
      exact ⟨lo _ (stamps_readings (by rw [ha]; simp)), k1, hi _ (finishes_readings (by rw [hb]; simp))⟩
    · exact absurd ha hne
  · rcases k2 with ⟨ha, hb⟩ | ⟨-, -, h3, h4, -, h5⟩
    · rw [ha] at hne; cases hne
    · exact ⟨g3.trans h3, g4.trans h4, g1.trans h5⟩
  · obtain ⟨-, ⟨ps, p1, p2, p3⟩, -, -, -⟩ := C91_server_measurements hw hf
    rw [g1] at hmem
    obtain ⟨i, hi', rfl⟩ := List.getElem_of_mem hmem
    have hlt : i < ps.length := p3.length_eq ▸ hi'
    have hp := (List.forall₂_iff_get.1 p3).2 i hlt hi'
    simp only [List.get_eq_getElem] at hp
    obtain ⟨st, rest, hst, -⟩ := C51_ticks_after_start (test_measurer hw) (p1.subset (List.mem_map.2 ⟨_, List.getElem_mem hlt, rfl⟩))
    refine ⟨_, hp.conn, ?_⟩
    simp only [hst, List.headD_cons]
    have hst' : st ∈ as.filterMap reading := by
      have : st ∈ startTimes (as.flatMap toM) := by rw [hst]; simp
      obtain ⟨y, hy, hx⟩ := List.mem_filterMap.1 this
      cases y <;> simp at hx
      subst hx
      exact List.mem_filterMap.2 ⟨_, own_of hw _ hy rfl, rfl⟩
    exact ⟨lo _ hst', hi _ hst'⟩

/-- The hypotheses hold for a download with two measurements. -/
example : QueryOk exRequest ∧ Exec (runMeasurement (exDisk false) .download exRequest) {} exLeftEvents (.ok ()) exLeftRecord ∧ SetupOk exLeftEvents ∧ NoExit exLeftEvents ∧
    (directionText .download, str "result") ∈ statuses exLeftEvents ∧ subtests exLeftEvents = [(.download, some ⟨false, 0⟩, exLeft)] ∧
    (∃ s, (test exTestCfg).Reaches (exSteps ++ [TAct.write]) s ∧ s.file = some exLeft) ∧ stamps (exSteps ++ [TAct.write]) = [7] ∧ exLeft.serverMeasurements.length = 2 ∧
    requestReadings ((exSteps ++ [TAct.write]).filterMap reading) exLeftEvents = [5, 5, 7, 2007, 4007, 9000, exTime, exTime] ∧
    (requestReadings ((exSteps ++ [TAct.write]).filterMap reading) exLeftEvents).Pairwise (· ≤ ·) := by
  obtain ⟨s, hw⟩ := exWent
  refine ⟨exRequest_ok, exLeft_exec, ?_, ?_, by decide +kernel, rfl, ⟨s, hw.run, hw.file⟩, rfl, rfl, rfl, ?_⟩
  · intro q msg hm
    have : (.call q (.panic msg) : Ev) ∉ exLeftEvents := by
      simp [exLeftEvents, exLeftBegin, exBegin, exDiskEnd]
      refine ⟨?_, ?_, ?_, ?_, ?_, ?_, ?_, ?_, ?_, ?_⟩ <;> (rintro rfl h; cases h)
    exact absurd hm this
  · simp [exLeftEvents, exLeftBegin, exBegin, exDiskEnd]
  · rw [show requestReadings ((exSteps ++ [TAct.write]).filterMap reading) exLeftEvents = [5, 5, 7, 2007, 4007, 9000, exTime, exTime] from rfl]
    decide +kernel

end Verif.Props
