import Verif.Ndt7.MonitorLemmas
import Verif.Props.Ndt7Rates

/-!
# The monitoring flag of rates: C41
-/

namespace Verif.Props
open Verif.Go Verif.Ndt7 Verif.Spec

/-- C41: a rate in the histogram has the flag "true" only if the server found that the client is a monitoring client, and "false" only
if it found that it is not. -/
theorem C41_monitoring_label {h : Server} {kind : Subtest} {req : Request} {evs : List Ev} {out : Outcome Unit} {s' : Result}
    (he : Exec (runMeasurement h kind req) {} evs out s') (p k mon : Bytes) (r : F64) (hm : .emit (.testRate p k mon r) ∈ evs) :
    (mon = str "true" ∧ .call .isMonitoring (.ok true) ∈ evs) ∨ (mon = str "false" ∧ .call .isMonitoring (.ok false) ∈ evs) := by
  obtain ⟨b, h1, h2⟩ := wp_iff.1 (runMeasurement_rates _ _ _ _) _ _ _ he p k mon r hm
  cases b
  · exact .inr ⟨h2, h1⟩
  · exact .inl ⟨h2, h1⟩

/-- A measurement with a rate of 64 Mbit/s. -/
def exFast : Measurement := { tcp := some ⟨{ bytesAcked := 8000 }, 1000⟩ }

/-- The record of a download with it. -/
def exFastRecord : Result :=
  { exRecord with download := some { uuid := str "u", clientMetadata := [⟨str "client_name", str "x"⟩], serverMetadata := [⟨str "machine-type", str "virtual"⟩],
                                     serverMeasurements := [exFast] } }

/-- The events of a download by a monitoring client. -/
def exMonitored (r : F64) : List Ev :=
  exBegin { serverMeasurements := [exFast] } ++
    [.call .localText (.ok (str "[::1]:443")), .emit (.testResult (str "ndt7+wss") (str "download") (str "okay-with-rate")),
     .call .isMonitoring (.ok true), .emit (.testRate (str "ndt7+wss") (str "download") (str "true") r),
     .clock 7, .clock 7, .call (.mkdirAll (str "/d/ndt7/2020/01/01")) (.ok none), .call (.openExcl exPath) (.ok none),
     .call (.write exPath false exFastRecord) (.ok none), .call (.fileClose exPath) (.ok none), .emit (.flowDeleted 7 (str "u")), .emit .cancel]

/-- Such a download: its rate is in the histogram, with the flag. -/
theorem exMonitored_exec : ∃ r, Exec (runMeasurement exServer .download exRequest) {} (exMonitored r) (.ok ()) exFastRecord := by
  obtain ⟨v, hv, hd⟩ := C57_rate_of_last .download (ms := []) (m := exFast) (t := ⟨{ bytesAcked := 8000 }, 1000⟩) rfl
    (by decide) (by decide) (by decide) (by decide)
  have hpos : 0 < v := by
    have := (abs_le.1 hd).1
    norm_num [bytesOf] at this
    linarith
  have hrate : downRate [exFast] = .fin v := hv
  have hlt : F64.lt (.fin 0) (.fin v) = true := by simpa [F64.lt] using hpos
  have hz : F64.isZero (.fin v) = false := by simpa [F64.isZero] using hpos.ne'
  refine ⟨.fin v, ?_⟩
  rw [exMonitored]
  follow
  dsimp only
  rw [hrate]
  refine ⟨by rw [resultLabel, hz]; rfl, ?_⟩
  rw [hlt]
  repeat (first | exact rfl | refine ⟨rfl, ?_⟩)

end Verif.Props
