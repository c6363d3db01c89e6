import Verif.Ndt7.HandlerLemmas

/-! # The monitoring flag of the rates of an ndt7 request -/

namespace Verif.Ndt7
open Verif.Go Verif.Spec

set_option linter.unusedSimpArgs false

/-- Every rate in the list has the flag that the check of the token gave. -/
def Flagged (e : List Ev) : Prop :=
  ∀ p k mon r, .emit (.testRate p k mon r) ∈ e → ∃ b : Bool, .call .isMonitoring (.ok b) ∈ e ∧ mon = boolText b

section
variable (h : Server) (kind : Subtest) (req : Request) (params : Params) (uuid : Bytes)

theorem writeResult_rates (s : Result) : wp (writeResult h uuid kind) s (fun e _ _ => ∀ p k mon r, .emit (.testRate p k mon r) ∉ e) := by
  refine wp_opaque fun Q hQ => ?_
  wp_paths [writeResult, newFile, File.writeResult, File.close, must]
  all_goals refine hQ _ _ _ ?_
  all_goals simp

theorem measureAndSave_rates (s : Result) : wp (measureAndSave h kind req params uuid) s (fun e _ _ => Flagged e) := by
  refine wp_opaque fun Q hQ => ?_
  cases kind
  all_goals
    wp_paths [measureAndSave, runSubtest, setupResult, wp_writeResult]
  all_goals refine hQ _ _ _ ?_
  all_goals clear hQ
  all_goals
    try
      rename Exec _ _ _ _ _ => hw
      have hsil := wp_iff.1 (writeResult_rates _ _ _ _) _ _ _ hw
      clear hw
  all_goals
    intro p k mon r hm
    first
      | (simp [hsil] at hm; done)
      | (simp at hm; done)
      | (simp [hsil] at hm
         exact ⟨_, by simp, hm.2.2.1⟩)
      | (simp at hm
         exact ⟨_, by simp, hm.2.2.1⟩)

theorem runMeasurement_rates (s : Result) : wp (runMeasurement h kind req) s (fun e _ _ => Flagged e) := by
  refine wp_opaque fun Q hQ => ?_
  wp_paths [runMeasurement, setupConn, wp_measureAndSave, warnAndClose]
  all_goals refine hQ _ _ _ ?_
  all_goals clear hQ
  all_goals first
    | (intro p k mon r hm; simp at hm; done)
    | (rename Exec _ _ _ _ _ => hw
       have := wp_iff.1 (measureAndSave_rates _ _ _ _ _ _) _ _ _ hw
       intro p k mon r hm
       obtain ⟨b, h1, h2⟩ := this p k mon r (by simpa using hm)
       exact ⟨b, by simp [h1], h2⟩)

end
end Verif.Ndt7
