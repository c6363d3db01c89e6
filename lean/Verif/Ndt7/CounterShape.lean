import Verif.Ndt7.HandlerLemmas

/-! # The counters and flow events of an ndt7 request, in order -/

namespace Verif.Ndt7
open Verif.Go Verif.Spec

set_option linter.unusedSimpArgs false

/-- Counting of connections and results, and flow events. -/
def isCounter : Ev → Bool
  | .emit (.connection _ _) => true
  | .emit (.testResult _ _ _) => true
  | .emit (.flowCreated _ _ _) => true
  | .emit (.flowDeleted _ _) => true
  | _ => false

/-- What a request counts once it has a connection, in order. -/
inductive CountRun (kind : Subtest) : List Ev → Prop
  | none : CountRun kind []
  | error (status : Bytes) : status ≠ str "result" → CountRun kind [.emit (.connection kind.name status)]
  | bare : CountRun kind [.emit (.connection kind.name (str "result"))]
  | crashed (t : Int) (u : Bytes) (id : SockId) (rest : List Ev) : (rest = [] ∨ ∃ t', rest = [.emit (.flowDeleted t' u)]) →
      CountRun kind (.emit (.connection kind.name (str "result")) :: .emit (.flowCreated t u id) :: rest)
  | counted (t : Int) (u : Bytes) (id : SockId) (p r : Bytes) (rest : List Ev) : (rest = [] ∨ ∃ t', rest = [.emit (.flowDeleted t' u)]) →
      CountRun kind (.emit (.connection kind.name (str "result")) :: .emit (.flowCreated t u id) :: .emit (.testResult p kind.name r) :: rest)

section
variable (h : Server) (kind : Subtest) (req : Request) (params : Params) (uuid : Bytes)

theorem writeResult_counters (s : Result) : wp (writeResult h uuid kind) s (fun e _ _ => e.filter isCounter = []) := by
  refine wp_opaque fun Q hQ => ?_
  wp_paths [writeResult, newFile, File.writeResult, File.close, must]
  all_goals refine hQ _ _ _ ?_
  all_goals simp [isCounter]

theorem measureAndSave_counters (s : Result) : wp (measureAndSave h kind req params uuid) s (fun e _ _ => CountRun kind (e.filter isCounter)) := by
  refine wp_opaque fun Q hQ => ?_
  cases kind
  all_goals
    wp_paths [measureAndSave, runSubtest, setupResult, wp_writeResult]
  all_goals refine hQ _ _ _ ?_
  all_goals clear hQ
  all_goals
    try
      rename Exec _ _ _ _ _ => hw
      have hsil := wp_iff.1 (writeResult_counters _ _ _ _) _ _ _ hw
      clear hw
  all_goals first
    | (simp [isCounter, List.filter_cons, hsil]
       first
         | exact .bare
         | exact .crashed _ _ _ _ (.inl rfl)
         | exact .crashed _ _ _ _ (.inr ⟨_, rfl⟩)
         | exact .counted _ _ _ _ _ _ (.inl rfl)
         | exact .counted _ _ _ _ _ _ (.inr ⟨_, rfl⟩))
    | (simp [isCounter, List.filter_cons]
       first
         | exact .bare
         | exact .crashed _ _ _ _ (.inl rfl))

theorem runMeasurement_counters (s : Result) : wp (runMeasurement h kind req) s (fun e _ _ => CountRun kind (e.filter isCounter)) := by
  refine wp_opaque fun Q hQ => ?_
  wp_paths [runMeasurement, setupConn, wp_measureAndSave, warnAndClose]
  all_goals refine hQ _ _ _ ?_
  all_goals clear hQ
  all_goals first
    | (simp [isCounter, List.filter_cons]
       first
         | exact .none
         | exact .error _ (by decide))
    | (rename Exec _ _ _ _ _ => hw
       have := wp_iff.1 (measureAndSave_counters _ _ _ _ _ _) _ _ _ hw
       simpa [isCounter, List.filter_cons] using this)

/-- A request that has been upgraded is over only when the subtest's context is cancelled. -/
theorem runMeasurement_ends (s : Result) : wp (runMeasurement h kind req) s (fun e _ _ => .emit .startCloser ∈ e → .emit .cancel ∈ e) := by
  refine wp_opaque fun Q hQ => ?_
  wp_paths [runMeasurement, setupConn, wp_measureAndSave, warnAndClose]
  all_goals refine hQ _ _ _ ?_
  all_goals simp

end
end Verif.Ndt7
