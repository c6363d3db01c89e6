import Verif.Ndt7.HandlerLemmas
import Verif.Spec.GoodRequest

/-! # A request in which nothing crashes runs its subtest -/

namespace Verif.Ndt7
open Verif.Go Verif.Spec
open Verif.Ndt5 (NameValue)

section
variable (h : Server) (kind : Subtest) (req : Request) (params : Params) (uuid : Bytes)

/-- A call that crashes. -/
def crashes : Ev → Bool
  | .call _ (.panic _) => true
  | _ => false

/-- No call crashes. -/
def NoCrash (e : List Ev) : Prop := ∀ x ∈ e, crashes x = false

theorem not_crashes {x : Ev} (h : requestWorked x) : crashes x = false := by
  cases x with
  | call q a => cases a with
    | panic msg => exact absurd h (by simp [requestWorked])
    | ok => rfl
  | _ => rfl

theorem measureAndSave_tested (md : List NameValue) (hmd : appendClientMetadata [] req.query2 = .ok md) (s : Result) :
    wp (measureAndSave h kind req params uuid) s (fun e _ _ => NoCrash e → Spec.subtests e ≠ []) := by
  refine wp_opaque fun Q hQ => ?_
  wp_paths [measureAndSave, runSubtest, setupResult, hmd, wp_writeResult]
  all_goals refine hQ _ _ _ fun hn => ?_
  all_goals clear hQ
  all_goals first
    | (simp; done)
    | (simp [NoCrash, crashes] at hn; done)

/-- A good request is handled like this. -/
theorem runMeasurement_tested (md : List NameValue) (hmd : appendClientMetadata [] req.query2 = .ok md) (s : Result) (p : Params)
    (hv : validateEarlyExit req.query = .ok (.ok p)) (hp : req.protocol = subprotocol) :
    wp (runMeasurement h kind req) s (fun e _ _ => (∀ x ∈ e, requestWorked x) → Spec.statuses e = [(kind.name, str "result")] ∧ Spec.responses e = [] ∧ ∃ x, Spec.subtests e = [(kind, (match kind with
      | .download => some p
      | .upload => none), x)]) := by
  refine wp_opaque fun Q hQ => ?_
  wp_paths [runMeasurement, hv, setupConn, hp, wp_measureAndSave]
  all_goals refine hQ _ _ _ fun hw => ?_
  all_goals clear hQ
  all_goals try
    rename Call.upgrade.Answer => a
    cases a
  all_goals first
    | (rename subprotocol ≠ subprotocol => hf; exact absurd rfl hf)
    | (rename _ = false => hf; simp at hf; done)
    | (rename ¬ _ = false => hf; simp at hf; done)
    | (rename _ = true => hf; simp at hf; done)
    | (simp [requestWorked] at hw; done)
    | (rename Exec _ _ _ _ _ => hx
       have h1 := wp_iff.1 (measureAndSave_spec h kind req p _ md hmd _) _ _ _ hx
       have h2 := wp_iff.1 (measureAndSave_tested h kind req p _ md hmd _) _ _ _ hx fun x hm => not_crashes (hw x (by simp [hm]))
       have h3 := h1.subtests.resolve_left h2
       refine ⟨by simp [h1.statuses], by simp [h1.responses], ?_⟩
       obtain ⟨x, h3⟩ := h3
       cases kind <;> exact ⟨x, by simpa using h3⟩)

end
end Verif.Ndt7
