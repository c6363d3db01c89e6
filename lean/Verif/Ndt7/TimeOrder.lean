import Verif.Ndt7.HandlerLemmas

/-! # The clock readings of an ndt7 request -/

namespace Verif.Ndt7
open Verif.Go Verif.Spec

set_option linter.unusedSimpArgs false

/-- The readings of the clock during a request, in their order, if those during its subtest are `l`. -/
def requestReadings (l : List Int) (evs : List Ev) : List Int :=
  evs.flatMap fun
    | .clock t => [t]
    | .call (.subtest _ _) (.ok _) => l
    | _ => []

@[simp] theorem readings_nil (l : List Int) : requestReadings l [] = [] := rfl
@[simp] theorem readings_clock (l : List Int) (t : Int) (e : List Ev) : requestReadings l (.clock t :: e) = t :: requestReadings l e := rfl
@[simp] theorem readings_emit (l : List Int) (o : Note) (e : List Ev) : requestReadings l (.emit o :: e) = requestReadings l e := rfl
@[simp] theorem readings_call (l : List Int) (q : Call) (r : Outcome q.Answer) (e : List Ev) : requestReadings l (.call q r :: e) = (match q, r with
    | .subtest _ _, .ok _ => l
    | _, _ => []) ++ requestReadings l e := by cases q <;> cases r <;> rfl

theorem readings_append (l : List Int) (a b : List Ev) : requestReadings l (a ++ b) = requestReadings l a ++ requestReadings l b := List.flatMap_append

theorem marks_writeResult (h : Server) (uuid : Bytes) (kind : Subtest) (s : Result) : wp (writeResult h uuid kind) s (fun e _ _ => subtests e = [] ∧
    (∀ t u id, .created t u id ∉ marks e) ∧ ∀ t u, .deleted t u ∉ marks e) := by
  refine wp_opaque fun Q hQ => ?_
  wp_paths [writeResult, newFile, File.writeResult, File.close, must]
  all_goals refine hQ _ _ _ ?_
  all_goals clear hQ
  all_goals refine ⟨rfl, ?_, ?_⟩
  all_goals simp only [marks_emit, marks_call, marks_clock, marks_append, marks_nil]
  all_goals first | (simp; done) | skip
  all_goals (repeat' split) <;> simp_all

/-- The first reading of a request is reported as the beginning of the flow, then come those of the subtest, and the next one is reported as its end. -/
def Between (l : List Int) (e : List Ev) : Prop :=
  ∀ t0 u id t1 u', .created t0 u id ∈ marks e → .deleted t1 u' ∈ marks e →
      ∃ mid tail, requestReadings l e = t0 :: (mid ++ t1 :: tail) ∧ (subtests e ≠ [] → mid = l)

theorem saved_readings (h : Server) (kind : Subtest) (req : Request) (p : Params) (uuid : Bytes) (l : List Int) (s : Result) :
    wp (measureAndSave h kind req p uuid) s (fun e _ _ => Between l e) := by
  refine wp_opaque fun Q hQ => ?_
  cases hmd : appendClientMetadata [] req.query2 with
  | panic msg =>
    wp_paths [measureAndSave, hmd]
    exact hQ _ _ _ (by intro _ _ _ _ _ h; simp at h)
  | ok md =>
    cases kind
    all_goals
      wp_paths [measureAndSave, runSubtest, setupResult, hmd, wp_writeResult]
    all_goals refine hQ _ _ _ ?_
    all_goals clear hQ
    all_goals
      try
        rename Exec _ _ _ _ _ => hw
        obtain ⟨g1, g2, g3⟩ := wp_iff.1 (marks_writeResult _ _ _ _) _ _ _ hw
        clear hw
    all_goals intro t0 u id t1 u' h1 h2
    all_goals first
      | (simp at h2; done)
      | (simp [g2, g3] at h1 h2; done)
      | (simp [g2, g3] at h1 h2
         obtain ⟨rfl, -⟩ := h1
         obtain ⟨rfl, -⟩ := h2
         simp [readings_append, g1])
    all_goals exact ⟨[], _, rfl⟩

theorem request_readings (h : Server) (kind : Subtest) (req : Request) (l : List Int) (s : Result) :
    wp (runMeasurement h kind req) s (fun e _ _ => Between l e) := by
  refine wp_opaque fun Q hQ => ?_
  have no : ∀ e : List Ev, marks e = [] → Between l e := fun e he t0 u id t1 u' h1 => by rw [he] at h1; simp at h1
  cases hv : validateEarlyExit req.query with
  | panic msg =>
    wp_paths [runMeasurement, hv]
    exact hQ _ _ _ (no _ (by simp))
  | ok v =>
    cases v with
    | error e =>
      wp_paths [runMeasurement, hv, warnAndClose]
      exact hQ _ _ _ (no _ (by simp))
    | ok p =>
      by_cases hp : req.protocol = subprotocol
      · wp_paths [runMeasurement, hv, setupConn, hp, wp_measureAndSave]
        all_goals refine hQ _ _ _ ?_
        all_goals clear hQ
        all_goals first
          | (refine no _ ?_; simp; done)
          | (rename Exec _ _ _ _ _ => hw
             have := wp_iff.1 (saved_readings h kind req p _ l _) _ _ _ hw
             intro t0 u id t1 u' h1 h2
             simp at h1 h2
             simpa [readings_append] using this t0 u id t1 u' h1 h2)
      · wp_paths [runMeasurement, hv, setupConn, hp, warnAndClose]
        all_goals first
          | (refine hQ _ _ _ (no _ ?_); simp; done)
          | (rename ¬ req.protocol ≠ subprotocol => hf; exact absurd hp hf)

end Verif.Ndt7
