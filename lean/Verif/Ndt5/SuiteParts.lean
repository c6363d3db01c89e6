import Verif.Ndt5.SuiteRun

/-! # The session after the login, put together from its parts -/

namespace Verif.Spec.OnScript
open Verif.Go Verif.Ndt5

/-- A part of a session and what follows it. -/
theorem next {S₁ S₂ : List Bytes} {e₁ e₂ : List Ev} {ok₁ ok₂ : Prop} (h₁ : OnScript S₁ e₁ ok₁) (h₂ : ok₁ → OnScript S₂ e₂ ok₂)
    (h₃ : ¬ ok₁ → e₂ = [] ∧ ¬ ok₂) (hne : S₂ ≠ []) : OnScript (S₁ ++ S₂) (e₁ ++ e₂) ok₂ := by
  by_cases h : ok₁
  · exact (h₁.congr (iff_true_intro h)).append (h₂ h)
  · obtain ⟨rfl, hn⟩ := h₃ h
    rw [List.append_nil]
    exact h₁.stop hne hn

end Verif.Spec.OnScript

namespace Verif.Ndt5
open Verif.Go Verif.Spec

/-- The upload of a session, if requested. -/
def maybeUpload (cfg : Cfg) (tests : Int) (m : Messager) : P Ctl F64 := if requested tests 1 then runUpload cfg m else pure (.fin 0)
/-- The download of a session, if requested. -/
def maybeDownload (cfg : Cfg) (tests : Int) (m : Messager) : P Ctl F64 := if requested tests 2 then runDownload cfg m else pure (.fin 0)
/-- The meta test of a session, if requested. -/
def maybeMeta (cfg : Cfg) (tests : Int) (m : Messager) : P Ctl Unit := if requested tests 5 then runMeta cfg m else pure ()

theorem runSuite_eq (cfg : Cfg) (tests : Int) (m : Messager) : runSuite cfg tests m =
    (greet tests m >>= fun _ => maybeUpload cfg tests m >>= fun v => maybeDownload cfg tests m >>= fun w =>
      maybeMeta cfg tests m >>= fun _ => farewell m v w) := by
  unfold runSuite maybeUpload maybeDownload maybeMeta
  rw [hasBit_c2s, hasBit_s2c, hasBit_meta]
  cases requested tests 1 <;> cases requested tests 2 <;> cases requested tests 5 <;> rfl

/-- The execution of a session after the login, cut into its parts. A part that was not reached has no events. -/
structure Parts (cfg : Cfg) (tests : Int) (m : Messager) (s : Ctl) (e0 eU eD eM eF : List Ev) (o0 : Outcome Unit) (oU oD : Outcome F64)
    (oM o : Outcome Unit) (sU sD s' : Ctl) : Prop where
  greet : Exec (greet tests m) s e0 o0 (s.greeted m)
  upload : Next o0 (fun _ => maybeUpload cfg tests m) (s.greeted m) eU oU sU
  download : Next oU (fun _ => maybeDownload cfg tests m) sU eD oD sD
  metadata : Next oD (fun _ => maybeMeta cfg tests m) sD eM oM s'
  farewell : ∃ v w, (∀ a, oM = .ok a → oU = .ok v ∧ oD = .ok w) ∧ Next oM (fun _ => farewell m v w) s' eF o s'

theorem suite_parts {cfg : Cfg} {tests : Int} {m : Messager} {s s' : Ctl} {e : List Ev} {o : Outcome Unit}
    (h : Exec (runSuite cfg tests m) s e o s') : ∃ e0 eU eD eM eF o0 oU oD oM sU sD,
      e = e0 ++ (eU ++ (eD ++ (eM ++ eF))) ∧ Parts cfg tests m s e0 eU eD eM eF o0 oU oD oM o sU sD s' := by
  rw [runSuite_eq] at h
  obtain ⟨e0, o0, s0, e1, rfl, h0, h⟩ := exec_bind h
  obtain ⟨rfl, -⟩ := wp_iff.1 (greet_spec tests m s) _ _ _ h0
  cases o0 with
  | panic msg =>
    obtain ⟨rfl, rfl, rfl⟩ := h
    exact ⟨e0, [], [], [], [], _, .panic msg, .panic msg, .panic msg, _, _, rfl, h0, ⟨rfl, rfl, rfl⟩, ⟨rfl, rfl, rfl⟩, ⟨rfl, rfl, rfl⟩,
      .fin 0, .fin 0, nofun, rfl, rfl, rfl⟩
  | ok a0 =>
  obtain ⟨eU, oU, sU, e2, rfl, hU, h⟩ := exec_bind h
  cases oU with
  | panic msg =>
    obtain ⟨rfl, rfl, rfl⟩ := h
    exact ⟨e0, eU, [], [], [], _, .panic msg, .panic msg, .panic msg, _, _, by simp, h0, hU, ⟨rfl, rfl, rfl⟩, ⟨rfl, rfl, rfl⟩,
      .fin 0, .fin 0, nofun, rfl, rfl, rfl⟩
  | ok v =>
  obtain ⟨eD, oD, sD, e3, rfl, hD, h⟩ := exec_bind h
  cases oD with
  | panic msg =>
    obtain ⟨rfl, rfl, rfl⟩ := h
    exact ⟨e0, eU, eD, [], [], _, _, .panic msg, .panic msg, _, _, by simp, h0, hU, hD, ⟨rfl, rfl, rfl⟩,
      .fin 0, .fin 0, nofun, rfl, rfl, rfl⟩
  | ok w =>
  obtain ⟨eM, oM, sM, eF, rfl, hM, h⟩ := exec_bind h
  cases oM with
  | panic msg =>
    obtain ⟨rfl, rfl, rfl⟩ := h
    exact ⟨e0, eU, eD, eM, [], _, _, _, .panic msg, _, _, by simp, h0, hU, hD, hM, .fin 0, .fin 0, nofun, rfl, rfl, rfl⟩
  | ok a =>
  obtain ⟨rfl, -⟩ := wp_iff.1 (farewell_spec m v w sM) _ _ _ h
  exact ⟨e0, eU, eD, eM, eF, _, _, _, _, _, _, rfl, h0, hU, hD, hM, v, w, fun _ _ => ⟨rfl, rfl⟩, h⟩

end Verif.Ndt5
