import Verif.Ndt5.Upload
import Verif.Ndt5.ScriptLemmas

/-! # All executions of the upload test -/

namespace Verif.Ndt5
open Verif.Go Verif.Spec

set_option maxRecDepth 20000
set_option linter.unusedSimpArgs false

section
variable {σ : Type} (cfg : Cfg) (m : Messager) (s : σ)

theorem upload_onScript : wp (uploadManage cfg m) s (fun e o s' =>
    s' = s ∧ OnScript (c2sScript m (portOf .c2s e) (measuredUpload e).toInt64) e (∃ r, o = .ok (r, none))) := by
  refine wp_opaque fun Q hQ => ?_
  wp_paths [uploadManage, uploadBody, uploadRun, drainAndMeasure, uploadReport]
  all_goals refine hQ _ _ _ ?_
  all_goals refine ⟨rfl, ?_, ?_, ?_, ?_⟩
  all_goals ev_simp [c2sScript, uploadKbps, measuredUpload, uploadMeasurement]

theorem upload_errors : wp (uploadManage cfg m) s (fun e o _ => ∀ l,
    count (countsError l (str "c2s")) e = (if (errorOf o).isSome ∧ cfg.label = l then 1 else 0) ∧
    ∀ d, d ≠ str "c2s" → count (countsError l d) e = 0) := by
  refine wp_opaque fun Q hQ => ?_
  wp_paths [uploadManage, uploadBody, uploadRun, drainAndMeasure, uploadReport]
  all_goals refine hQ _ _ _ ?_
  all_goals intro l
  all_goals ev_simp [errorOf]
  all_goals (intro d hd hl; exact fun h => hd h.symm)

theorem upload_resources : wp (uploadManage cfg m) s (fun e _ _ =>
    (count (opensListener .c2s) e = count (closesListener .c2s) e ∨
      count (opensListener .c2s) e = 1 ∧ count (closesListener .c2s) e = 0 ∧
        attempts e = [m.frame MsgType.testPrepare (itoa (portOf .c2s e))] ∧ (sent e = [] ∨ ¬ NoCrash e)) ∧
    (sent e = [] → attempts e ≠ [] → count (closesListener .c2s) e = 0 ∧ count (opensListener .c2s) e = 1) ∧
    count (opensListener .c2s) e ≤ 1 ∧
    count (handsConn .c2s) e + count (handsNothing .c2s) e = count (closesConn .c2s) e + count (handsConnAndError .c2s) e ∧
    count (handsConn .c2s) e ≤ 1 ∧
    count (opensListener .s2c) e = 0 ∧ count (closesListener .s2c) e = 0 ∧
    count (handsConn .s2c) e = 0 ∧ count (handsNothing .s2c) e = 0 ∧ count (closesConn .s2c) e = 0 ∧ count (handsConnAndError .s2c) e = 0) := by
  refine wp_opaque fun Q hQ => ?_
  wp_paths [uploadManage, uploadBody, uploadRun, drainAndMeasure, uploadReport]
  all_goals refine hQ _ _ _ ?_
  all_goals ev_simp []

theorem upload_outcome : wp (uploadManage cfg m) s (fun e o _ =>
    match uploadMeasurement e with
    | none => NoCrash e → count (handsNothing .c2s) e = 0 →
        ∃ r er, o = .ok (r, some er) ∧ r.mean = .fin 0 ∧ (attempts e).length ≤ 2
    | some (_, _, .error _, _) => o = .panic nilDeref
    | some (t0, sel, .ok w, t1) =>
      if sel ≠ none ∧ (w.tcpInfo.bytesReceived = 0 ∨ F64.lt (F64.seconds (t1 - t0)) (.ofInt 9) = true) then
        ∃ r, o = .ok (r, sel) ∧ r.mean = .fin 0 ∧ r.startTime = t0 ∧ r.endTime = t1 ∧ (attempts e).length = 2
      else
        (attempts e)[2]? = some (m.frame MsgType.testMsg (itoa (measuredUpload e).toInt64)) ∧
        match o with
        | .ok (r, er) => r.mean = .div (measuredUpload e) (.ofInt 1000) ∧ r.startTime = t0 ∧ r.endTime = t1 ∧
            (er = none ↔ (sent e).length = 4)
        | .panic _ => ¬ NoCrash e) := by
  refine wp_opaque fun Q hQ => ?_
  wp_paths [uploadManage, uploadBody, uploadRun, drainAndMeasure, uploadReport]
  all_goals refine hQ _ _ _ ?_
  all_goals clear hQ
  all_goals ev_simp [uploadKbps, measuredUpload, uploadMeasurement]
  all_goals simp_all

theorem upload_error_field : wp (uploadManage cfg m) s (fun _ o _ => ∀ r er, o = .ok (r, er) → r.error = er.getD []) := by
  refine wp_opaque fun Q hQ => ?_
  wp_paths [uploadManage, uploadBody, uploadRun, drainAndMeasure, uploadReport]
  all_goals refine hQ _ _ _ ?_
  all_goals (intro r er h; first | (injection h with h; injection h with h1 h2; subst h1; subst h2; rfl) | cases h)

theorem upload_record : wp (uploadManage cfg m) s (fun e o _ => ∀ r er, o = .ok (r, er) →
    r = { uploadRecord e with error := er.getD [] }) := by
  refine wp_opaque fun Q hQ => ?_
  wp_paths [uploadManage, uploadBody, uploadRun, drainAndMeasure, uploadReport]
  all_goals refine hQ _ _ _ ?_
  all_goals clear hQ
  all_goals (intro r er h; first | (injection h with h; injection h with h1 h2; subst h1; subst h2) | (injection h; done))
  all_goals ev_simp [uploadKbps, measuredUpload, uploadMeasurement, uploadRecord, uploadTooShort]
  all_goals simp_all

/-- If no call crashed, the upload test panics exactly if there was no measurement (or no connection and no error). -/
theorem upload_panics : wp (uploadManage cfg m) s (fun e o _ => NoCrash e →
    ((∃ msg, o = .panic msg) ↔ (∃ er, .call (.stopMeasuring .c2s) (.ok (.error er)) ∈ e) ∨ .call (.accept .c2s) (.ok (false, none)) ∈ e)) := by
  refine wp_opaque fun Q hQ => ?_
  wp_paths [uploadManage, uploadBody, uploadRun, drainAndMeasure, uploadReport]
  all_goals refine hQ _ _ _ ?_
  all_goals clear hQ
  all_goals ev_simp [Prod.ext_iff]
  all_goals simp_all

/-- After the upload ended with an error in time, the outcome is that error. -/
theorem upload_sel : wp (uploadManage cfg m) s (fun e o _ => ∀ t0 sel w t1, uploadMeasurement e = some (t0, sel, .ok w, t1) →
    (uploadTooShort e = true → ∃ r, o = .ok (r, sel) ∧ attempts e = [m.frame MsgType.testPrepare (itoa (portOf .c2s e)), m.frame MsgType.testStart []]) ∧
    (uploadTooShort e = false → NoCrash e → attempts e = sent e → ∃ r, o = .ok (r, none))) := by
  refine wp_opaque fun Q hQ => ?_
  wp_paths [uploadManage, uploadBody, uploadRun, drainAndMeasure, uploadReport]
  all_goals refine hQ _ _ _ ?_
  all_goals clear hQ
  all_goals intro t0 sel w t1 h
  all_goals simp only [uploadMeasurement, Option.some.injEq, Prod.mk.injEq, Outcome.ok.injEq, reduceCtorEq, and_false, false_and] at h
  all_goals obtain ⟨rfl, rfl, hw, rfl⟩ := h
  all_goals first | (injection hw with hw; subst hw) | (injection hw; done)
  all_goals ev_simp [uploadTooShort, uploadMeasurement]
  all_goals simp_all

end
end Verif.Ndt5
