import Verif.Ndt5.LocalLemmas
import Verif.Ndt5.MetaLemmas

/-! # Which events the tests of a session produce -/

namespace Verif.Ndt5
open Verif.Go Verif.Spec

set_option maxRecDepth 20000
set_option linter.unusedSimpArgs false

/-- The events of test `d`. -/
def inTest (cfg : Cfg) (d : Dir) : Ev → Bool
  | .call (.send _) _ => true
  | .call .recv _ => d = .s2c
  | .clock _ => true
  | .emit (.serverStart k) => k = cfg.kind.name
  | .emit (.serverStop k) => k = cfg.kind.name
  | .emit (.testError l w _) => l = cfg.label && w = d.name
  | .emit (.testResult l w _) => l = cfg.label && w = d.name
  | .emit (.testRate l w i _) => l = cfg.label && w = d.name && i = cfg.isMon
  | x => ofTest d x

/-- A rate or a result is counted. -/
def isResult : Ev → Bool
  | .emit (.testResult _ _ _) => true
  | .emit (.testRate _ _ _ _) => true
  | _ => false

section
variable {σ : Type} (cfg : Cfg) (m : Messager)

theorem upload_foot : Foot (fun x => inTest cfg .c2s x = true ∧ isResult x = false) (uploadManage (σ := σ) cfg m) := by
  intro s
  refine wp_opaque fun Q hQ => ?_
  wp_paths [uploadManage, uploadBody, uploadRun, drainAndMeasure, uploadReport]
  all_goals refine hQ _ _ _ ?_
  all_goals clear hQ
  all_goals simp [inTest, ofTest, isResult, Dir.name]

theorem download_foot : Foot (fun x => inTest cfg .s2c x = true ∧ isResult x = false) (downloadManage (σ := σ) cfg m) := by
  intro s
  refine wp_opaque fun Q hQ => ?_
  wp_paths [downloadManage, downloadBody, downloadRun, downloadReport, wp_downloadMetrics]
  all_goals refine hQ _ _ _ ?_
  all_goals clear hQ
  all_goals try (simp [inTest, ofTest, isResult, Dir.name]; done)
  all_goals
    obtain ⟨-, -, -, -, hc, -⟩ := downloadMetrics_exec ‹Exec (downloadMetrics _ _ _ _) _ _ _ _›
    have h0 := hc (fun x => ! inTest cfg .s2c x) (fun _ _ => rfl) (fun _ => by simp [inTest, Dir.name])
    have h1 := hc isResult (fun _ _ => rfl) (fun _ => rfl)
    simp only [count, List.countP_eq_zero, Bool.not_eq_true', Bool.not_eq_false, Bool.not_eq_true] at h0 h1
    simp [inTest, ofTest, isResult, Dir.name]
    exact fun x hx => ⟨h0 x hx, h1 x hx⟩

end

theorem inTest_other {cfg : Cfg} {d d' : Dir} (hd : d ≠ d') {x : Ev} (h : inTest cfg d x = true) : ofTest d' x = false := by
  have hn : ∀ w, w = d.name → ¬ w = d'.name := by
    rintro w rfl; cases d <;> cases d' <;> first | exact absurd rfl hd | decide
  cases x with
  | clock t => rfl
  | call q r =>
    cases q <;> simp_all [inTest, ofTest]
    all_goals first
      | (rename_i c; cases c <;> simp_all [ofTest]; done)
      | skip
    all_goals (rintro rfl; exact hd rfl)
  | emit o =>
    cases o <;> simp_all [inTest, ofTest, test_eq]

theorem quiet_inTest {cfg : Cfg} {d d' : Dir} (hd : d ≠ d') {e : List Ev} (h : ∀ x ∈ e, inTest cfg d x = true) : Quiet d' e :=
  fun x hx => inTest_other hd (h x hx)

theorem inMeta_other {cfg : Cfg} {d : Dir} {x : Ev} (h : inMeta cfg x = true) : ofTest d x = false := by
  cases x with
  | clock t => rfl
  | call q r => cases q <;> simp_all [inMeta, ofTest]
  | emit o =>
    cases o <;> simp_all [inMeta, ofTest, test_eq]
    cases d <;> decide

theorem quiet_inMeta {cfg : Cfg} {d : Dir} {e : List Ev} (h : ∀ x ∈ e, inMeta cfg x = true) : Quiet d e :=
  fun x hx => inMeta_other (h x hx)

end Verif.Ndt5
