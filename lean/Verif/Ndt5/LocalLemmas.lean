import Verif.Ndt5.UploadLemmas
import Verif.Ndt5.DownloadLemmas

/-! # What a test reports depends on its own events only -/

namespace Verif.Ndt5
open Verif.Go Verif.Spec

set_option maxRecDepth 20000
set_option linter.unusedSimpArgs false

/-- No event belongs to test `d`. -/
def Quiet (d : Dir) (e : List Ev) : Prop := ∀ x ∈ e, ofTest d x = false

theorem quiet_nil (d : Dir) : Quiet d [] := fun _ h => (List.not_mem_nil h).elim

theorem quiet_cons {d : Dir} {a : Ev} {b : List Ev} : Quiet d (a :: b) ↔ ofTest d a = false ∧ Quiet d b := by
  simp [Quiet]

theorem quiet_append {d : Dir} {a b : List Ev} : Quiet d (a ++ b) ↔ Quiet d a ∧ Quiet d b := by
  simp only [Quiet, List.mem_append]
  exact ⟨fun h => ⟨fun x hx => h x (.inl hx), fun x hx => h x (.inr hx)⟩, fun h x hx => hx.elim (h.1 x) (h.2 x)⟩

theorem findSome_quiet {d : Dir} {β : Type} {f : Ev → Option β} (hf : ∀ x, ofTest d x = false → f x = none) {e : List Ev} (h : Quiet d e) :
    e.findSome? f = none := by
  rw [List.findSome?_eq_none_iff]; exact fun x hx => hf x (h x hx)

theorem portAnswer_quiet (d : Dir) (x : Ev) (h : ofTest d x = false) : portAnswer d x = none := by
  unfold portAnswer
  split
  · simp only [ofTest, decide_eq_false_iff_not] at h; simp [h]
  · rfl

theorem uuidAnswer_quiet (d : Dir) (x : Ev) (h : ofTest d x = false) : uuidAnswer (.test d) x = none := by
  unfold uuidAnswer
  split
  · rename_i c u
    cases c with
    | control => simp
    | test d' => simp only [ofTest, decide_eq_false_iff_not] at h; simp [h]
  · rfl

theorem addrsAnswer_quiet (d : Dir) (x : Ev) (h : ofTest d x = false) : addrsAnswer (.test d) x = none := by
  unfold addrsAnswer
  split
  · rename_i c u
    cases c with
    | control => simp
    | test d' => simp only [ofTest, decide_eq_false_iff_not] at h; simp [h]
  · rfl

theorem portOf_quiet {d : Dir} {e : List Ev} (h : Quiet d e) : portOf d e = 0 := by
  rw [portOf, findSome_quiet (portAnswer_quiet d) h]; rfl

theorem uuidOf_quiet {d : Dir} {e : List Ev} (h : Quiet d e) : uuidOf (.test d) e = [] := by
  rw [uuidOf, findSome_quiet (uuidAnswer_quiet d) h]; rfl

theorem addrsOf_quiet {d : Dir} {e : List Ev} (h : Quiet d e) : addrsOf (.test d) e = ⟨[], 0, [], 0⟩ := by
  rw [addrsOf, findSome_quiet (addrsAnswer_quiet d) h]; rfl

theorem portOf_skip {d : Dir} {e x : List Ev} (h : Quiet d e) : portOf d (e ++ x) = portOf d x := by
  rw [portOf, List.findSome?_append, findSome_quiet (portAnswer_quiet d) h]; rfl

theorem uuidOf_skip {d : Dir} {e x : List Ev} (h : Quiet d e) : uuidOf (.test d) (e ++ x) = uuidOf (.test d) x := by
  rw [uuidOf, List.findSome?_append, findSome_quiet (uuidAnswer_quiet d) h]; rfl

theorem addrsOf_skip {d : Dir} {e x : List Ev} (h : Quiet d e) : addrsOf (.test d) (e ++ x) = addrsOf (.test d) x := by
  rw [addrsOf, List.findSome?_append, findSome_quiet (addrsAnswer_quiet d) h]; rfl

theorem uploadMeasurement_quiet {e : List Ev} (h : Quiet .c2s e) : uploadMeasurement e = none := by
  fun_induction uploadMeasurement e with
  | case1 => simp [quiet_cons, ofTest] at h
  | case2 a rest _ ih => exact ih (quiet_cons.1 h).2
  | case3 => rfl

theorem uploadMeasurement_skip {e : List Ev} (h : Quiet .c2s e) (o : Note) (x : List Ev) :
    uploadMeasurement (e ++ .emit o :: x) = uploadMeasurement (.emit o :: x) := by
  induction e with
  | nil => rfl
  | cons a e ih =>
    have h' := quiet_cons.1 h
    rw [← ih h'.2, List.cons_append, uploadMeasurement]
    rintro t0 r1 sel st t1 rest rfl heq
    cases e with
    | nil => simp at heq
    | cons b e =>
      simp only [List.cons_append, List.cons.injEq] at heq
      rw [heq.1] at h'
      simp [quiet_cons, ofTest] at h'

theorem downloadMeasurement_quiet {e : List Ev} (h : Quiet .s2c e) : downloadMeasurement e = none := by
  fun_induction downloadMeasurement e with
  | case1 => simp [quiet_cons, ofTest] at h
  | case2 a rest _ ih => exact ih (quiet_cons.1 h).2
  | case3 => rfl

theorem downloadMeasurement_skip {e : List Ev} (h : Quiet .s2c e) (o : Note) (x : List Ev) :
    downloadMeasurement (e ++ .emit o :: x) = downloadMeasurement (.emit o :: x) := by
  induction e with
  | nil => rfl
  | cons a e ih =>
    have h' := quiet_cons.1 h
    rw [← ih h'.2, List.cons_append, downloadMeasurement]
    rintro t0 t d r t1 st rest rfl heq
    cases e with
    | nil => simp at heq
    | cons b e =>
      simp only [List.cons_append, List.cons.injEq] at heq
      obtain ⟨rfl, heq⟩ := heq
      cases e with
      | nil => simp at heq
      | cons c e =>
        simp only [List.cons_append, List.cons.injEq] at heq
        obtain ⟨rfl, heq⟩ := heq
        simp [quiet_cons, ofTest] at h'

theorem clientReply_quiet {e : List Ev} (h : Quiet .s2c e) : clientReply e = none := by
  fun_induction clientReply e with
  | case1 => simp [quiet_cons, ofTest] at h
  | case2 a rest _ ih => exact ih (quiet_cons.1 h).2
  | case3 => rfl

theorem clientReply_skip {e : List Ev} (h : Quiet .s2c e) (x : List Ev) :
    clientReply (e ++ x) = clientReply x := by
  induction e with
  | nil => rfl
  | cons a e ih =>
    have h' := quiet_cons.1 h
    rw [← ih h'.2, List.cons_append, clientReply]
    rintro t r f rest rfl heq
    simp [ofTest] at h'

section
variable {σ : Type} (cfg : Cfg) (m : Messager) (s : σ)

/-- What the upload test sees is the same in the events of the test and in the events of the session. -/
theorem upload_local : wp (uploadManage cfg m) s (fun e _ _ => ∀ pre post, Quiet .c2s pre → Quiet .c2s post →
    portOf .c2s (pre ++ (e ++ post)) = portOf .c2s e ∧ uuidOf (.test .c2s) (pre ++ (e ++ post)) = uuidOf (.test .c2s) e ∧
    addrsOf (.test .c2s) (pre ++ (e ++ post)) = addrsOf (.test .c2s) e ∧
    uploadMeasurement (pre ++ (e ++ post)) = uploadMeasurement e) := by
  refine wp_opaque fun Q hQ => ?_
  wp_paths [uploadManage, uploadBody, uploadRun, drainAndMeasure, uploadReport]
  all_goals refine hQ _ _ _ ?_
  all_goals clear hQ
  all_goals intro pre post h1 h2
  all_goals rw [portOf_skip h1, uuidOf_skip h1, addrsOf_skip h1, List.cons_append, uploadMeasurement_skip h1]
  all_goals ev_simp [uploadMeasurement, portOf_quiet h2, uuidOf_quiet h2, addrsOf_quiet h2, uploadMeasurement_quiet h2]

/-- The same for the download test. -/
theorem download_local : wp (downloadManage cfg m) s (fun e _ _ => ∀ pre post, Quiet .s2c pre → Quiet .s2c post →
    portOf .s2c (pre ++ (e ++ post)) = portOf .s2c e ∧ uuidOf (.test .s2c) (pre ++ (e ++ post)) = uuidOf (.test .s2c) e ∧
    addrsOf (.test .s2c) (pre ++ (e ++ post)) = addrsOf (.test .s2c) e ∧
    downloadMeasurement (pre ++ (e ++ post)) = downloadMeasurement e ∧ clientReply (pre ++ (e ++ post)) = clientReply e) := by
  refine wp_opaque fun Q hQ => ?_
  wp_paths [downloadManage, downloadBody, downloadRun, downloadReport, wp_downloadMetrics]
  all_goals refine hQ _ _ _ ?_
  all_goals clear hQ
  all_goals intro pre post h1 h2
  all_goals rw [portOf_skip h1, uuidOf_skip h1, addrsOf_skip h1, clientReply_skip h1, List.cons_append, downloadMeasurement_skip h1]
  all_goals ev_simp [downloadMeasurement, portOf_quiet h2, uuidOf_quiet h2, addrsOf_quiet h2, downloadMeasurement_quiet h2,
    clientReply, clientReply_quiet h2]

end
end Verif.Ndt5
