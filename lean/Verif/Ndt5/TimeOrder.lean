import Verif.Ndt5.WholeRecord

/-! # Where the clock readings of the tests are among those of a session -/

namespace Verif.Ndt5
open Verif.Go Verif.Spec

theorem uploadMeasurement_clocks {e : List Ev} {t0 t1 : Int} {sel : Option Err} {st : Except Err Metrics}
    (h : uploadMeasurement e = some (t0, sel, st, t1)) : List.Sublist [t0, t1] (clocks e) := by
  fun_induction uploadMeasurement e with
  | case1 t0' r sel' st' t1' rest =>
    simp only [Option.some.injEq, Prod.mk.injEq] at h
    obtain ⟨rfl, rfl, rfl, rfl⟩ := h
    exact (List.Sublist.cons_cons _ (List.Sublist.cons_cons _ (List.nil_sublist _)))
  | case2 a rest _ ih => exact (ih h).trans ((List.sublist_cons_self a rest).filterMap _)
  | case3 => cases h

theorem downloadMeasurement_clocks {e : List Ev} {t0 t1 : Int} {st : Except Err Metrics}
    (h : downloadMeasurement e = some (t0, t1, st)) : List.Sublist [t0, t1] (clocks e) := by
  fun_induction downloadMeasurement e with
  | case1 t0' t r d t1' st' rest =>
    simp only [Option.some.injEq, Prod.mk.injEq] at h
    obtain ⟨rfl, rfl, rfl⟩ := h
    exact (List.Sublist.cons_cons _ (List.Sublist.cons _ (List.Sublist.cons_cons _ (List.nil_sublist _))))
  | case2 a rest _ ih => exact (ih h).trans ((List.sublist_cons_self a rest).filterMap _)
  | case3 => cases h

/-- The readings of the clock at the beginning and the end of the upload, if it was measured. -/
def uploadTimes (evs : List Ev) : List Int :=
  match uploadMeasurement evs with
  | some (t0, _, _, t1) => [t0, t1]
  | none => []

/-- The same for the download. -/
def downloadTimes (evs : List Ev) : List Int :=
  match downloadMeasurement evs with
  | some (t0, t1, _) => [t0, t1]
  | none => []

theorem uploadTimes_sublist (e : List Ev) : (uploadTimes e).Sublist (clocks e) := by
  unfold uploadTimes
  split
  · exact uploadMeasurement_clocks ‹_›
  · exact List.nil_sublist _

theorem downloadTimes_sublist (e : List Ev) : (downloadTimes e).Sublist (clocks e) := by
  unfold downloadTimes
  split
  · exact downloadMeasurement_clocks ‹_›
  · exact List.nil_sublist _

section
variable {cfg : Cfg} {n : Int} {m : Messager} {s s' sU sD : Ctl} {e0 eU eD eM eF : List Ev} {o0 oM o : Outcome Unit} {oU oD : Outcome F64}
variable (hp : Parts cfg n m s e0 eU eD eM eF o0 oU oD oM o sU sD s')
include hp

theorem Parts.uploadLocal {pre post : List Ev} (h1 : Quiet .c2s pre) (h2 : Quiet .c2s post) :
    uploadMeasurement (pre ++ (eU ++ post)) = uploadMeasurement eU := by
  cases hp.ranU with
  | notReached => rw [List.nil_append, uploadMeasurement_quiet (quiet_append.2 ⟨h1, h2⟩)]; rfl
  | skipped => rw [List.nil_append, uploadMeasurement_quiet (quiet_append.2 ⟨h1, h2⟩)]; rfl
  | run _ _ _ _ _ h =>
    rcases wp_iff.1 (runUpload_exec cfg m _) _ _ _ h with ⟨msg, h', -⟩ | ⟨e1, r, er, h', rfl, -⟩
    · exact (wp_iff.1 (upload_local cfg m _) _ _ _ h' _ _ h1 h2).2.2.2
    · rw [List.append_assoc, (wp_iff.1 (upload_local cfg m _) _ _ _ h' _ _ h1 (quiet_append.2 ⟨quiet_resultNotes, h2⟩)).2.2.2]
      exact ((wp_iff.1 (upload_local cfg m _) _ _ _ h' [] _ (by simp [Quiet]) quiet_resultNotes).2.2.2).symm

theorem Parts.downloadLocal {pre post : List Ev} (h1 : Quiet .s2c pre) (h2 : Quiet .s2c post) :
    downloadMeasurement (pre ++ (eD ++ post)) = downloadMeasurement eD := by
  cases hp.ranD with
  | notReached => rw [List.nil_append, downloadMeasurement_quiet (quiet_append.2 ⟨h1, h2⟩)]; rfl
  | skipped => rw [List.nil_append, downloadMeasurement_quiet (quiet_append.2 ⟨h1, h2⟩)]; rfl
  | run _ _ _ _ _ h =>
    rcases wp_iff.1 (runDownload_exec cfg m _) _ _ _ h with ⟨msg, h', -⟩ | ⟨e1, r, er, h', rfl, -⟩
    · exact (wp_iff.1 (download_local cfg m _) _ _ _ h' _ _ h1 h2).2.2.2.1
    · rw [List.append_assoc, (wp_iff.1 (download_local cfg m _) _ _ _ h' _ _ h1 (quiet_append.2 ⟨quiet_resultNotes, h2⟩)).2.2.2.1]
      exact ((wp_iff.1 (download_local cfg m _) _ _ _ h' [] _ (by simp [Quiet]) quiet_resultNotes).2.2.2.1).symm

/-- The readings at the ends of the upload come before those at the ends of the download, among the readings of the session. -/
theorem Parts.times {pre post : List Ev} (hpre : ∀ d, Quiet d pre) (hpost : ∀ d, Quiet d post) :
    (uploadTimes (pre ++ ((e0 ++ (eU ++ (eD ++ (eM ++ eF)))) ++ post)) ++ downloadTimes (pre ++ ((e0 ++ (eU ++ (eD ++ (eM ++ eF)))) ++ post))).Sublist
      (clocks (e0 ++ (eU ++ (eD ++ (eM ++ eF))))) := by
  have q0 : ∀ d, Quiet d e0 := fun d => isSend_quiet hp.foot0
  have qF : ∀ d, Quiet d eF := fun d => isSend_quiet hp.footF
  have qM : ∀ d, Quiet d eM := fun d => quiet_inMeta hp.footM
  have qU : Quiet .s2c eU := quiet_inTest (by decide) hp.footU
  have qD : Quiet .c2s eD := quiet_inTest (by decide) hp.footD
  have hU : uploadTimes (pre ++ ((e0 ++ (eU ++ (eD ++ (eM ++ eF)))) ++ post)) = uploadTimes eU := by
    have : pre ++ ((e0 ++ (eU ++ (eD ++ (eM ++ eF)))) ++ post) = (pre ++ e0) ++ (eU ++ ((eD ++ (eM ++ eF)) ++ post)) := by
      simp only [List.append_assoc]
    rw [uploadTimes, this, Parts.uploadLocal hp (quiet_append.2 ⟨hpre _, q0 _⟩)
      (quiet_append.2 ⟨quiet_append.2 ⟨qD, quiet_append.2 ⟨qM _, qF _⟩⟩, hpost _⟩)]
    rfl
  have hD : downloadTimes (pre ++ ((e0 ++ (eU ++ (eD ++ (eM ++ eF)))) ++ post)) = downloadTimes eD := by
    have : pre ++ ((e0 ++ (eU ++ (eD ++ (eM ++ eF)))) ++ post) = (pre ++ (e0 ++ eU)) ++ (eD ++ ((eM ++ eF) ++ post)) := by
      simp only [List.append_assoc]
    rw [downloadTimes, this, Parts.downloadLocal hp (quiet_append.2 ⟨hpre _, quiet_append.2 ⟨q0 _, qU⟩⟩)
      (quiet_append.2 ⟨quiet_append.2 ⟨qM _, qF _⟩, hpost _⟩)]
    rfl
  rw [hU, hD, clocks_append, clocks_append, clocks_append]
  exact ((uploadTimes_sublist eU).append ((downloadTimes_sublist eD).trans (List.sublist_append_left _ _))).trans (List.sublist_append_right _ _)

end

/-- The clock readings of a control connection that got its UUID: first, the start time, those during the tests, the end time and a last one. -/
theorem whole_times {cfg : Cfg} {evs : List Ev} (h : Whole cfg evs) (hu : ∃ u, .call (.uuid .control) (.ok u) ∈ evs) :
    ∃ t0 t tE t1 during, clocks evs = t0 :: t :: (during ++ [tE, t1]) ∧ (uploadTimes evs ++ downloadTimes evs).Sublist during ∧
      ∀ l ns, .emit (.duration l ns) ∈ evs → ns = t1 - t0 := by
  cases h with
  | early mid t0 t1 o h1 h2 h3 h4 h5 h6 =>
    obtain ⟨u, hu⟩ := hu
    simp only [List.mem_append] at hu
    rcases hu with hu | hu | hu | hu
    · simp at hu
    · exact absurd hu (h6 u)
    · cases o <;> simp [endNotes] at hu
    · simp at hu
  | run t0 t t1 a u eS eF oS oF r s h1 h2 =>
    have hpre := outer_pre (cfg := cfg) (t0 := t0) (t := t) (a := a) (u := u)
    have hpost := outer_post (r := r) (o := after (after oS oF) r) (t0 := t0) (t1 := t1) h2
    obtain ⟨tE, hclk, -⟩ := h2.works
    refine ⟨t0, t, tE, t1, clocks eS, ?_, ?_, ?_⟩
    rotate_left 2
    · intro l ns hd
      have hacc := accounts_run (t0 := t0) (t := t) (t1 := t1) (a := a) (u := u) (r := r) (o := after (after oS oF) r) h1 h2
      have : .duration l ns ∈ accounts (preEvents cfg t0 a t u ++ (eS ++ postEvents cfg eF r (after (after oS oF) r) t0 t1)) :=
        List.mem_filter.2 ⟨List.mem_filterMap.2 ⟨_, hd, rfl⟩, rfl⟩
      rw [hacc] at this
      cases hx : after (after oS oF) r <;> simp [hx, ledger] at this <;> exact this.2
    · have hc : clocks (postEvents cfg eF r (after (after oS oF) r) t0 t1) = [tE, t1] := by
        rw [postEvents, clocks_append, clocks, hclk]
        cases after (after oS oF) r <;> rfl
      rw [clocks_append, clocks_append, hc]
      rfl
    · have hq1 : ∀ d, Quiet d (preEvents cfg t0 a t u) := fun d => fun x hx => (outer_silent hpre x hx).1
      have hq2 : ∀ d, Quiet d (postEvents cfg eF r (after (after oS oF) r) t0 t1) := fun d => fun x hx => (outer_silent hpost x hx).1
      have hnone : (∀ d, Quiet d eS) → (uploadTimes (preEvents cfg t0 a t u ++ (eS ++ postEvents cfg eF r (after (after oS oF) r) t0 t1)) ++
          downloadTimes (preEvents cfg t0 a t u ++ (eS ++ postEvents cfg eF r (after (after oS oF) r) t0 t1))).Sublist (clocks eS) := fun hq => by
        rw [uploadTimes, downloadTimes, uploadMeasurement_quiet (quiet_append.2 ⟨hq1 _, quiet_append.2 ⟨hq _, hq2 _⟩⟩),
          downloadMeasurement_quiet (quiet_append.2 ⟨hq1 _, quiet_append.2 ⟨hq _, hq2 _⟩⟩)]
        exact List.nil_sublist _
      cases h1 with
      | crashed msg => exact hnone fun d => by simp [Quiet, ofTest]
      | nilLogin r' enc _ _ _ => exact hnone fun d => by simp [Quiet, ofTest]
      | refused r' x enc _ => exact hnone fun d => by cases d <;> simp [Quiet, ofTest] <;> decide
      | noStatus frame m n _ _ => exact hnone fun d => by cases d <;> simp [Quiet, ofTest] <;> decide
      | run frame m n e o s' _ _ h =>
        obtain ⟨e0, eU, eD, eM, eF', o0, oU, oD, oM, sU, sD, rfl, hp⟩ := suite_parts h
        have hn : ∀ d, Quiet d (.call .recv (.ok (.ok frame)) :: requestNotes cfg n) := fun d => by
          refine quiet_cons.2 ⟨rfl, fun x hx => ?_⟩
          simp only [requestNotes, List.mem_append] at hx
          aesop (add norm simp ofTest)
        have := Parts.times hp (pre := preEvents cfg t0 a t u ++ .call .recv (.ok (.ok frame)) :: requestNotes cfg n)
          (post := postEvents cfg eF r (after (after oS oF) r) t0 t1) (fun d => quiet_append.2 ⟨hq1 d, hn d⟩) hq2
        rw [← List.cons_append, clocks_append]
        simp only [List.append_assoc, List.cons_append] at this ⊢
        exact this.trans (List.sublist_append_right _ _)

end Verif.Ndt5
