import Verif.Ndt5.PartLemmas

/-! # The session after the login -/

namespace Verif.Ndt5
open Verif.Go Verif.Spec

set_option maxRecDepth 20000
set_option linter.unusedSimpArgs false

/-- Script, value and record of an upload within a session; `all` are the events of the whole session. -/
structure UploadFacts (m : Messager) (s : Ctl) (e : List Ev) (o : Outcome F64) (s' : Ctl) (all : List Ev) : Prop where
  script : OnScript (c2sScript m (portOf .c2s all) (measuredUpload all).toInt64) e (∃ v, o = .ok v)
  value : ∀ v, o = .ok v → v = (uploadRecord all).mean
  state : (s' = s ∧ (∀ l, count (countsResult l (str "c2s")) e = 0) ∧ (∀ l, count (countsError l (str "c2s")) e = 0) ∧ ∃ msg, o = .panic msg ∧ (NoCrash e → msg = nilDeref)) ∨
    ∃ er, s' = s.setC2S { uploadRecord all with error := er.getD [] } ∧
      o = verdict (str "C2S - Could not run c2s test") s (uploadRecord all).mean er

/-- The same for a download. -/
structure DownloadFacts (lib : Lib) (m : Messager) (s : Ctl) (e : List Ev) (o : Outcome F64) (s' : Ctl) (all : List Ev) : Prop where
  script : OnScript (downloadScript lib m all) e (∃ v, o = .ok v)
  value : ∀ v, o = .ok v → v = (downloadRecord lib m all).mean
  state : (s' = s ∧ (∀ l, count (countsResult l (str "s2c")) e = 0) ∧ (∀ l, count (countsError l (str "s2c")) e = 0) ∧ ∃ msg, o = .panic msg ∧ ¬ NoCrash e) ∨
    ∃ er, s' = s.setS2C { downloadRecord lib m all with error := er.getD [] } ∧
      o = verdict (str "S2C - Could not run s2c test") s (downloadRecord lib m all).mean er

theorem quiet_resultNotes {cfg : Cfg} {d d' : Dir} {er : Option Err} {mean : F64} : Quiet d' (resultNotes cfg d er mean) := by
  unfold resultNotes Quiet
  split <;> simp [ofTest]

theorem uploadRecord_congr {a b : List Ev} (h2 : uuidOf (.test .c2s) a = uuidOf (.test .c2s) b)
    (h3 : addrsOf (.test .c2s) a = addrsOf (.test .c2s) b) (h4 : uploadMeasurement a = uploadMeasurement b) :
    measuredUpload a = measuredUpload b ∧ uploadRecord a = uploadRecord b := by
  have hm : measuredUpload a = measuredUpload b := by simp only [measuredUpload, h4]
  have ht : uploadTooShort a = uploadTooShort b := by simp only [uploadTooShort, h4]
  exact ⟨hm, by simp only [uploadRecord, h2, h3, h4, ht, hm]⟩

theorem downloadScript_congr {lib : Lib} {m : Messager} {a b : List Ev} (h1 : portOf .s2c a = portOf .s2c b)
    (h2 : uuidOf (.test .s2c) a = uuidOf (.test .s2c) b)
    (h3 : addrsOf (.test .s2c) a = addrsOf (.test .s2c) b) (h4 : downloadMeasurement a = downloadMeasurement b)
    (h5 : clientReply a = clientReply b) :
    downloadScript lib m a = downloadScript lib m b ∧ downloadRecord lib m a = downloadRecord lib m b := by
  have hm : measuredDownload a = measuredDownload b := by simp only [measuredDownload, h4]
  have hk : downloadKernel a = downloadKernel b := by simp only [downloadKernel, h4]
  have hc : clientMbps lib m a = clientMbps lib m b := by simp only [clientMbps, h5]
  have hr : downloadRecord lib m a = downloadRecord lib m b := by simp only [downloadRecord, h2, h3, h4, hm, hc]
  exact ⟨by simp only [downloadScript, h1, hm, hk, hr], hr⟩

section
variable (cfg : Cfg) (m : Messager) (s : Ctl)

theorem upload_crash_msg : wp (uploadManage cfg m) s (fun e o _ => ∀ msg, o = .panic msg → NoCrash e → msg = nilDeref) := by
  refine wp_opaque fun Q hQ => ?_
  wp_paths [uploadManage, uploadBody, uploadRun, drainAndMeasure, uploadReport]
  all_goals refine hQ _ _ _ ?_
  all_goals clear hQ
  all_goals intro msg h hn
  all_goals first
    | (injection h; done)
    | (injection h with h; exact h.symm)
    | (simp [noCrash_cons, crashed] at hn; done)

theorem download_crash : wp (downloadManage cfg m) s (fun e o _ => ∀ msg, o = .panic msg → ¬ NoCrash e) := by
  refine wp_opaque fun Q hQ => ?_
  wp_paths [downloadManage, downloadBody, downloadRun, downloadReport, wp_downloadMetrics]
  all_goals refine hQ _ _ _ ?_
  all_goals clear hQ
  all_goals intro msg h
  all_goals first
    | (injection h; done)
    | (simp [noCrash_cons, crashed]; done)
    | skip
  all_goals
    obtain ⟨-, -, -, hc, -, -⟩ := downloadMetrics_exec ‹Exec (downloadMetrics _ _ _ _) _ _ _ _›
    intro hn
    simp only [noCrash_cons, noCrash_append] at hn
    obtain ⟨r, hr⟩ := hc.1 (by simp_all)
    injection hr

theorem upload_facts : wp (runUpload cfg m) s (fun e o s' => ∀ pre post, Quiet .c2s pre → Quiet .c2s post →
    UploadFacts m s e o s' (pre ++ (e ++ post))) := by
  refine wp_mono (runUpload_exec cfg m s) ?_
  rintro e o s' (⟨msg, h, rfl, rfl⟩ | ⟨e1, r, er, h, rfl, rfl, rfl⟩) pre post h1 h2
  · obtain ⟨a1, a2, a3, a4⟩ := wp_iff.1 (upload_local cfg m s') _ _ _ h pre post h1 h2
    obtain ⟨b1, b2⟩ := uploadRecord_congr a2 a3 a4
    have hs := (wp_iff.1 (upload_onScript cfg m s') _ _ _ h).2
    have hf := wp_iff.1 (upload_foot cfg m s') _ _ _ h
    have he := wp_iff.1 (upload_errors cfg m s') _ _ _ h
    refine ⟨?_, nofun, .inl ⟨rfl, (noResult_of (fun x hx => (hf x hx).2) · _), fun l => by simpa [errorOf] using (he l).1, msg, rfl, ?_⟩⟩
    · rw [a1, b1]; exact hs.congr (by simp)
    · exact wp_iff.1 (upload_crash_msg cfg m s') _ _ _ h _ rfl
  · have h3 : Quiet .c2s (resultNotes cfg .c2s er r.mean ++ post) := quiet_append.2 ⟨quiet_resultNotes, h2⟩
    obtain ⟨a1, a2, a3, a4⟩ := wp_iff.1 (upload_local cfg m s) _ _ _ h pre _ h1 h3
    rw [List.append_assoc]
    obtain ⟨b1, b2⟩ := uploadRecord_congr a2 a3 a4
    have hs := (wp_iff.1 (upload_onScript cfg m s) _ _ _ h).2
    have hr := wp_iff.1 (upload_record cfg m s) _ _ _ h r er rfl
    have hmean : r.mean = (uploadRecord e1).mean := by rw [hr]
    refine ⟨?_, ?_, .inr ⟨er, ?_, ?_⟩⟩
    · rw [a1, b1, isSome_verdict]
      exact (hs.quiet attempts_resultNotes sent_resultNotes).congr (by simp)
    · intro v hv
      rw [b2, ← hmean]
      cases er <;> simp_all [verdict]
    · rw [b2, ← hr]
    · rw [b2, ← hmean]

theorem download_facts : wp (runDownload cfg m) s (fun e o s' => ∀ pre post, Quiet .s2c pre → Quiet .s2c post →
    DownloadFacts cfg.lib m s e o s' (pre ++ (e ++ post))) := by
  refine wp_mono (runDownload_exec cfg m s) ?_
  rintro e o s' (⟨msg, h, rfl, rfl⟩ | ⟨e1, r, er, h, rfl, rfl, rfl⟩) pre post h1 h2
  · obtain ⟨a1, a2, a3, a4, a5⟩ := wp_iff.1 (download_local cfg m s') _ _ _ h pre post h1 h2
    obtain ⟨b1, b2⟩ := downloadScript_congr (lib := cfg.lib) (m := m) a1 a2 a3 a4 a5
    have hs := (wp_iff.1 (download_onScript cfg m s') _ _ _ h).2
    have hf := wp_iff.1 (download_foot cfg m s') _ _ _ h
    have he := wp_iff.1 (download_errors cfg m s') _ _ _ h
    refine ⟨?_, nofun, .inl ⟨rfl, (noResult_of (fun x hx => (hf x hx).2) · _), fun l => by simpa [errorOf] using (he l).1, msg, rfl, ?_⟩⟩
    · rw [b1]; exact hs.congr (by simp)
    · exact wp_iff.1 (download_crash cfg m s') _ _ _ h _ rfl
  · have h3 : Quiet .s2c (resultNotes cfg .s2c er r.mean ++ post) := quiet_append.2 ⟨quiet_resultNotes, h2⟩
    obtain ⟨a1, a2, a3, a4, a5⟩ := wp_iff.1 (download_local cfg m s) _ _ _ h pre _ h1 h3
    rw [List.append_assoc]
    obtain ⟨b1, b2⟩ := downloadScript_congr (lib := cfg.lib) (m := m) a1 a2 a3 a4 a5
    have hs := (wp_iff.1 (download_onScript cfg m s) _ _ _ h).2
    have hr := wp_iff.1 (download_record cfg m s) _ _ _ h r er rfl
    have hmean : r.mean = (downloadRecord cfg.lib m e1).mean := by rw [hr]
    refine ⟨?_, ?_, .inr ⟨er, ?_, ?_⟩⟩
    · rw [b1, isSome_verdict]
      exact (hs.quiet attempts_resultNotes sent_resultNotes).congr (by simp)
    · intro v hv
      rw [b2, ← hmean]
      cases er <;> simp_all [verdict]
    · rw [b2, ← hr]
    · rw [b2, ← hmean]

end
end Verif.Ndt5
