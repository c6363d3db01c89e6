import Verif.Ndt5.DirRun

/-! # The archival record of a session -/

namespace Verif.Ndt5
open Verif.Go Verif.Spec

set_option maxRecDepth 20000
set_option linter.unusedSimpArgs false

/-- What is stored about the upload: nothing if the test did not return; otherwise its record with the error that ended the session. -/
def StoredUpload (label : Bytes) (all : List Ev) (uuid : Bytes) (o : Outcome Unit) (c : Option C2SRecord) : Prop :=
  (c = none ∧ ∀ l, count (countsResult l (str "c2s")) all = 0) ∨
  ∃ er, c = some { uploadRecord all with error := er.getD [] } ∧ count (countsResult label (str "c2s")) all = 1 ∧
    count (countsErrorResult label (str "c2s")) all = (if er.isSome then 1 else 0) ∧
    ∀ x, er = some x → o = .panic (panicText (str "C2S - Could not run c2s test") uuid x)

/-- What is stored about the download. -/
def StoredDownload (label : Bytes) (lib : Lib) (m : Messager) (all : List Ev) (uuid : Bytes) (o : Outcome Unit) (c : Option S2CRecord) : Prop :=
  (c = none ∧ ∀ l, count (countsResult l (str "s2c")) all = 0) ∨
  ∃ er, c = some { downloadRecord lib m all with error := er.getD [] } ∧ count (countsResult label (str "s2c")) all = 1 ∧
    count (countsErrorResult label (str "s2c")) all = (if er.isSome then 1 else 0) ∧
    ∀ x, er = some x → o = .panic (panicText (str "S2C - Could not run s2c test") uuid x)

/-- A test that stored something has counted its result. -/
def Counted {α : Type} (cfg : Cfg) (d : Dir) (s : Ctl) (e : List Ev) (o : Outcome α) (s' : Ctl) : Prop :=
  s' = s ∨ count (countsResult cfg.label d.name) e = 1 ∧
    ((∃ v, o = .ok v) → count (countsErrorResult cfg.label d.name) e = 0) ∧
    ((¬ ∃ v, o = .ok v) → count (countsErrorResult cfg.label d.name) e = 1)

theorem counted_notes {α : Type} {cfg : Cfg} {d : Dir} {s s' : Ctl} {e : List Ev} {er : Option Err} {mean : F64} {text : Bytes} {v : α}
    (hf : ∀ x ∈ e, inTest cfg d x = true ∧ isResult x = false) :
    Counted cfg d s (e ++ resultNotes cfg d er mean) (verdict text s v er) s' := by
  have h0 := noResult_of (fun x hx => (hf x hx).2) cfg.label d.name
  have h1 := quiet_foot (fun x hx => (hf x hx).1) cfg.label
  refine .inr ⟨?_, ?_, ?_⟩
  · rw [count_append, count_resultNotes _ (fun _ _ _ _ => rfl), h0]
    simp [countsResult]
  · rw [isSome_verdict]
    rintro rfl
    rw [count_append, count_resultNotes _ (fun _ _ _ _ => rfl)]
    simp only [countsErrorResult, errorLabel]
    simp; omega
  · rw [isSome_verdict]
    intro hn
    rw [count_append, count_resultNotes _ (fun _ _ _ _ => rfl)]
    simp only [countsErrorResult, errorLabel]
    cases er with
    | none => exact absurd rfl hn
    | some x => simp; omega

theorem upload_counted (cfg : Cfg) (m : Messager) (s : Ctl) : wp (runUpload cfg m) s (fun e o s' => Counted cfg .c2s s e o s') := by
  refine wp_mono (runUpload_exec cfg m s) ?_
  rintro e o s' (⟨msg, h, rfl, rfl⟩ | ⟨e1, r, er, h, rfl, rfl, rfl⟩)
  · exact .inl rfl
  · exact counted_notes (wp_iff.1 (upload_foot cfg m s) _ _ _ h)

theorem download_counted (cfg : Cfg) (m : Messager) (s : Ctl) : wp (runDownload cfg m) s (fun e o s' => Counted cfg .s2c s e o s') := by
  refine wp_mono (runDownload_exec cfg m s) ?_
  rintro e o s' (⟨msg, h, rfl, rfl⟩ | ⟨e1, r, er, h, rfl, rfl, rfl⟩)
  · exact .inl rfl
  · exact counted_notes (wp_iff.1 (download_foot cfg m s) _ _ _ h)

theorem Counted.verdict {α : Type} {cfg : Cfg} {d : Dir} {s s' : Ctl} {e : List Ev} {er : Option Err} {text : Bytes} {v : α} {s0 : Ctl} {o : Outcome α}
    (h : Counted cfg d s e o s') (ho : o = verdict text s0 v er) (hne : s' ≠ s) :
    count (countsResult cfg.label d.name) e = 1 ∧ count (countsErrorResult cfg.label d.name) e = (if er.isSome then 1 else 0) := by
  rcases h with h | ⟨h1, h2, h3⟩
  · exact absurd h hne
  · refine ⟨h1, ?_⟩
    subst ho
    rw [isSome_verdict] at h2 h3
    cases er with
    | none => simpa using h2 rfl
    | some x => simpa using h3 (by simp)

section
variable {cfg : Cfg} {n : Int} {m : Messager} {s s' sU sD : Ctl} {e0 eU eD eM eF : List Ev} {o0 oM o : Outcome Unit} {oU oD : Outcome F64}

theorem next_panic {α β : Type} {f : α → P Ctl β} {o' : Outcome β} {e : List Ev} {msg : Bytes} (h : Next (.panic msg) f s e o' s') :
    o' = .panic msg := h.2.1

variable (hp : Parts cfg n m s e0 eU eD eM eF o0 oU oD oM o sU sD s')
include hp

theorem Parts.panicM {msg : Bytes} (h : oM = .panic msg) : o = .panic msg := by
  obtain ⟨v, w, -, hf⟩ := hp.farewell
  subst h; exact next_panic hf
theorem Parts.panicD {msg : Bytes} (h : oD = .panic msg) : o = .panic msg := by
  have := hp.metadata; subst h; exact hp.panicM (next_panic this)
theorem Parts.panicU {msg : Bytes} (h : oU = .panic msg) : o = .panic msg := by
  have := hp.download; subst h; exact hp.panicD (next_panic this)
theorem Parts.panic0 {msg : Bytes} (h : o0 = .panic msg) : o = .panic msg := by
  have := hp.upload; subst h; exact hp.panicU (next_panic this)

theorem Parts.record {pre post : List Ev} (hpre : ∀ d, Silent d pre) (hpost : ∀ d, Silent d post)
    (hc : s.record.c2s = none) (hd : s.record.s2c = none) (hm : s.record.clientMetadata = []) :
    ∃ c d l, s'.record = { s.record with messageProtocol := encodingName m.encoding.toInt, c2s := c, s2c := d, clientMetadata := l } ∧
      StoredUpload cfg.label (pre ++ ((e0 ++ (eU ++ (eD ++ (eM ++ eF)))) ++ post)) s.record.uuid o c ∧
      StoredDownload cfg.label cfg.lib m (pre ++ ((e0 ++ (eU ++ (eD ++ (eM ++ eF)))) ++ post)) s.record.uuid o d ∧
      ((l = [] ∧ ((∃ v, o = .ok v) → requested n 5 = false)) ∨ requested n 5 = true ∧ ∃ er, Exec (metaManage cfg m) sD eM (.ok (l, er)) sD ∧
        ∀ x, er = some x → o = .panic (panicText (str "META - Could not run meta test") s.record.uuid x)) := by
  have hq : ∀ {d : Dir} {e : List Ev}, Silent d e → Quiet d e := fun h x hx => (h x hx).1
  have s0 : ∀ d, Silent d e0 := fun d => silent_isSend hp.foot0
  have sF : ∀ d, Silent d eF := fun d => silent_isSend hp.footF
  have sM : ∀ d, Silent d eM := fun d => silent_inMeta hp.footM
  have sU' : Silent .s2c eU := silent_inTest (by decide) hp.footU
  have sD' : Silent .c2s eD := silent_inTest (by decide) hp.footD
  have hallU : pre ++ ((e0 ++ (eU ++ (eD ++ (eM ++ eF)))) ++ post) = (pre ++ e0) ++ (eU ++ ((eD ++ (eM ++ eF)) ++ post)) := by
    simp only [List.append_assoc]
  have hallD : pre ++ ((e0 ++ (eU ++ (eD ++ (eM ++ eF)))) ++ post) = (pre ++ (e0 ++ eU)) ++ (eD ++ ((eM ++ eF) ++ post)) := by
    simp only [List.append_assoc]
  generalize hall : pre ++ ((e0 ++ (eU ++ (eD ++ (eM ++ eF)))) ++ post) = all at hallU hallD ⊢
  have aU : Silent .c2s (pre ++ e0) := silent_append.2 ⟨hpre _, s0 _⟩
  have bU : Silent .c2s ((eD ++ (eM ++ eF)) ++ post) := silent_append.2 ⟨silent_append.2 ⟨sD', silent_append.2 ⟨sM _, sF _⟩⟩, hpost _⟩
  have aD : Silent .s2c (pre ++ (e0 ++ eU)) := silent_append.2 ⟨hpre _, silent_append.2 ⟨s0 _, sU'⟩⟩
  have bD : Silent .s2c ((eM ++ eF) ++ post) := silent_append.2 ⟨silent_append.2 ⟨sM _, sF _⟩, hpost _⟩
  have hU : ∃ c, sU.record = { s.record with messageProtocol := encodingName m.encoding.toInt, c2s := c } ∧
      StoredUpload cfg.label all s.record.uuid o c := by
    have hskip : eU = [] → StoredUpload cfg.label all s.record.uuid o none := by
      rintro rfl
      refine .inl ⟨rfl, fun l => ?_⟩
      rw [hallU]
      exact (count_around (E := []) (only_results .c2s l) aU bU).trans rfl
    cases hp.ranU with
    | notReached => exact ⟨none, by rw [← hc]; rfl, hskip rfl⟩
    | skipped => exact ⟨none, by rw [← hc]; rfl, hskip rfl⟩
    | run _ _ _ _ _ h =>
      have hf := wp_iff.1 (upload_facts cfg m _) _ _ _ h _ _ (hq aU) (hq bU)
      rw [← hallU] at hf
      rcases hf.state with ⟨rfl, h1, -⟩ | ⟨er, rfl, ho⟩
      · refine ⟨none, by rw [← hc]; rfl, .inl ⟨rfl, fun l => ?_⟩⟩
        rw [hallU]
        exact (count_around (only_results .c2s l) aU bU).trans (h1 l)
      · have hcount := (wp_iff.1 (upload_counted cfg m _) _ _ _ h).verdict ho (fun hx => by
          have := congrArg (fun c => c.record.c2s) hx
          simp [Ctl.setC2S, Ctl.greeted, hc] at this)
        refine ⟨_, rfl, .inr ⟨er, rfl, ?_, ?_, ?_⟩⟩
        · rw [hallU]; exact (count_around (only_results .c2s _) aU bU).trans hcount.1
        · rw [hallU]; exact (count_around (only_errorResults .c2s _) aU bU).trans hcount.2
        rintro x rfl
        exact hp.panicU ho
  obtain ⟨c, hcU, hU⟩ := hU
  have hD : ∃ d, sD.record = { s.record with messageProtocol := encodingName m.encoding.toInt, c2s := c, s2c := d } ∧
      StoredDownload cfg.label cfg.lib m all s.record.uuid o d := by
    have hskip : eD = [] → StoredDownload cfg.label cfg.lib m all s.record.uuid o none := by
      rintro rfl
      refine .inl ⟨rfl, fun l => ?_⟩
      rw [hallD]
      exact (count_around (E := []) (only_results .s2c l) aD bD).trans rfl
    cases hp.ranD with
    | notReached => exact ⟨none, by rw [← hd, hcU], hskip rfl⟩
    | skipped => exact ⟨none, by rw [← hd, hcU], hskip rfl⟩
    | run _ _ _ _ _ h =>
      have hf := wp_iff.1 (download_facts cfg m _) _ _ _ h _ _ (hq aD) (hq bD)
      rw [← hallD] at hf
      rcases hf.state with ⟨rfl, h1, -⟩ | ⟨er, rfl, ho⟩
      · refine ⟨none, by rw [← hd, hcU], .inl ⟨rfl, fun l => ?_⟩⟩
        rw [hallD]
        exact (count_around (only_results .s2c l) aD bD).trans (h1 l)
      · have hcount := (wp_iff.1 (download_counted cfg m _) _ _ _ h).verdict ho (fun hx => by
          have := congrArg (fun c => c.record.s2c) hx
          simp [Ctl.setS2C, hcU, hd] at this)
        refine ⟨_, by rw [Ctl.setS2C, hcU], .inr ⟨er, rfl, ?_, ?_, ?_⟩⟩
        · rw [hallD]; exact (count_around (only_results .s2c _) aD bD).trans hcount.1
        · rw [hallD]; exact (count_around (only_errorResults .s2c _) aD bD).trans hcount.2
        rintro x rfl
        rw [hp.panicD ho, hcU]
  obtain ⟨d, hcD, hD⟩ := hD
  cases hp.ranM with
  | notReached _ hn => exact ⟨c, d, [], by rw [hcD, ← hm], hU, hD, .inl ⟨rfl, fun hv => absurd (hp.okD hv) hn⟩⟩
  | skipped _ hb => exact ⟨c, d, [], by rw [hcD, ← hm], hU, hD, .inl ⟨rfl, fun _ => hb⟩⟩
  | run _ _ _ _ hb h =>
    rcases wp_iff.1 (runMeta_exec cfg m _) _ _ _ h with ⟨msg, h', ho, rfl⟩ | ⟨r, er, h', rfl, ho⟩
    · exact ⟨c, d, [], by rw [hcD, ← hm], hU, hD, .inl ⟨rfl, fun ⟨v, hv⟩ => by rw [hp.panicM ho] at hv; cases hv⟩⟩
    · refine ⟨c, d, r, by rw [Ctl.setMeta, hcD], hU, hD, .inr ⟨hb, er, h', ?_⟩⟩
      rintro x rfl
      rw [hp.panicM ho, hcD]

end

end Verif.Ndt5
