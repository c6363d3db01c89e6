import Verif.Ndt5.SendLemmas
import Verif.Spec.Download

/-! # All executions of the download test -/

namespace Verif.Ndt5
open Verif.Go Verif.Spec

set_option maxRecDepth 20000
set_option linter.unusedSimpArgs false

section
variable {σ : Type} (cfg : Cfg) (m : Messager) (s : σ)

theorem wp_downloadMetrics (rd : S2CRecord) (w : Metrics) (P : List Ev → Outcome (S2CRecord × Option Err) → σ → Prop) :
    wp (downloadMetrics cfg m rd w) s P ↔ ∀ e o s', Exec (downloadMetrics cfg m rd w) s e o s' → P e o s' := wp_iff

/-- The frames that end a download test. -/
def endScript (m : Messager) (lines : List Bytes) : List Bytes :=
  lines.map (m.frame MsgType.testMsg) ++ [m.frame MsgType.testFinalize []]

/-- Sending the metrics and the end of the test is sending the frames one after another; an error is counted. -/
theorem downloadMetrics_sends (rd : S2CRecord) (w : Metrics) : wp (downloadMetrics cfg m rd w) s (fun e o s' =>
    s' = s ∧ ∃ eS oS, Sends (endScript m (resultLines cfg.lib w rd)) eS oS ∧
    match oS with
    | .ok none => e = eS ∧ o = .ok (rd, none)
    | .ok (some er) => (∃ w, e = eS ++ [.emit (.testError cfg.label (str "s2c") w)]) ∧ o = .ok (rd, some er)
    | .panic msg => e = eS ∧ o = .panic msg) := by
  refine wp_opaque fun Q hQ => ?_
  wp_paths [downloadMetrics, wp_sendFields]
  all_goals refine hQ _ _ _ ⟨rfl, ?_⟩
  all_goals clear hQ
  all_goals simp only [endScript, resultLines, List.map_append, List.append_assoc]
  · rename_i h; exact ⟨_, _, sends_append_failed _ h (by simp), ⟨_, rfl⟩, rfl⟩
  · rename_i h1 _ _ _ _ h2
    exact ⟨_, _, sends_append_done h1 (sends_append_failed _ h2 (by simp)), ⟨_, by rw [List.append_assoc]⟩, rfl⟩
  · rename_i h1 _ _ _ h2 _ er
    exact ⟨_, _, sends_append_done h1 (sends_append_done h2 (.failed _ _ er)), ⟨str "TestFinalize", by simp only [List.append_assoc, List.cons_append, List.nil_append]⟩, rfl⟩
  · rename_i h1 _ _ _ h2 _
    exact ⟨_, .ok none, sends_append_done h1 (sends_append_done h2 (.sent _ _ _ _ .done)), rfl, trivial⟩
  · rename_i h1 _ _ _ h2 msg
    refine ⟨_, _, sends_append_done h1 (sends_append_done h2 (.crashed _ _ msg)), ?_⟩; exact ⟨rfl, rfl⟩
  · rename_i h1 _ _ _ h2
    refine ⟨_, _, sends_append_done h1 (sends_append_failed _ h2 (by simp)), ?_⟩; exact ⟨rfl, rfl⟩
  · rename_i h; refine ⟨_, _, sends_append_failed _ h (by simp), ?_⟩; exact ⟨rfl, rfl⟩

/-- What follows a download's results. -/
theorem downloadMetrics_spec (rd : S2CRecord) (w : Metrics) : wp (downloadMetrics cfg m rd w) s (fun e o s' =>
    s' = s ∧ OnScript (endScript m (resultLines cfg.lib w rd)) e (∃ r, o = .ok (r, none)) ∧
    (∀ r er, o = .ok (r, er) → r = rd) ∧ (NoCrash e ↔ ∃ r, o = .ok r) ∧
    (∀ p : Ev → Bool, (∀ f r, p (.call (.send f) r) = false) → (∀ w, p (.emit (.testError cfg.label (str "s2c") w)) = false) →
      count p e = 0) ∧
    (∀ l, count (countsError l (str "s2c")) e = if (errorOf o).isSome ∧ cfg.label = l then 1 else 0)) := by
  refine wp_mono (downloadMetrics_sends cfg m s rd w) ?_
  rintro e o s' ⟨hs, eS, oS, h, hm⟩
  refine ⟨hs, ?_⟩
  match oS, h, hm with
  | .ok none, h, ⟨he, ho⟩ =>
    subst he ho
    exact ⟨(sends_onScript h).congr (by simp), by simp, by simp [sends_noCrash h], fun p hp _ => by simp [sends_count h hp],
      fun l => by simp [sends_count h (p := countsError l (str "s2c")) (fun _ _ => rfl), errorOf]⟩
  | .ok (some er), h, ⟨⟨w, he⟩, ho⟩ =>
    subst he ho
    refine ⟨((sends_onScript h).quiet rfl rfl).congr (by simp), by simp, ?_, ?_, fun l => ?_⟩
    · simp [noCrash_append, noCrash_cons, noCrash_nil, crashed, sends_noCrash h]
    · intro p hp hq
      simp [count_append, sends_count h hp, count_cons, count_nil, hq]
    · simp [count_append, sends_count h (p := countsError l (str "s2c")) (fun _ _ => rfl), count_cons, count_nil, countsError, errorOf]
  | .panic msg, h, ⟨he, ho⟩ =>
    subst he ho
    exact ⟨(sends_onScript h).congr (by simp), by simp, by simp [sends_noCrash h], fun p hp _ => by simp [sends_count h hp],
      fun l => by simp [sends_count h (p := countsError l (str "s2c")) (fun _ _ => rfl), errorOf]⟩

theorem downloadMetrics_exec {cfg : Cfg} {m : Messager} {s s' : σ} {rd : S2CRecord} {w : Metrics} {e : List Ev}
    {o : Outcome (S2CRecord × Option Err)} : Exec (downloadMetrics cfg m rd w) s e o s' →
    s' = s ∧ OnScript (endScript m (resultLines cfg.lib w rd)) e (∃ r, o = .ok (r, none)) ∧
    (∀ r er, o = .ok (r, er) → r = rd) ∧ (NoCrash e ↔ ∃ r, o = .ok r) ∧
    (∀ p : Ev → Bool, (∀ f r, p (.call (.send f) r) = false) → (∀ w, p (.emit (.testError cfg.label (str "s2c") w)) = false) →
      count p e = 0) ∧
    (∀ l, count (countsError l (str "s2c")) e = if (errorOf o).isSome ∧ cfg.label = l then 1 else 0) := fun h => wp_iff.1 (downloadMetrics_spec cfg m s rd w) _ _ _ h

theorem withClientRate_eq (lib : Lib) (r : S2CRecord) (msg : Bytes) : r.withClientRate lib msg =
    { r with clientMbps := match lib.parseFloat msg with
                           | none => r.clientMbps
                           | some kbps => .div kbps (.ofInt 1000) } := by
  unfold S2CRecord.withClientRate
  cases lib.parseFloat msg <;> rfl

theorem clientMbps_recv {lib : Lib} {m : Messager} {evs : List Ev} {a : Except Err Bytes} {msg : Option Bytes} {snd : Option Err}
    (hm : m.receive a MsgType.testMsg = (msg, snd)) (hx : ∀ e, msg = none → snd = some e → False)
    (h : clientReply evs = some a) : clientMbps lib m evs =
      match lib.parseFloat (msg.getD []) with
      | none => .fin 0
      | some kbps => .div kbps (.ofInt 1000) := by
  unfold clientMbps
  rw [h]
  simp only [hm]
  cases msg with
  | none => cases snd with
    | none => rfl
    | some e => exact (hx _ rfl rfl).elim
  | some msg => rfl

theorem download_onScript : wp (downloadManage cfg m) s (fun e o s' =>
    s' = s ∧ OnScript (downloadScript cfg.lib m e) e (∃ r, o = .ok (r, none))) := by
  refine wp_opaque fun Q hQ => ?_
  wp_paths [downloadManage, downloadBody, downloadRun, downloadReport, wp_downloadMetrics]
  all_goals refine hQ _ _ _ ?_
  all_goals clear hQ
  all_goals try refine ⟨rfl, ?_, ?_, ?_, ?_⟩
  all_goals try (ev_simp [downloadScript, s2cScript, downloadMeasurement, measuredDownload, downloadKernel, downloadKbps]; done)
  all_goals
    obtain ⟨rfl, hS, -⟩ := downloadMetrics_exec ‹Exec (downloadMetrics _ _ _ _) _ _ _ _›
    refine ⟨rfl, ?_⟩
    refine cast (congrArg (fun S => OnScript S _ _) ?_) <| OnScript.congr (OnScript.append (S₁ := [m.frame MsgType.testPrepare _, m.frame MsgType.testStart [], m.s2cFrame _ 0 _])
      (e₁ := [_, _, _, _, _, _, _, _, _, _, _, _, _, _, _, _, _, _]) (OnScript.all rfl rfl) hS) ?_ 
  all_goals try (simp [Prod.ext_iff, *]; done)
  all_goals
    clear hS
    unfold downloadScript s2cScript endScript
    rw [downloadRecord, clientMbps_recv ‹m.receive _ _ = _› ‹_› (by rfl), withClientRate_eq, S2CRecord.withMetrics]
    ev_simp [downloadMeasurement, measuredDownload, downloadKernel, downloadKbps]

theorem download_errors : wp (downloadManage cfg m) s (fun e o _ => ∀ l,
    count (countsError l (str "s2c")) e = (if (errorOf o).isSome ∧ cfg.label = l then 1 else 0) ∧
    ∀ d, d ≠ str "s2c" → count (countsError l d) e = 0) := by
  refine wp_opaque fun Q hQ => ?_
  wp_paths [downloadManage, downloadBody, downloadRun, downloadReport, wp_downloadMetrics]
  all_goals refine hQ _ _ _ ?_
  all_goals clear hQ
  all_goals intro l
  all_goals try
    obtain ⟨-, -, -, -, hc, hl⟩ := downloadMetrics_exec ‹Exec (downloadMetrics _ _ _ _) _ _ _ _›
    refine ⟨?_, fun d hd => ?_⟩
    · ev_simp [hl, errorOf]
      try simp [‹_ = some _›]
      try simp [‹_ = none›]
    · ev_simp []
      exact hc _ (fun _ _ => rfl) (fun w => by simp [countsError]; exact fun _ h => hd h.symm)
  all_goals ev_simp [errorOf]
  all_goals (intro d hd hl; exact fun h => hd h.symm)

theorem download_record : wp (downloadManage cfg m) s (fun e o _ => ∀ r er, o = .ok (r, er) →
    r = { downloadRecord cfg.lib m e with error := er.getD [] }) := by
  refine wp_opaque fun Q hQ => ?_
  wp_paths [downloadManage, downloadBody, downloadRun, downloadReport, wp_downloadMetrics]
  all_goals refine hQ _ _ _ ?_
  all_goals clear hQ
  all_goals (intro r er h; first | (injection h with h; injection h with h1 h2; subst h1; subst h2) | (injection h; done))
  all_goals try (ev_simp [downloadMeasurement, measuredDownload, downloadKernel, downloadKbps, downloadRecord, S2CRecord.withMetrics, clientMbps,
    clientReply]; done)
  all_goals try (ev_simp [downloadMeasurement, measuredDownload, downloadKernel, downloadKbps, downloadRecord, S2CRecord.withMetrics, clientMbps,
    clientReply, ‹m.receive _ _ = _›]; done)
  all_goals
    obtain ⟨-, -, hr, -⟩ := downloadMetrics_exec ‹Exec (downloadMetrics _ _ _ _) _ _ _ _›
    have hr := hr _ _ rfl
    rw [downloadRecord, clientMbps_recv ‹m.receive _ _ = _› ‹_› (by rfl)]
    rw [withClientRate_eq, S2CRecord.withMetrics] at hr
    ev_simp [downloadMeasurement, measuredDownload, downloadKernel, downloadKbps, hr]

theorem download_resources : wp (downloadManage cfg m) s (fun e _ _ =>
    (count (opensListener .s2c) e = count (closesListener .s2c) e ∨
      count (opensListener .s2c) e = 1 ∧ count (closesListener .s2c) e = 0 ∧
        attempts e = [m.frame MsgType.testPrepare (itoa (portOf .s2c e))] ∧ (sent e = [] ∨ ¬ NoCrash e)) ∧
    (sent e = [] → attempts e ≠ [] → count (closesListener .s2c) e = 0 ∧ count (opensListener .s2c) e = 1) ∧
    count (opensListener .s2c) e ≤ 1 ∧
    (NoCrash e → count (handsConn .s2c) e = count (closesConn .s2c) e + count (handsConnAndError .s2c) e) ∧
    count (closesConn .s2c) e ≤ count (handsConn .s2c) e ∧
    count (handsConn .s2c) e ≤ 1 ∧
    count (opensListener .c2s) e = 0 ∧ count (closesListener .c2s) e = 0 ∧
    count (handsConn .c2s) e = 0 ∧ count (handsNothing .c2s) e = 0 ∧ count (closesConn .c2s) e = 0 ∧ count (handsConnAndError .c2s) e = 0) := by
  refine wp_opaque fun Q hQ => ?_
  wp_paths [downloadManage, downloadBody, downloadRun, downloadReport, wp_downloadMetrics]
  all_goals refine hQ _ _ _ ?_
  all_goals clear hQ
  all_goals try (ev_simp []; done)
  all_goals
    obtain ⟨-, -, -, -, hc, -⟩ := downloadMetrics_exec ‹Exec (downloadMetrics _ _ _ _) _ _ _ _›
    have h0 := fun d => hc (opensListener d) (fun _ _ => rfl) (fun _ => rfl)
    have h1 := fun d => hc (closesListener d) (fun _ _ => rfl) (fun _ => rfl)
    have h2 := fun d => hc (handsConn d) (fun _ _ => rfl) (fun _ => rfl)
    have h3 := fun d => hc (handsNothing d) (fun _ _ => rfl) (fun _ => rfl)
    have h4 := fun d => hc (closesConn d) (fun _ _ => rfl) (fun _ => rfl)
    have h5 := fun d => hc (handsConnAndError d) (fun _ _ => rfl) (fun _ => rfl)
    ev_simp [h0, h1, h2, h3, h4, h5]
/-- Why a download test can fail. -/
theorem download_fails : wp (downloadManage cfg m) s (fun e o _ => ∀ er, errorOf o = some er →
    .call (.listen .s2c) (.ok (.error er)) ∈ e ∨ (∃ c, .call (.accept .s2c) (.ok (c, some er)) ∈ e) ∨
    .call (.accept .s2c) (.ok (false, none)) ∈ e ∨ .call (.stopMeasuring .s2c) (.ok (.error er)) ∈ e ∨
    (∃ f, .call (.send f) (.ok (some er)) ∈ e) ∨
    ∃ a, .call .recv (.ok a) ∈ e ∧ m.receive a MsgType.testMsg = (none, some er)) := by
  refine wp_opaque fun Q hQ => ?_
  wp_paths [downloadManage, downloadBody, downloadRun, downloadReport, wp_downloadMetrics]
  all_goals refine hQ _ _ _ ?_
  all_goals clear hQ
  all_goals intro er her
  all_goals try (simp [errorOf] at her; done)
  all_goals try (simp only [errorOf, Option.some.injEq] at her; subst her)
  all_goals try (simp; done)
  all_goals first | (refine .inr (.inr (.inr (.inr (.inr ⟨_, ?_, ‹m.receive _ _ = _›⟩)))); simp; done) | skip
  all_goals
    obtain ⟨-, eS, oS, hS, ho⟩ := wp_iff.1 (downloadMetrics_sends cfg m _ _ _) _ _ _ ‹Exec (downloadMetrics _ _ _ _) _ _ _ _›
    cases oS with
    | panic msg => simp at ho
    | ok oS =>
      cases oS with
      | none => simp_all
      | some er' =>
        obtain ⟨⟨w, rfl⟩, ho⟩ := ho
        have h1 := ‹Prod.snd _ = some _›
        have h2 := congrArg errorOf ho
        simp only [errorOf] at h2
        have h3 := h2.symm.trans h1
        injection h3 with h3
        subst h3
        obtain ⟨f, hf⟩ := sends_failed hS
        refine .inr (.inr (.inr (.inr (.inl ⟨f, by simp [hf]⟩))))

/-- The results are sent whenever the test returns after a measurement. -/
theorem download_third : wp (downloadManage cfg m) s (fun e o _ => ∀ t0 t1 w r, downloadMeasurement e = some (t0, t1, .ok w) → o = .ok r →
    (attempts e)[2]? = some (m.s2cFrame (measuredDownload e).toInt64 0 w.tcpInfo.bytesAcked)) := by
  refine wp_opaque fun Q hQ => ?_
  wp_paths [downloadManage, downloadBody, downloadRun, downloadReport, wp_downloadMetrics]
  all_goals refine hQ _ _ _ ?_
  all_goals clear hQ
  all_goals intro t0 t1 w r hm ho
  all_goals try (injection ho; done)
  all_goals simp only [downloadMeasurement, Option.some.injEq, Prod.mk.injEq, reduceCtorEq, and_false] at hm
  all_goals obtain ⟨rfl, rfl, hw⟩ := hm
  all_goals first | (injection hw with hw; subst hw) | (injection hw; done)
  all_goals ev_simp [downloadMeasurement, measuredDownload, downloadKbps]

end
end Verif.Ndt5
