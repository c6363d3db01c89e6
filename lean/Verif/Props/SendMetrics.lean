import Verif.Ndt5.SendLemmas

/-!
# Exporting metrics over the control connection (C07)
-/

namespace Verif.Props
open Verif.Go Verif.Ndt5 Verif.Spec

section
variable {σ : Type}

/-- C07: the executions of the export are exactly: send the lines of the structure one after another, in
order, until the first failure, whose error (or crash) is the outcome. -/
theorem C07_export_sends_lines (m : Messager) (pre : Bytes) (fields : List (Bytes × MVal)) (s s' : σ) (evs : List Ev)
    (out : Outcome (Option Err)) :
    Exec (sendFields m pre fields) s evs out s' ↔
      s' = s ∧ Sends ((metricLines pre fields).map (m.frame MsgType.testMsg)) evs out := by
  constructor
  · exact fun h => wp_iff.1 ((wp_sendFields m pre fields s (fun e o s' => s' = s ∧ Sends ((metricLines pre fields).map (m.frame MsgType.testMsg)) e o)).2
      (fun e o h => ⟨rfl, h⟩)) _ _ _ h
  · rintro ⟨rfl, h⟩
    exact (wp_sendFields m pre fields s' (fun e o s'' => Exec (sendFields m pre fields) s' e o s'')).1
      (wp_iff.2 fun _ _ _ h => h) _ _ h

/-- C07: what is sent is a beginning of the lines; only the last attempt may have failed; the export ends without error
exactly if all lines were sent (unless a send crashed). -/
theorem C07_export_on_script (m : Messager) (pre : Bytes) (fields : List (Bytes × MVal)) (s s' : σ) (evs : List Ev)
    (out : Outcome (Option Err)) (h : Exec (sendFields m pre fields) s evs out s') :
    OnScript ((metricLines pre fields).map (m.frame MsgType.testMsg)) evs (out = .ok none) :=
  sends_onScript ((C07_export_sends_lines ..).1 h).2

end

/-- C07: one line per exportable value, of the form `name: value`. -/
theorem C07_lines_are_entries (pre : Bytes) (fields : List (Bytes × MVal)) :
    metricLines pre fields = (metricEntries pre fields).map fun e => e.1 ++ str ": " ++ e.2 ++ [10] :=
  metricLines_entries pre fields

/-- C07: two different values never use the same name. -/
theorem C07_names_distinct (pre : Bytes) (fields : List (Bytes × MVal)) (h : GoFields fields) :
    ((metricEntries pre fields).map Prod.fst).Nodup := (entries_nodup pre fields h).1

/-- C07: this applies to the two structures the server exports at the end of a download, and no name is used in both exports. -/
theorem C07_download_names_distinct (lib : Lib) (w : Metrics) (r : S2CRecord) (h : GoFields w.tcpInfo.reflected) :
    ((metricEntries [] w.reflect ++ metricEntries (str "NDTResult.S2C.") (r.reflect lib)).map Prod.fst).Nodup := by
  have hw : GoFields w.reflect := by
    simp only [Metrics.reflect, numField, GoFields, GoValue, List.map_cons, List.map_nil, h, and_true, true_and]
    repeat' refine And.intro ?_ ?_
    all_goals decide
  have hr : GoFields (r.reflect lib) := by
    simp only [S2CRecord.reflect, numField, GoFields, GoValue, List.map_cons, List.map_nil, and_true, true_and]
    repeat' refine And.intro ?_ ?_
    all_goals decide
  obtain ⟨h1, h2⟩ := entries_nodup [] _ hw
  obtain ⟨h3, h4⟩ := entries_nodup (str "NDTResult.S2C.") _ hr
  rw [List.map_append, List.nodup_append]
  refine ⟨h1, h3, ?_⟩
  intro a ha b hb hab
  obtain ⟨e, he, rfl⟩ := List.mem_map.1 ha
  obtain ⟨e', he', rfl⟩ := List.mem_map.1 hb
  obtain ⟨n, hn, hd, t, ht, ht'⟩ := h2 e he
  obtain ⟨u, hu⟩ := entries_prefix _ _ e' he'
  rw [ht, ← hu] at hab
  have : n = str "NDTResult" := by
    refine name_of_path hd (by decide) ht' (u := str ".S2C." ++ u) (.inr rfl) ?_
    have hs : str "NDTResult.S2C." = str "NDTResult" ++ str ".S2C." := by decide
    rw [hs] at hab
    simpa using hab
  subst this
  revert hn
  simp only [Metrics.reflect, numField, List.map_cons, List.map_nil]
  decide

/-- A nested structure, exported with a prefix: two lines, the nested one with a dotted name; the second send fails. -/
example : Exec (sendFields .tlv (str "x.") [(str "A", .num (str "1")), (str "F", .other), (str "T", .struct [(str "B", .text (str "b"))]),
      (str "C", .num (str "2"))]) ()
    [.call (.send (Messager.tlv.frame MsgType.testMsg (str "x.A: 1\n"))) (.ok none),
     .call (.send (Messager.tlv.frame MsgType.testMsg (str "x.T.B: b\n"))) (.ok (some (str "broken pipe")))]
    (.ok (some (str "broken pipe"))) () := by
  rw [C07_export_sends_lines]
  exact ⟨rfl, .sent _ _ _ _ (.failed _ _ _)⟩

example : GoFields [(str "A", .num (str "1")), (str "T", .struct [(str "A", .text (str "b"))])] := by
  simp only [GoFields, GoValue, List.map_cons, List.map_nil]
  decide

end Verif.Props
