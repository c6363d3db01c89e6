import Verif.Ndt5.WP
import Verif.Ndt5.Control
import Verif.Spec.Labels
import Verif.Props.Session

/-! # The labels of the ndt5 counters -/

namespace Verif.Props
open Verif.Go Verif.Ndt5 Verif.Spec

set_option maxRecDepth 20000

section
variable {σ : Type} {cfg : Cfg}

/-- Counter updates among the events carry only labels from the fixed lists. -/
private def Ok (cfg : Cfg) : Ev → Prop
  | .emit o => FixedLabels cfg.kind cfg.isMon o
  | _ => True

private theorem lab : cfg.label = labelText cfg.kind := (label_eq cfg).symm

private theorem nam : cfg.kind.name = protocolText cfg.kind := (protocol_eq _).symm

private theorem f_call {q : Call} : Foot (Ok cfg) (M.call (S := sig) q : P σ q.Answer) := foot_call fun _ => trivial
private theorem f_now : Foot (Ok cfg) (M.now : P σ Int) := foot_now fun _ => trivial
private theorem f_send {m : Messager} {t : MsgType} {b : Bytes} : Foot (Ok cfg) (sendMsg (σ := σ) m t b) := f_call
private theorem f_s2c {m : Messager} {a b c : Int} : Foot (Ok cfg) (sendS2CResults (σ := σ) m a b c) := f_call
private theorem f_recv {m : Messager} {t : MsgType} : Foot (Ok cfg) (receiveMsg (σ := σ) m t) :=
  foot_bind f_call fun _ => foot_pure _

private theorem f_error (d e : String) (h : errorTexts.any (fun p => p.1 == str d && p.2.contains (str e)) = true) :
    Foot (Ok cfg) (countError (σ := σ) cfg (str d) (str e)) := by
  refine foot_note ?_
  obtain ⟨p, hp, hpe⟩ := List.any_eq_true.1 h
  simp only [Bool.and_eq_true, beq_iff_eq, List.contains_iff_mem] at hpe
  exact ⟨lab, p.2, by rw [← hpe.1]; exact hp, hpe.2⟩

private theorem a_send (a : Bytes) : Foot (Ok cfg) (Ask.send a : P σ _) := f_call
private theorem a_recv : Foot (Ok cfg) (Ask.recv : P σ _) := f_call
private theorem a_addrs (a : ConnId) : Foot (Ok cfg) (Ask.addrs a : P σ _) := f_call
private theorem a_uuid (a : ConnId) : Foot (Ok cfg) (Ask.uuid a : P σ _) := f_call
private theorem a_close (a : ConnId) : Foot (Ok cfg) (Ask.close a : P σ _) := f_call
private theorem a_listen (a : Dir) : Foot (Ok cfg) (Ask.listen a : P σ _) := f_call
private theorem a_accept (a : Dir) : Foot (Ok cfg) (Ask.accept a : P σ _) := f_call
private theorem a_startMeasuring (a : Dir) : Foot (Ok cfg) (Ask.startMeasuring a : P σ _) := f_call
private theorem a_stopMeasuring (a : Dir) : Foot (Ok cfg) (Ask.stopMeasuring a : P σ _) := f_call
private theorem a_fill (a : Bytes) : Foot (Ok cfg) (Ask.fill a : P σ _) := f_call
private theorem a_drain : Foot (Ok cfg) (Ask.drain : P σ _) := f_call
private theorem a_ctxErr : Foot (Ok cfg) (Ask.ctxErr : P σ _) := f_call
private theorem a_mkdirAll (a : Bytes) : Foot (Ok cfg) (Ask.mkdirAll a : P σ _) := f_call
private theorem a_create (a : Bytes) : Foot (Ok cfg) (Ask.create a : P σ _) := f_call
private theorem a_tempFile (a : Bytes) : Foot (Ok cfg) (Ask.tempFile a : P σ _) := f_call
private theorem a_write (a : Bytes) (b : Record) : Foot (Ok cfg) (Ask.write a b : P σ _) := f_call
private theorem a_closeFile (a : Bytes) : Foot (Ok cfg) (Ask.closeFile a : P σ _) := f_call

private theorem f_panicOnError {e : Option Err} {t : Bytes} : Foot (Ok cfg) (panicOnError e t) := by
  unfold panicOnError
  split
  · exact foot_pure _
  · exact foot_bind foot_get fun _ => foot_panic _

/-- Walk through a program; what remains are other functions and some notes. -/
macro "walk" : tactic => `(tactic| repeat' with_reducible first
  | exact f_send | exact f_s2c | exact f_recv | exact f_panicOnError | exact f_now
  | exact foot_pure _ | exact foot_panic _ | exact foot_get | exact foot_modify _
  | exact a_send _ | exact a_recv | exact a_addrs _ | exact a_uuid _ | exact a_close _ | exact a_listen _ | exact a_accept _ | exact a_startMeasuring _ | exact a_stopMeasuring _ | exact a_fill _ | exact a_drain | exact a_ctxErr | exact a_mkdirAll _ | exact a_create _ | exact a_tempFile _ | exact a_write _ _ | exact a_closeFile _
  | exact f_error _ _ (by decide)
  | refine foot_defer ?_ ?_
  | refine foot_bind ?_ (fun _ => ?_)
  | refine foot_ite (fun _ => ?_) (fun _ => ?_)
  | split
  | dsimp only)

private theorem f_start {d : Dir} : Foot (Ok cfg) (startServer (σ := σ) cfg d) := by
  unfold startServer
  refine foot_bind (foot_note nam) fun _ => ?_
  walk

private theorem f_serve {d : Dir} : Foot (Ok cfg) (serveOnce (σ := σ) cfg d) := by
  unfold serveOnce
  exact foot_defer (foot_bind (foot_note nam) fun _ => foot_note trivial) (a_accept _)

private theorem f_drain : Foot (Ok cfg) (drainAndMeasure (σ := σ)) := by
  unfold drainAndMeasure
  walk

private theorem f_uploadReport {m : Messager} {rd : C2SRecord} {w : Metrics} {t : F64} :
    Foot (Ok cfg) (uploadReport (σ := σ) cfg m rd w t) := by
  unfold uploadReport
  walk

private theorem f_uploadRun {m : Messager} : Foot (Ok cfg) (uploadRun (σ := σ) cfg m) := by
  unfold uploadRun
  walk
  all_goals first | exact f_drain | exact f_uploadReport

private theorem f_upload {m : Messager} : Foot (Ok cfg) (uploadManage (σ := σ) cfg m) := by
  unfold uploadManage uploadBody
  walk
  all_goals first | exact f_start | exact f_serve | exact f_uploadRun | exact foot_note trivial

mutual
private theorem f_fields {m : Messager} : ∀ (pre : Bytes) (fs : List (Bytes × MVal)), Foot (Ok cfg) (sendFields (σ := σ) m pre fs)
  | _, [] => by unfold sendFields; exact foot_pure _
  | pre, (n, v) :: rest => by
    unfold sendFields
    refine foot_bind (f_field pre n v) fun e => ?_
    cases e with
    | some e => exact foot_pure _
    | none => exact f_fields pre rest
private theorem f_field {m : Messager} : ∀ (pre n : Bytes) (v : MVal), Foot (Ok cfg) (sendField (σ := σ) m pre n v)
  | _, _, .num _ => by unfold sendField; exact f_send
  | _, _, .text _ => by unfold sendField; exact f_send
  | _, _, .stringer _ => by unfold sendField; exact f_send
  | pre, n, .struct fs => by unfold sendField; exact f_fields _ fs
  | _, _, .other => by unfold sendField; exact foot_pure _
end

private theorem f_metrics {m : Messager} {rd : S2CRecord} {w : Metrics} : Foot (Ok cfg) (downloadMetrics (σ := σ) cfg m rd w) := by
  unfold downloadMetrics
  refine foot_bind (f_fields _ _) fun e => ?_
  cases e with
  | some e => walk
  | none =>
    refine foot_bind (f_fields _ _) fun e => ?_
    walk

private theorem f_downloadReport {m : Messager} {rd : S2CRecord} {w : Metrics} :
    Foot (Ok cfg) (downloadReport (σ := σ) cfg m rd w) := by
  unfold downloadReport
  walk
  all_goals exact f_metrics

private theorem f_downloadRun {m : Messager} : Foot (Ok cfg) (downloadRun (σ := σ) cfg m) := by
  unfold downloadRun
  walk
  all_goals exact f_downloadReport

private theorem f_download {m : Messager} : Foot (Ok cfg) (downloadManage (σ := σ) cfg m) := by
  unfold downloadManage downloadBody
  walk
  all_goals first | exact f_start | exact f_serve | exact f_downloadRun

private theorem f_metaLoop {m : Messager} : ∀ (n : Nat) (r : List NameValue) (c : Nat), Foot (Ok cfg) (metaLoop (σ := σ) m n r c)
  | 0, _, _ => by unfold metaLoop; exact foot_pure _
  | n + 1, r, c => by
    unfold metaLoop
    walk
    all_goals exact f_metaLoop n _ _

private theorem f_meta {m : Messager} : Foot (Ok cfg) (metaManage (σ := σ) cfg m) := by
  unfold metaManage
  walk
  all_goals first | exact f_metaLoop _ _ _ | exact foot_note trivial

private theorem result_mem (e : Option Err) (r : F64) : resultLabel e r ∈ resultTexts := by
  unfold resultLabel
  split <;> split <;> decide

private theorem suite_is (tests : Int) : IsSuite (join [45] (suites tests)) := by
  refine ⟨(if hasBit tests bitMID then [str "mid"] else []) ++ (if hasBit tests bitC2S then [str "c2s"] else []) ++
    (if hasBit tests bitS2C then [str "s2c"] else []) ++ (if hasBit tests bitSFW then [str "sfw"] else []) ++
    (if hasBit tests bitMETA then [str "meta"] else []), ?_, ?_⟩
  · unfold testNames
    cases hasBit tests bitMID <;> cases hasBit tests bitC2S <;> cases hasBit tests bitS2C <;> cases hasBit tests bitSFW <;>
      cases hasBit tests bitMETA <;> decide
  · unfold suites
    cases hasBit tests bitMID <;> cases hasBit tests bitC2S <;> cases hasBit tests bitS2C <;> cases hasBit tests bitSFW <;>
      cases hasBit tests bitMETA <;> decide

private theorem f_rate {d : Bytes} (h : d ∈ rateTests) {r : F64} : Foot (Ok cfg) (note (.testRate cfg.label d cfg.isMon r) : P σ Unit) :=
  foot_note ⟨lab, h, rfl⟩

private theorem f_result {d : Bytes} (h : d ∈ rateTests) {e : Option Err} {r : F64} :
    Foot (Ok cfg) (note (.testResult cfg.label d (resultLabel e r)) : P σ Unit) :=
  foot_note ⟨lab, h, result_mem _ _⟩

private theorem f_runUpload {m : Messager} : Foot (Ok cfg) (runUpload cfg m) := by
  unfold runUpload
  walk
  · exact f_upload
  all_goals first | exact f_result (d := str "c2s") (by decide) | exact f_rate (d := str "c2s") (by decide)

private theorem f_runDownload {m : Messager} : Foot (Ok cfg) (runDownload cfg m) := by
  unfold runDownload
  walk
  · exact f_download
  all_goals first | exact f_result (d := str "s2c") (by decide) | exact f_rate (d := str "s2c") (by decide)

private theorem f_runMeta {m : Messager} : Foot (Ok cfg) (runMeta cfg m) := by
  unfold runMeta
  walk
  exact f_meta

private theorem f_sendOrPanic {m : Messager} {t : MsgType} {c x : Bytes} : Foot (Ok cfg) (sendOrPanic m t c x) := by
  unfold sendOrPanic
  walk

private theorem f_suite {m : Messager} {tests : Int} : Foot (Ok cfg) (runSuite cfg tests m) := by
  unfold runSuite greet farewell
  walk
  all_goals first | exact f_sendOrPanic | exact f_runUpload | exact f_runDownload | exact f_runMeta

private theorem f_requested {tests : Int} {b : Nat} {t : Bytes} (h : t ∈ testNames) : Foot (Ok cfg) (countRequested cfg tests b t) := by
  unfold countRequested
  walk
  exact foot_note ⟨lab, h⟩

private theorem f_requests {tests : Int} : Foot (Ok cfg) (countRequests cfg tests) := by
  unfold countRequests
  walk
  · exact f_requested (by decide)
  · exact f_requested (by decide)
  · exact f_requested (by decide)
  · exact f_requested (by decide)
  · exact f_requested (by decide)
  · exact foot_note ⟨lab, suite_is _⟩

private theorem f_login : Foot (Ok cfg) (login cfg) := by
  unfold login
  walk

private theorem f_session : Foot (Ok cfg) (session cfg) := by
  unfold session
  walk
  all_goals first | exact f_login | exact f_requests | exact f_suite

private theorem f_handle : Foot (Ok cfg) (handleControlChannel cfg) := by
  unfold handleControlChannel finishRecord saveData uuidToFile
  walk
  all_goals exact f_session

end

/-- C79: whatever a client sends and whatever fails, the counters of a control connection carry only labels from fixed lists: the
protocol of the server, the names of the tests and of the places where errors are counted, four results, eleven kinds of panics, and
the suites built from five tests. No client can add a label. -/
theorem C79_fixed_labels (cfg : Cfg) {evs : List Ev} {o : Outcome Unit} (h : Exec (HandleControlChannel cfg) () evs o ()) :
    ∀ n ∈ notes evs, FixedLabels cfg.kind cfg.isMon n := by
  have hf : Foot (Ok cfg) (HandleControlChannel cfg) := by
    unfold HandleControlChannel
    refine foot_bind (foot_note lab) fun _ => foot_defer (foot_note lab) (foot_bind f_now fun _ => foot_defer
      (foot_bind f_now fun _ => foot_note lab) ?_)
    intro s
    rw [wp_recovering, wp_withState]
    refine wp_mono (f_handle _) ?_
    intro e o _ he
    have hc : ∀ r, Foot (Ok cfg) (countControl cfg r) := by
      intro r
      unfold countControl
      cases r with
      | none => exact foot_note ⟨lab, by decide⟩
      | some msg =>
        exact foot_bind (foot_note ⟨lab, (C15_label msg).1⟩) fun _ => foot_note ⟨lab, by decide⟩
    refine wp_mono (hc _ _) ?_
    intro e' o' s' he'
    have hall : ∀ x ∈ e ++ e', Ok cfg x := by
      intro x hx
      rcases List.mem_append.1 hx with h | h
      · exact he x h
      · exact he' x h
    cases o' <;> exact hall
  intro n hn
  obtain ⟨x, hx, hxn⟩ := List.mem_filterMap.1 hn
  have hok := wp_iff.1 (hf ()) _ _ _ h x hx
  cases x <;> simp only [noteOf, Option.some.injEq, reduceCtorEq] at hxn
  subst hxn
  exact hok

/-- A session whose counters show requested tests and a suite. -/
example : .requested (str "ndt5+plain") (str "mid") ∈ notes metaSession ∧
    .suite (str "ndt5+plain") (str "status-mid-sfw-meta") ∈ notes metaSession := by
  decide +kernel

/-- The text of the suite of that session, and a text that is not a suite. -/
example : IsSuite (str "status-mid-sfw-meta") ∧ ¬ IsSuite (str "c2s") :=
  ⟨⟨[str "mid", str "sfw", str "meta"], by decide, by decide⟩, by
    rintro ⟨tests, -, h⟩
    have h0 := congrArg (·.head?) h
    revert h0
    simp [str]⟩

/-- Labels of another server or error texts that are not listed are not accepted. -/
example : ¬ FixedLabels .ws (str "false") (.activeTests (str "ndt5+wss") 1) ∧
    ¬ FixedLabels .ws (str "false") (.testError (str "ndt5+ws") (str "c2s") (str "EOF")) := by
  refine ⟨by unfold FixedLabels; decide, ?_⟩
  rintro ⟨-, es, h, he⟩
  have hall : ∀ p ∈ errorTexts, str "EOF" ∉ p.2 := by decide
  exact hall _ h he

end Verif.Props
