import Verif.Ndt5.WP
import Verif.Ndt5.Control
import Verif.Ndt7.Measurer
import Verif.Spec.OtherSystems
import Verif.Props.Session

/-!
# Systems other than Linux

C112: what the server does without kernel statistics.
-/

namespace Verif.Props
open Verif.Go Verif.Ndt5 Verif.Spec

set_option maxRecDepth 20000

/-- C112 is violated: once measuring has begun, `StopMeasuring` waits forever, since the channel that it waits for is nil. No schedule lets it return. -/
theorem C112_stop_never_returns {as bs : List Other.Act} {s : Other.Measurer} (h : Other.measurer.Reaches (as ++ .start :: bs) s) : .stopped ∉ bs := by
  obtain ⟨t, -, h'⟩ := LTS.runFrom_append_eq.1 h
  obtain ⟨u, h1, h2⟩ := LTS.runFrom_cons_eq.1 h'
  have hu : u.summaryC = .nil := by
    simp only [Other.measurer, Other.Measurer.step] at h1
    split at h1
    · cases h1
    · cases h1; rfl
  clear h h' h1
  induction bs generalizing u with
  | nil => simp
  | cons b bs ih =>
    obtain ⟨v, h3, h4⟩ := LTS.runFrom_cons_eq.1 h2
    have hv : v.summaryC = .nil ∧ b ≠ .stopped := by
      simp only [Other.measurer] at h3
      cases b with
      | start => simp only [Other.Measurer.step] at h3; split at h3 <;> cases h3; exact ⟨rfl, by simp⟩
      | stop => simp only [Other.Measurer.step] at h3; split at h3 <;> cases h3; exact ⟨hu, by simp⟩
      | stopped =>
        simp only [Other.Measurer.step, hu] at h3
        split at h3 <;> cases h3
    have := ih v h4 hv.1
    simp only [List.mem_cons, not_or]
    exact ⟨fun h => hv.2 h.symm, this⟩

/-- C112 is violated: not every call of `StopMeasuring` can return. -/
theorem C112_stop_returns_false : ¬ ∀ (as : List Other.Act) (s : Other.Measurer), Other.measurer.Reaches as s → s.stopping = true →
    ∃ bs t, Other.measurer.runFrom s bs = some t ∧ t.stopping = false := by
  intro h
  obtain ⟨bs, t, h1, h2⟩ := h [.start, .stop] ⟨.nil, true, 0⟩ rfl rfl
  cases bs with
  | nil => cases h1; simp at h2
  | cons b bs =>
    obtain ⟨u, h3, -⟩ := LTS.runFrom_cons_eq.1 h1
    cases b <;> simp [Other.measurer, Other.Measurer.step] at h3

/-- Without `StartMeasuring` it returns. -/
example : Other.measurer.Reaches [.stop, .stopped] ⟨.closed, false, 1⟩ := rfl

section
variable {σ α β : Type} {cfg : Cfg}

/-- If measuring began, it was stopped after that, or a call crashed. -/
private def Stops (e : List Ev) : Prop :=
  ∀ d x, .call (.startMeasuring d) x ∈ e → (∃ l l' x y, e = l ++ .call (.startMeasuring d) x :: l' ∧ .call (.stopMeasuring d) y ∈ l') ∨ ∃ q msg, .call q (.panic msg) ∈ e

private theorem stops_append {e e' : List Ev} (h : Stops e) (h' : Stops e') : Stops (e ++ e') := by
  intro d x hx
  rcases List.mem_append.1 hx with hx | hx
  · rcases h d x hx with ⟨l, l', x, y, rfl, hy⟩ | ⟨q, msg, hq⟩
    · exact .inl ⟨l, l' ++ e', x, y, by simp, List.mem_append_left _ hy⟩
    · exact .inr ⟨q, msg, List.mem_append_left _ hq⟩
  · rcases h' d x hx with ⟨l, l', x, y, rfl, hy⟩ | ⟨q, msg, hq⟩
    · exact .inl ⟨e ++ l, l', x, y, by simp, hy⟩
    · exact .inr ⟨q, msg, List.mem_append_right _ hq⟩

private theorem stops_nil : Stops [] := fun _ _ h => by cases h

private theorem stops_one {v : Ev} (h : ∀ d x, v ≠ .call (.startMeasuring d) x) : Stops [v] := fun d x hx => absurd (List.mem_singleton.1 hx).symm (h d x)

/-- All executions are like this. -/
private def Comp (m : P σ α) : Prop := ∀ s, wp m s (fun e _ _ => Stops e)

private theorem comp_pure (a : α) : Comp (pure a : P σ α) := fun s => by rw [wp_pure]; exact stops_nil
private theorem comp_panic (msg : Bytes) : Comp (M.panic msg : P σ α) := fun s => by rw [wp_panic]; exact stops_nil
private theorem comp_get : Comp (M.get : P σ σ) := fun s => by rw [wp_get]; exact stops_nil
private theorem comp_modify (f : σ → σ) : Comp (M.modify f : P σ Unit) := fun s => by rw [wp_modify]; exact stops_nil
private theorem comp_bind {x : P σ α} {f : α → P σ β} (hx : Comp x) (hf : ∀ a, Comp (f a)) : Comp (x >>= f) := by
  intro s
  rw [wp_bind]
  refine wp_mono (hx s) ?_
  intro e o s' he
  cases o with
  | ok a => exact wp_mono (hf a s') fun e' _ _ he' => stops_append he he'
  | panic msg => exact he
private theorem comp_defer {c : P σ Unit} {x : P σ α} (hc : Comp c) (hx : Comp x) : Comp (M.defer c x) := by
  intro s
  rw [wp_defer]
  refine wp_mono (hx s) ?_
  intro e o s' he
  refine wp_mono (hc s') ?_
  intro e' o' s'' he'
  have := stops_append he he'
  cases o' <;> exact this
private theorem comp_note (o : Note) : Comp (note o : P σ Unit) := fun s => by
  rw [wp_note]; exact stops_one fun _ _ h => by cases h
private theorem comp_now : Comp (M.now : P σ Int) := fun s => by
  rw [wp_now]; intro t; exact stops_one fun _ _ h => by cases h
private theorem comp_call {q : Call} (hq : ∀ d, q ≠ .startMeasuring d) : Comp (M.call (S := sig) q : P σ q.Answer) := fun s => by
  rw [wp_call]; intro r
  exact stops_one fun d x h => by
    injection h with h1
    exact hq d h1
private theorem comp_ite {c : Prop} [Decidable c] {x y : P σ α} (hx : c → Comp x) (hy : ¬ c → Comp y) : Comp (if c then x else y) := by
  by_cases h : c
  · simpa [h] using hx h
  · simpa [h] using hy h

/-- All executions stop the measuring in this direction or crash. -/
private def Uses (d : Dir) (m : P σ α) : Prop := ∀ s, wp m s (fun e _ _ => Stops e ∧ ((∃ y, .call (.stopMeasuring d) y ∈ e) ∨ ∃ q msg, .call q (.panic msg) ∈ e))

private theorem uses_call {d : Dir} {q : Call} {f : q.Answer → P σ β} (hq : ∀ d, q ≠ .startMeasuring d) (hf : ∀ a, Uses d (f a)) : Uses d (M.call (S := sig) q >>= f) := by
  intro s
  rw [wp_bind, wp_call]
  have h1 : ∀ r, Stops [.call q r] := fun r => stops_one fun d x h => by
    injection h with h1
    exact hq d h1
  rintro (a | msg)
  · refine wp_mono (hf a s) ?_
    rintro e _ _ ⟨he, hs⟩
    refine ⟨stops_append (h1 _) he, ?_⟩
    rcases hs with ⟨y, hy⟩ | ⟨q', msg, hy⟩
    · exact .inl ⟨y, List.mem_append_right _ hy⟩
    · exact .inr ⟨q', msg, List.mem_append_right _ hy⟩
  · exact ⟨h1 _, .inr ⟨q, msg, List.mem_singleton.2 rfl⟩⟩

private theorem uses_now {d : Dir} {f : Int → P σ β} (hf : ∀ a, Uses d (f a)) : Uses d (M.now >>= f) := by
  intro s
  rw [wp_bind, wp_now]
  intro t
  refine wp_mono (hf t s) ?_
  rintro e _ _ ⟨he, hs⟩
  refine ⟨stops_append (stops_one fun _ _ h => by cases h) he, ?_⟩
  rcases hs with ⟨y, hy⟩ | ⟨q', msg, hy⟩
  · exact .inl ⟨y, List.mem_append_right _ hy⟩
  · exact .inr ⟨q', msg, List.mem_append_right _ hy⟩

private theorem uses_stop {d : Dir} {f : Except Err Metrics → P σ β} (hf : ∀ a, Comp (f a)) : Uses d (Ask.stopMeasuring d >>= f) := by
  intro s
  unfold Ask.stopMeasuring
  rw [wp_bind, wp_call]
  have h1 : ∀ r, Stops [.call (.stopMeasuring d) r] := fun r => stops_one fun d x h => by
    injection h with h1
    cases h1
  rintro (a | msg)
  · refine wp_mono (hf a s) ?_
    intro e _ _ he
    exact ⟨stops_append (h1 _) he, .inl ⟨_, List.mem_append_left _ (List.mem_singleton.2 rfl)⟩⟩
  · exact ⟨h1 _, .inl ⟨_, List.mem_singleton.2 rfl⟩⟩

private theorem comp_start {d : Dir} {f : Unit → P σ β} (hf : Uses d (f ())) : Comp (Ask.startMeasuring d >>= f) := by
  intro s
  unfold Ask.startMeasuring
  rw [wp_bind, wp_call]
  rintro (a | msg)
  · refine wp_mono (hf s) ?_
    rintro e _ _ ⟨he, hs⟩
    intro d' x hx
    rcases List.mem_append.1 hx with hx | hx
    · have hd : d' = d := by
        have := List.mem_singleton.1 hx
        injection this with h1
        injection h1
      subst hd
      rcases hs with ⟨y, hy⟩ | ⟨q', msg, hy⟩
      · exact .inl ⟨[], e, _, y, rfl, hy⟩
      · exact .inr ⟨q', msg, List.mem_append_right _ hy⟩
    · rcases he d' x hx with ⟨l, l', x, y, rfl, hy⟩ | ⟨q, msg, hq⟩
      · exact .inl ⟨_ :: l, l', x, y, rfl, hy⟩
      · exact .inr ⟨q, msg, List.mem_append_right _ hq⟩
  · intro d' x hx
    exact .inr ⟨_, msg, List.mem_singleton.2 rfl⟩


private theorem f_now : Comp (M.now : P σ Int) := comp_now
private theorem f_send {m : Messager} {t : MsgType} {b : Bytes} : Comp (sendMsg (σ := σ) m t b) := comp_call (fun _ => Call.noConfusion)
private theorem f_s2c {m : Messager} {a b c : Int} : Comp (sendS2CResults (σ := σ) m a b c) := comp_call (fun _ => Call.noConfusion)
private theorem f_recv {m : Messager} {t : MsgType} : Comp (receiveMsg (σ := σ) m t) :=
  comp_bind (comp_call (fun _ => Call.noConfusion)) fun _ => comp_pure _

private theorem f_error (d e : Bytes) : Comp (countError (σ := σ) cfg d e) := comp_note _

private theorem a_send (a : Bytes) : Comp (Ask.send a : P σ _) := comp_call (fun _ => Call.noConfusion)
private theorem a_recv : Comp (Ask.recv : P σ _) := comp_call (fun _ => Call.noConfusion)
private theorem a_addrs (a : ConnId) : Comp (Ask.addrs a : P σ _) := comp_call (fun _ => Call.noConfusion)
private theorem a_uuid (a : ConnId) : Comp (Ask.uuid a : P σ _) := comp_call (fun _ => Call.noConfusion)
private theorem a_close (a : ConnId) : Comp (Ask.close a : P σ _) := comp_call (fun _ => Call.noConfusion)
private theorem a_listen (a : Dir) : Comp (Ask.listen a : P σ _) := comp_call (fun _ => Call.noConfusion)
private theorem a_accept (a : Dir) : Comp (Ask.accept a : P σ _) := comp_call (fun _ => Call.noConfusion)
private theorem a_stopMeasuring (a : Dir) : Comp (Ask.stopMeasuring a : P σ _) := comp_call (fun _ => Call.noConfusion)
private theorem a_fill (a : Bytes) : Comp (Ask.fill a : P σ _) := comp_call (fun _ => Call.noConfusion)
private theorem a_drain : Comp (Ask.drain : P σ _) := comp_call (fun _ => Call.noConfusion)
private theorem a_ctxErr : Comp (Ask.ctxErr : P σ _) := comp_call (fun _ => Call.noConfusion)
private theorem a_mkdirAll (a : Bytes) : Comp (Ask.mkdirAll a : P σ _) := comp_call (fun _ => Call.noConfusion)
private theorem a_create (a : Bytes) : Comp (Ask.create a : P σ _) := comp_call (fun _ => Call.noConfusion)
private theorem a_tempFile (a : Bytes) : Comp (Ask.tempFile a : P σ _) := comp_call (fun _ => Call.noConfusion)
private theorem a_write (a : Bytes) (b : Record) : Comp (Ask.write a b : P σ _) := comp_call (fun _ => Call.noConfusion)
private theorem a_closeFile (a : Bytes) : Comp (Ask.closeFile a : P σ _) := comp_call (fun _ => Call.noConfusion)

private theorem f_panicOnError {e : Option Err} {t : Bytes} : Comp (panicOnError e t) := by
  unfold panicOnError
  split
  · exact comp_pure _
  · exact comp_bind comp_get fun _ => comp_panic _

/-- Walk through a program; what remains are other functions and some notes. -/
macro "walkc" : tactic => `(tactic| repeat' with_reducible first
  | exact f_send | exact f_s2c | exact f_recv | exact f_panicOnError | exact f_now
  | exact comp_pure _ | exact comp_panic _ | exact comp_get | exact comp_modify _
  | exact a_send _ | exact a_recv | exact a_addrs _ | exact a_uuid _ | exact a_close _ | exact a_listen _ | exact a_accept _ | exact a_stopMeasuring _ | exact a_fill _ | exact a_drain | exact a_ctxErr | exact a_mkdirAll _ | exact a_create _ | exact a_tempFile _ | exact a_write _ _ | exact a_closeFile _
  | exact f_error _ _ | exact comp_note _
  | refine comp_defer ?_ ?_
  | refine comp_bind ?_ (fun _ => ?_)
  | refine comp_ite (fun _ => ?_) (fun _ => ?_)
  | split
  | dsimp only)

private theorem f_start {d : Dir} : Comp (startServer (σ := σ) cfg d) := by
  unfold startServer
  refine comp_bind (comp_note _) fun _ => ?_
  walkc

private theorem f_serve {d : Dir} : Comp (serveOnce (σ := σ) cfg d) := by
  unfold serveOnce
  exact comp_defer (comp_bind (comp_note _) fun _ => comp_note _) (a_accept _)

private theorem f_drain : Comp (drainAndMeasure (σ := σ)) := by
  unfold drainAndMeasure
  refine comp_start (uses_call (fun _ => Call.noConfusion) fun _ => uses_stop fun _ => ?_)
  walkc

private theorem f_uploadReport {m : Messager} {rd : C2SRecord} {w : Metrics} {t : F64} :
    Comp (uploadReport (σ := σ) cfg m rd w t) := by
  unfold uploadReport
  walkc

private theorem f_uploadRun {m : Messager} : Comp (uploadRun (σ := σ) cfg m) := by
  unfold uploadRun
  walkc
  all_goals first | exact f_drain | exact f_uploadReport

private theorem f_upload {m : Messager} : Comp (uploadManage (σ := σ) cfg m) := by
  unfold uploadManage uploadBody
  walkc
  all_goals first | exact f_start | exact f_serve | exact f_uploadRun | exact comp_note _

mutual
private theorem f_fields {m : Messager} : ∀ (pre : Bytes) (fs : List (Bytes × MVal)), Comp (sendFields (σ := σ) m pre fs)
  | _, [] => by unfold sendFields; exact comp_pure _
  | pre, (n, v) :: rest => by
    unfold sendFields
    refine comp_bind (f_field pre n v) fun e => ?_
    cases e with
    | some e => exact comp_pure _
    | none => exact f_fields pre rest
private theorem f_field {m : Messager} : ∀ (pre n : Bytes) (v : MVal), Comp (sendField (σ := σ) m pre n v)
  | _, _, .num _ => by unfold sendField; exact f_send
  | _, _, .text _ => by unfold sendField; exact f_send
  | _, _, .stringer _ => by unfold sendField; exact f_send
  | pre, n, .struct fs => by unfold sendField; exact f_fields _ fs
  | _, _, .other => by unfold sendField; exact comp_pure _
end

private theorem f_metrics {m : Messager} {rd : S2CRecord} {w : Metrics} : Comp (downloadMetrics (σ := σ) cfg m rd w) := by
  unfold downloadMetrics
  refine comp_bind (f_fields _ _) fun e => ?_
  cases e with
  | some e => walkc
  | none =>
    refine comp_bind (f_fields _ _) fun e => ?_
    walkc

private theorem f_downloadReport {m : Messager} {rd : S2CRecord} {w : Metrics} :
    Comp (downloadReport (σ := σ) cfg m rd w) := by
  unfold downloadReport
  walkc
  all_goals exact f_metrics

private theorem f_downloadRun {m : Messager} : Comp (downloadRun (σ := σ) cfg m) := by
  unfold downloadRun
  refine comp_bind (a_uuid _) fun _ => comp_bind (a_addrs _) fun _ => comp_bind f_send fun e => ?_
  cases e with
  | some e => walkc
  | none =>
  refine comp_start (uses_now fun _ => uses_now fun _ => uses_call (fun _ => Call.noConfusion) fun _ => uses_now fun _ => uses_stop fun _ => ?_)
  walkc
  all_goals exact f_downloadReport

private theorem f_download {m : Messager} : Comp (downloadManage (σ := σ) cfg m) := by
  unfold downloadManage downloadBody
  walkc
  all_goals first | exact f_start | exact f_serve | exact f_downloadRun

private theorem f_metaLoop {m : Messager} : ∀ (n : Nat) (r : List NameValue) (c : Nat), Comp (metaLoop (σ := σ) m n r c)
  | 0, _, _ => by unfold metaLoop; exact comp_pure _
  | n + 1, r, c => by
    unfold metaLoop
    walkc
    all_goals exact f_metaLoop n _ _

private theorem f_meta {m : Messager} : Comp (metaManage (σ := σ) cfg m) := by
  unfold metaManage
  walkc
  all_goals first | exact f_metaLoop _ _ _ | exact comp_note _

private theorem f_runUpload {m : Messager} : Comp (runUpload cfg m) := by
  unfold runUpload
  walkc
  exact f_upload

private theorem f_runDownload {m : Messager} : Comp (runDownload cfg m) := by
  unfold runDownload
  walkc
  exact f_download

private theorem f_runMeta {m : Messager} : Comp (runMeta cfg m) := by
  unfold runMeta
  walkc
  exact f_meta

private theorem f_sendOrPanic {m : Messager} {t : MsgType} {c x : Bytes} : Comp (sendOrPanic m t c x) := by
  unfold sendOrPanic
  walkc

private theorem f_suite {m : Messager} {tests : Int} : Comp (runSuite cfg tests m) := by
  unfold runSuite greet farewell
  walkc
  all_goals first | exact f_sendOrPanic | exact f_runUpload | exact f_runDownload | exact f_runMeta

private theorem f_requested {tests : Int} {b : Nat} {t : Bytes} : Comp (countRequested cfg tests b t) := by
  unfold countRequested
  walkc

private theorem f_requests {tests : Int} : Comp (countRequests cfg tests) := by
  unfold countRequests
  walkc
  all_goals exact f_requested

private theorem f_login : Comp (login cfg) := by
  unfold login
  walkc

private theorem f_session : Comp (session cfg) := by
  unfold session
  walkc
  all_goals first | exact f_login | exact f_requests | exact f_suite

private theorem f_handle : Comp (handleControlChannel cfg) := by
  unfold handleControlChannel finishRecord saveData uuidToFile
  walkc
  all_goals exact f_session

end

private theorem comp_session (cfg : Cfg) : Comp (HandleControlChannel cfg) := by
  unfold HandleControlChannel
  refine comp_bind (comp_note _) fun _ => comp_defer (comp_note _) (comp_bind f_now fun _ => comp_defer
    (comp_bind f_now fun _ => comp_note _) ?_)
  intro s
  rw [wp_recovering, wp_withState]
  refine wp_mono (f_handle _) ?_
  intro e o _ he
  have hc : ∀ r, Comp (countControl cfg r) := by
    intro r
    unfold countControl
    cases r with
    | none => exact comp_note _
    | some msg => exact comp_bind (comp_note _) fun _ => comp_note _
  refine wp_mono (hc _ _) ?_
  intro e' o' s' he'
  have := stops_append he he'
  cases o' <;> exact this

/-- C112 is violated: on a system other than Linux no session ends in which an upload or a download began to measure. Neither is its record stored, nor its connection closed, nor its test counted, since all this happens
when it ends. -/
theorem C112_ndt5_hangs (cfg : Cfg) {evs : List Ev} {o : Outcome Unit} (h : Exec (HandleControlChannel cfg) () evs o ()) (hs : OnOtherSystem evs) (hc : NoCrash evs) (d : Dir) : ¬ Measures d evs := by
  rintro ⟨r, hr⟩
  rcases wp_iff.1 (comp_session cfg ()) _ _ _ h d r hr with ⟨l, l', x, y, rfl, hy⟩ | ⟨q, msg, hq⟩
  · obtain ⟨s, hs⟩ := hs d
    rw [List.flatMap_append, List.flatMap_cons] at hs
    simp only [measurerSteps, if_true, List.singleton_append] at hs
    refine C112_stop_never_returns hs (List.mem_flatMap.2 ⟨_, hy, ?_⟩)
    simp [measurerSteps]
  · have := hc _ hq
    cases this

/-- Sessions without measurements do end there: one with the meta test, and one in which the announcement of the upload cannot be sent. -/
example : Exec (HandleControlChannel plainCfg) () lostAnnouncement (.ok ()) () ∧ OnOtherSystem lostAnnouncement ∧ NoCrash lostAnnouncement :=
  ⟨lostAnnouncement_exec, fun d => by cases d <;> exact ⟨{}, rfl⟩, by unfold NoCrash; decide +kernel⟩

example : OnOtherSystem metaSession ∧ NoCrash metaSession := ⟨fun d => by cases d <;> exact ⟨{}, rfl⟩, by unfold NoCrash; decide +kernel⟩

end Verif.Props

namespace Verif.Props
open Verif.Go Verif.Ndt7

/-- The kernel gives nothing on a system other than Linux. -/
theorem C112_no_statistics : Netx.Other.enableBBR = some .noSupport ∧ Netx.Other.readInfo = ({}, {}, some .noSupport) := ⟨rfl, rfl⟩

/-- C112: ndt7 works without the statistics: if none can be read, every measurement that reaches the client or the result has the connection's addresses and UUID and no statistics. (That the measurer ends is C50, for any answers of the kernel.) -/
theorem C112_ndt7 {c : MConfig} {as : List MAct} {s : MState} (h : (measurer c).Reaches as s) (hi : ∀ i, .measure i ∈ as → ∃ e, i = .error e) :
    ∀ m ∈ s.delivered, (∃ st, m.conn = some (c.conn st)) ∧ m.bbr = none ∧ m.tcp = none := by
  have key : ∀ {as s}, (measurer c).Reaches as s → (∀ i, .measure i ∈ as → ∃ e, i = .error e) →
      (∀ m ∈ s.delivered, (∃ st, m.conn = some (c.conn st)) ∧ m.bbr = none ∧ m.tcp = none) ∧ ∀ st m, s.m = .sending st m → (∃ st, m.conn = some (c.conn st)) ∧ m.bbr = none ∧ m.tcp = none := by
    intro as s h
    refine LTS.invariant (P := fun as s => (∀ i, .measure i ∈ as → ∃ e, i = .error e) → (∀ m ∈ s.delivered, (∃ st, m.conn = some (c.conn st)) ∧ m.bbr = none ∧ m.tcp = none) ∧
      ∀ st m, s.m = .sending st m → (∃ st, m.conn = some (c.conn st)) ∧ m.bbr = none ∧ m.tcp = none) (fun _ => ⟨by simp [measurer], by simp [measurer]⟩) ?_ h
    intro as s a s' _ ih hs hi
    obtain ⟨h1, h2⟩ := ih fun i h => hi i (List.mem_append_left _ h)
    have ha : ∀ i, a = .measure i → ∃ e, i = .error e := fun i h => hi i (by simp [h])
    clear ih hi
    cases a <;> simp only [measurer, mStep] at hs
    case measure i =>
      obtain ⟨e, rfl⟩ := ha i rfl
      split at hs
      · cases hs
        refine ⟨h1, ?_⟩
        rintro st m hm
        simp only [MPos.sending.injEq] at hm
        rw [← hm.2]
        exact ⟨⟨_, rfl⟩, rfl, rfl⟩
      · cases hs
    case receive =>
      split at hs
      · rename_i st m hm _
        cases hs
        refine ⟨?_, by simp⟩
        intro m' hm'
        rcases List.mem_append.1 hm' with h | h
        · exact h1 m' h
        · rw [List.mem_singleton.1 h]; exact h2 st m hm
      · cases hs
    all_goals
      (repeat' split at hs) <;> first
        | cases hs; done
        | (cases hs; exact ⟨h1, h2⟩)
        | (cases hs; exact ⟨h1, by simp⟩)
  exact (key h hi).1

/-- A measurer whose kernel gives nothing and that delivers a measurement all the same. -/
example (c : MConfig) : ∃ s, (measurer c).Reaches [.start 0, .newTicker true, .assign, .check, .tickHand 5, .measure (.error (str "no support")), .receive] s ∧ s.delivered = [{ conn := some (c.conn 0) }] :=
  ⟨_, rfl, rfl⟩

end Verif.Props
