import Verif.Ndt5.Control
import Verif.Ndt5.SendLemmas
import Verif.Spec.Timing

/-! # Bounds on the number of events -/

namespace Verif.Ndt5
open Verif.Go Verif.Spec

/-- In every execution whose events all satisfy `ok`, at most `n` events satisfy `p`. -/
def Cost (ok : Ev → Prop) (p : Ev → Bool) (n : Nat) {σ α : Type} (m : P σ α) : Prop := ∀ s, wp m s (fun e _ _ => (∀ x ∈ e, ok x) → e.countP p ≤ n)

section
variable {ok : Ev → Prop} {p : Ev → Bool} {σ τ α β : Type} {n k : Nat}

theorem Cost.mono {m : P σ α} (h : Cost ok p n m) (hk : n ≤ k) : Cost ok p k m := fun s => wp_mono (h s) fun _ _ _ h1 h2 => Nat.le_trans (h1 h2) hk

theorem cost_pure (a : α) : Cost ok p n (pure a : P σ α) := fun s => by rw [wp_pure]; simp
theorem cost_panic (msg : Bytes) : Cost ok p n (M.panic msg : P σ α) := fun s => by rw [wp_panic]; simp
theorem cost_get : Cost ok p n (M.get : P σ σ) := fun s => by rw [wp_get]; simp
theorem cost_modify (f : σ → σ) : Cost ok p n (M.modify f : P σ Unit) := fun s => by rw [wp_modify]; simp

theorem cost_bind {x : P σ α} {f : α → P σ β} (hx : Cost ok p n x) (hf : ∀ a, Cost ok p k (f a)) : Cost ok p (n + k) (x >>= f) := by
  intro s
  rw [wp_bind]
  refine wp_mono (hx s) ?_
  intro e o s' h
  cases o with
  | ok a =>
    refine wp_mono (hf a s') ?_
    intro e' o' s'' h' hall
    rw [List.countP_append]
    have h1 := h fun x hx => hall x (List.mem_append_left _ hx)
    have h2 := h' fun x hx => hall x (List.mem_append_right _ hx)
    omega
  | panic msg =>
    intro hall
    have := h hall
    omega

theorem cost_call_bind {q : Call} {f : Call.Answer q → P σ β} (hf : ∀ a, ok (.call q (.ok a)) → Cost ok p n (f a)) :
    Cost ok p (n + 1) ((M.call (S := sig) q : P σ _) >>= f) := by
  intro s
  rw [wp_bind, wp_call]
  intro r
  cases r with
  | ok a =>
    dsimp only
    by_cases h : ok (.call q (.ok a))
    · refine wp_mono (hf a h s) ?_
      intro e' o' s'' h' hall
      have h2 := h' fun x hx => hall x (List.mem_append_right _ hx)
      rw [List.countP_append]
      have : List.countP p [Event.call q (Outcome.ok a)] ≤ 1 := List.countP_le_length
      omega
    · exact wp_iff.2 fun e' o' s'' _ hall => absurd (hall _ (List.mem_append_left _ (List.mem_singleton.2 rfl))) h
  | panic msg =>
    intro _
    have : List.countP p [(Event.call q (Outcome.panic msg) : Ev)] ≤ 1 := List.countP_le_length
    omega

theorem cost_call_bind_free {q : Call} {f : Call.Answer q → P σ β} (hq : ∀ r, p (.call q r) = false) (hf : ∀ a, ok (.call q (.ok a)) → Cost ok p n (f a)) :
    Cost ok p n ((M.call (S := sig) q : P σ _) >>= f) := by
  intro s
  rw [wp_bind, wp_call]
  intro r
  cases r with
  | ok a =>
    dsimp only
    by_cases h : ok (.call q (.ok a))
    · refine wp_mono (hf a h s) ?_
      intro e' o' s'' h' hall
      have h2 := h' fun x hx => hall x (List.mem_append_right _ hx)
      rw [List.countP_append]
      simp only [List.countP_cons, List.countP_nil, hq]
      simpa using h2
    · exact wp_iff.2 fun e' o' s'' _ hall => absurd (hall _ (List.mem_append_left _ (List.mem_singleton.2 rfl))) h
  | panic msg =>
    intro _
    simp [hq]

theorem cost_call {q : Call} : Cost ok p (n + 1) (M.call (S := sig) q : P σ _) := by
  intro s
  rw [wp_call]
  intro r _
  have : List.countP p [(Event.call q r : Ev)] ≤ 1 := List.countP_le_length
  omega

theorem cost_call_free {q : Call} (hq : ∀ r, p (.call q r) = false) : Cost ok p n (M.call (S := sig) q : P σ _) := by
  intro s
  rw [wp_call]
  intro r _
  simp [hq]

theorem cost_emit {o : Note} : Cost ok p (n + 1) (M.emit (S := sig) o : P σ Unit) := by
  intro s
  rw [wp_emit]
  intro _
  have : List.countP p [(Event.emit o : Ev)] ≤ 1 := List.countP_le_length
  omega

theorem cost_emit_free {o : Note} (ho : p (.emit o) = false) : Cost ok p n (M.emit (S := sig) o : P σ Unit) := by
  intro s
  rw [wp_emit]
  intro _
  simp [ho]

theorem cost_now : Cost ok p (n + 1) (M.now : P σ Int) := by
  intro s
  rw [wp_now]
  intro t _
  have : List.countP p [(Event.clock t : Ev)] ≤ 1 := List.countP_le_length
  omega

theorem cost_now_free (hp : ∀ t, p (.clock t) = false) : Cost ok p n (M.now : P σ Int) := by
  intro s
  rw [wp_now]
  intro t _
  simp [hp]

theorem cost_defer {c : P σ Unit} {x : P σ α} (hx : Cost ok p n x) (hc : Cost ok p k c) : Cost ok p (n + k) (M.defer c x) := by
  intro s
  rw [wp_defer]
  refine wp_mono (hx s) ?_
  intro e o s' h
  refine wp_mono (hc s') ?_
  intro e' o' s'' h'
  have key : (∀ x ∈ e ++ e', ok x) → (e ++ e').countP p ≤ n + k := by
    intro hall
    rw [List.countP_append]
    have h1 := h fun x hx => hall x (List.mem_append_left _ hx)
    have h2 := h' fun x hx => hall x (List.mem_append_right _ hx)
    omega
  cases o' <;> exact key

theorem cost_ite {c : Prop} [Decidable c] {x y : P σ α} (hx : Cost ok p n x) (hy : Cost ok p n y) : Cost ok p n (if c then x else y) := by
  split <;> assumption

theorem cost_sendFields {m : Messager} {pre : Bytes} {fs : List (Bytes × MVal)} (h : (metricLines pre fs).length ≤ n) : Cost ok p n (sendFields m pre fs : P σ _) := by
  intro s
  rw [wp_sendFields]
  intro e o hs _
  have key : ∀ (fr : List Bytes) (e : List Ev) (o : Outcome (Option Err)), Sends fr e o → e.length ≤ fr.length := by
    intro fr e o hs
    induction hs with
    | done => simp
    | sent f rest evs out _ ih => simpa using ih
    | failed f rest er => simp
    | crashed f rest msg => simp
  have := key _ _ _ hs
  rw [List.length_map] at this
  have h2 := List.countP_le_length (p := p) (l := e)
  omega

theorem cost_bind' {x : P σ α} {f : α → P σ β} (hx : Cost ok p n x) (hf : ∀ a, Cost ok p k (f a)) : Cost ok p (k + n) (x >>= f) :=
  (cost_bind hx hf).mono (by omega)

theorem cost_pure_bind {a : α} {f : α → P σ β} (hf : Cost ok p n (f a)) : Cost ok p n ((pure a : P σ α) >>= f) := hf

theorem cost_get_bind {f : σ → P σ β} (hf : ∀ a, Cost ok p n (f a)) : Cost ok p n ((M.get : P σ σ) >>= f) :=
  (cost_bind (n := 0) cost_get hf).mono (by omega)

theorem cost_modify_bind {g : σ → σ} {f : Unit → P σ β} (hf : ∀ a, Cost ok p n (f a)) : Cost ok p n ((M.modify g : P σ Unit) >>= f) :=
  (cost_bind (n := 0) (cost_modify g) hf).mono (by omega)

theorem cost_panic_bind {msg : Bytes} {f : α → P σ β} : Cost ok p n ((M.panic msg : P σ α) >>= f) := by
  intro s
  rw [wp_bind, wp_panic]
  simp

theorem cost_emit_bind {o : Note} {f : Unit → P σ β} (hf : ∀ a, Cost ok p n (f a)) : Cost ok p (n + 1) ((M.emit (S := sig) o : P σ Unit) >>= f) :=
  (cost_bind (n := 1) (cost_emit (n := 0)) hf).mono (by omega)

theorem cost_emit_bind_free {o : Note} {f : Unit → P σ β} (ho : p (.emit o) = false) (hf : ∀ a, Cost ok p n (f a)) :
    Cost ok p n ((M.emit (S := sig) o : P σ Unit) >>= f) :=
  (cost_bind (n := 0) (cost_emit_free ho) hf).mono (by omega)

theorem cost_now_bind {f : Int → P σ β} (hf : ∀ a, Cost ok p n (f a)) : Cost ok p (n + 1) ((M.now : P σ Int) >>= f) :=
  (cost_bind (n := 1) (cost_now (n := 0)) hf).mono (by omega)

theorem cost_now_bind_free {f : Int → P σ β} (hp : ∀ t, p (.clock t) = false) (hf : ∀ a, Cost ok p n (f a)) : Cost ok p n ((M.now : P σ Int) >>= f) :=
  (cost_bind (n := 0) (cost_now_free hp) hf).mono (by omega)

end

section
variable {ok : Ev → Prop} {p : Ev → Bool} {σ : Type} {n : Nat}

theorem cost_receive {m : Messager} {t : MsgType} : Cost ok p (n + 1) (receiveMsg m t : P σ _) := by
  unfold receiveMsg Ask.recv
  exact cost_call_bind fun _ _ => cost_pure _

theorem cost_receive_free {m : Messager} {t : MsgType} (hq : ∀ r, p (.call .recv r) = false) : Cost ok p n (receiveMsg m t : P σ _) := by
  unfold receiveMsg Ask.recv
  exact cost_call_bind_free hq fun _ _ => cost_pure _

end

theorem cost_receive_bind {ok : Ev → Prop} {p : Ev → Bool} {σ β : Type} {n : Nat} {m : Messager} {t : MsgType} {f : Option Bytes × Option Err → P σ β} (hf : ∀ a, Cost ok p n (f a)) : Cost ok p (n + 1) (receiveMsg m t >>= f) :=
  cost_bind' (n := 1) (cost_receive (n := 0)) hf

theorem cost_receive_bind_free {ok : Ev → Prop} {p : Ev → Bool} {σ β : Type} {n : Nat} {m : Messager} {t : MsgType} {f : Option Bytes × Option Err → P σ β} (hq : ∀ r, p (.call .recv r) = false) (hf : ∀ a, Cost ok p n (f a)) :
    Cost ok p n (receiveMsg m t >>= f) :=
  cost_bind' (n := 0) (cost_receive_free hq) hf

theorem cost_panicOnError {ok : Ev → Prop} {p : Ev → Bool} {n : Nat} (e : Option Err) (text : Bytes) : Cost ok p n (panicOnError e text) := by
  unfold panicOnError
  split
  · exact cost_pure _
  · exact cost_get_bind fun _ => cost_panic _

theorem cost_panicOnError_bind {ok : Ev → Prop} {p : Ev → Bool} {β : Type} {n : Nat} {e : Option Err} {text : Bytes} {f : Unit → P Ctl β} (hf : ∀ a, Cost ok p n (f a)) :
    Cost ok p n (panicOnError e text >>= f) :=
  cost_bind' (n := 0) (cost_panicOnError _ _) hf

/-- Decompose a program into its parts as far as possible. -/
macro "cost_steps" : tactic => `(tactic| repeat' (first
  | with_reducible exact cost_pure _
  | with_reducible exact cost_panic _
  | with_reducible exact cost_panic_bind
  | with_reducible exact cost_get
  | with_reducible exact cost_modify _
  | ((with_reducible refine cost_emit_free ?_); exact rfl; done)
  | with_reducible exact cost_emit
  | ((with_reducible refine cost_now_free ?_); exact fun _ => rfl; done)
  | with_reducible exact cost_now
  | ((with_reducible refine cost_call_free ?_); exact fun _ => rfl; done)
  | with_reducible exact cost_call
  | with_reducible refine cost_pure_bind ?_
  | ((with_reducible refine cost_get_bind ?_); intro _)
  | ((with_reducible refine cost_modify_bind ?_); intro _)
  | ((with_reducible refine cost_emit_bind_free ?_ ?_); exact rfl; intro _)
  | ((with_reducible refine cost_emit_bind ?_); intro _)
  | ((with_reducible refine cost_now_bind_free ?_ ?_); exact fun _ => rfl; intro _)
  | ((with_reducible refine cost_now_bind ?_); intro _)
  | ((with_reducible refine cost_call_bind_free ?_ ?_); exact fun _ => rfl; intro _ _)
  | ((with_reducible refine cost_call_bind ?_); intro _ _)
  | ((with_reducible refine cost_receive_bind_free ?_ ?_); exact fun _ => rfl; intro _)
  | ((with_reducible refine cost_receive_bind ?_); intro _)
  | with_reducible exact cost_panicOnError _ _
  | ((with_reducible refine cost_panicOnError_bind ?_); intro _)
  | split
  | dsimp only))

attribute [irreducible] Cost

section
variable {ok : Ev → Prop} {σ : Type}

theorem cost_metaLoop {p : Ev → Bool} (m : Messager) (n : Nat) (res : List NameValue) (c : Nat) :
    Cost ok p (2 * n) (metaLoop m n res c : P σ _) := by
  induction n generalizing res c with
  | zero => unfold metaLoop; cost_steps
  | succ n ih =>
    unfold metaLoop Ask.ctxErr
    refine cost_call_bind (n := 2 * n + 1) ?_
    intro a _
    split
    · cost_steps
    · refine cost_bind' (n := 1) cost_receive ?_
      intro r
      split
      · cost_steps
      · split <;> exact ih _ _

theorem cost_metaLoop_fill (m : Messager) (n : Nat) (res : List NameValue) (c : Nat) : Cost ok isFill 0 (metaLoop m n res c : P σ _) := by
  induction n generalizing res c with
  | zero => unfold metaLoop; cost_steps
  | succ n ih =>
    unfold metaLoop Ask.ctxErr
    refine cost_call_bind_free (fun _ => rfl) ?_
    intro a _
    split
    · cost_steps
    · refine cost_bind' (n := 0) (cost_receive_free fun _ => rfl) ?_
      intro r
      split
      · cost_steps
      · split <;> exact ih _ _

theorem cost_sendFields_fill {m : Messager} {pre : Bytes} {fs : List (Bytes × MVal)} : Cost ok isFill 0 (sendFields m pre fs : P σ _) := by
  unfold Cost
  intro s
  rw [wp_sendFields]
  intro e o hs _
  have key : ∀ (fr : List Bytes) (e : List Ev) (o : Outcome (Option Err)), Sends fr e o → e.countP isFill = 0 := by
    intro fr e o hs
    induction hs with
    | done => simp
    | sent f rest evs out _ ih => rw [List.countP_cons, ih]; rfl
    | failed f rest er => rfl
    | crashed f rest msg => rfl
  rw [key _ _ _ hs]
  exact Nat.le_refl 0

/-- All events. -/
def anyEv : Ev → Bool := fun _ => true

theorem cost_metaManage (cfg : Cfg) (m : Messager) : Cost ok anyEv 46 (metaManage cfg m : P σ _) := by
  unfold metaManage sendMsg countError note Ask.send Ask.ctxErr maxClientMessages
  cost_steps
  refine cost_bind' (n := 40) (cost_metaLoop _ 20 _ _) ?_
  intro r
  cost_steps

theorem cost_metaManage_fill (cfg : Cfg) (m : Messager) : Cost ok isFill 0 (metaManage cfg m : P σ _) := by
  unfold metaManage sendMsg countError note Ask.send Ask.ctxErr
  cost_steps
  refine cost_bind' (n := 0) (cost_metaLoop_fill _ _ _ _) ?_
  intro r
  cost_steps

theorem cost_serveOnce (cfg : Cfg) (d : Dir) : Cost ok anyEv 3 (serveOnce cfg d : P σ _) := by
  unfold serveOnce note Ask.accept
  exact cost_defer (n := 1) (k := 2) (cost_call (n := 0)) (by cost_steps)

theorem cost_serveOnce_fill (cfg : Cfg) (d : Dir) : Cost ok isFill 0 (serveOnce cfg d : P σ _) := by
  unfold serveOnce note Ask.accept
  exact cost_defer (n := 0) (k := 0) (cost_call_free fun _ => rfl) (by cost_steps)

theorem cost_startServer (cfg : Cfg) (d : Dir) : Cost ok anyEv 2 (startServer cfg d : P σ _) := by
  unfold startServer note Ask.listen
  cost_steps

theorem cost_startServer_fill (cfg : Cfg) (d : Dir) : Cost ok isFill 0 (startServer cfg d : P σ _) := by
  unfold startServer note Ask.listen
  cost_steps

theorem cost_uploadReport (cfg : Cfg) (m : Messager) (rd : C2SRecord) (w : Metrics) (x : F64) : Cost ok anyEv 3 (uploadReport cfg m rd w x : P σ _) := by
  unfold uploadReport sendMsg countError note Ask.send
  cost_steps

theorem cost_uploadReport_fill (cfg : Cfg) (m : Messager) (rd : C2SRecord) (w : Metrics) (x : F64) : Cost ok isFill 0 (uploadReport cfg m rd w x : P σ _) := by
  unfold uploadReport sendMsg countError note Ask.send
  cost_steps

theorem cost_drain : Cost ok anyEv 3 (drainAndMeasure : P σ _) := by
  unfold drainAndMeasure Ask.startMeasuring Ask.drain Ask.stopMeasuring
  cost_steps

theorem cost_drain_fill : Cost ok isFill 0 (drainAndMeasure : P σ _) := by
  unfold drainAndMeasure Ask.startMeasuring Ask.drain Ask.stopMeasuring
  cost_steps

theorem cost_uploadRun (cfg : Cfg) (m : Messager) : Cost ok anyEv 11 (uploadRun cfg m : P σ _) := by
  unfold uploadRun sendMsg countError note Ask.send Ask.uuid Ask.addrs
  cost_steps
  refine cost_bind' (n := 3) cost_drain ?_
  intro d
  cost_steps
  all_goals (exact cost_uploadReport _ _ _ _ _)

theorem cost_uploadRun_fill (cfg : Cfg) (m : Messager) : Cost ok isFill 0 (uploadRun cfg m : P σ _) := by
  unfold uploadRun sendMsg countError note Ask.send Ask.uuid Ask.addrs
  cost_steps
  refine cost_bind' (n := 0) cost_drain_fill ?_
  intro d
  cost_steps
  all_goals (exact cost_uploadReport_fill _ _ _ _ _)

theorem cost_uploadManage (cfg : Cfg) (m : Messager) : Cost ok anyEv 18 (uploadManage cfg m : P σ _) := by
  unfold uploadManage uploadBody
  refine cost_bind' (k := 0) (n := 18) ?_ (by intro r; cost_steps)
  refine cost_bind' (n := 2) (cost_startServer ..) ?_
  intro r
  unfold sendMsg countError note Ask.send
  cost_steps
  refine cost_bind' (n := 3) (cost_serveOnce ..) ?_
  intro r
  cost_steps
  all_goals refine cost_defer (n := 11) (k := 1) ?_ (by cost_steps)
  all_goals cost_steps
  exact cost_uploadRun ..

theorem cost_uploadManage_fill (cfg : Cfg) (m : Messager) : Cost ok isFill 0 (uploadManage cfg m : P σ _) := by
  unfold uploadManage uploadBody
  refine cost_bind' (k := 0) (n := 0) ?_ (by intro r; cost_steps)
  refine cost_bind' (n := 0) (cost_startServer_fill ..) ?_
  intro r
  unfold sendMsg countError note Ask.send
  cost_steps
  refine cost_bind' (n := 0) (cost_serveOnce_fill ..) ?_
  intro r
  cost_steps
  all_goals refine cost_defer (n := 0) (k := 0) ?_ (by cost_steps)
  all_goals cost_steps
  exact cost_uploadRun_fill ..

theorem cost_downloadMetrics {K : Nat} (cfg : Cfg) (m : Messager) (rd : S2CRecord) (w : Metrics) (hw : ∀ pre, (metricLines pre w.tcpInfo.reflected).length ≤ K) :
    Cost ok anyEv (K + 40) (downloadMetrics cfg m rd w : P σ _) := by
  unfold downloadMetrics sendMsg countError note Ask.send
  refine (cost_bind' (n := K + 21) (k := 15) ?_ ?_).mono (by omega)
  · refine cost_sendFields ?_
    have := hw (str "TCPInfo" ++ str ".")
    simp [metricLines, Metrics.reflect, numField, metricLine]
    omega
  · intro r
    split
    · cost_steps
    · refine cost_bind' (n := 12) (k := 3) (cost_sendFields (by simp [S2CRecord.reflect, metricLines, metricLine, numField])) ?_
      intro r
      cost_steps

theorem cost_downloadMetrics_fill (cfg : Cfg) (m : Messager) (rd : S2CRecord) (w : Metrics) : Cost ok isFill 0 (downloadMetrics cfg m rd w : P σ _) := by
  unfold downloadMetrics sendMsg countError note Ask.send
  refine cost_bind' (n := 0) cost_sendFields_fill ?_
  intro r
  cost_steps
  refine cost_bind' (n := 0) cost_sendFields_fill ?_
  intro r
  cost_steps

theorem cost_downloadReport {K : Nat} (cfg : Cfg) (m : Messager) (rd : S2CRecord) (w : Metrics) (hw : ∀ pre, (metricLines pre w.tcpInfo.reflected).length ≤ K) :
    Cost ok anyEv (K + 43) (downloadReport cfg m rd w : P σ _) := by
  unfold downloadReport sendS2CResults countError note Ask.send Ask.close
  refine cost_call_bind (n := K + 42) ?_
  intro _ _
  refine cost_call_bind (n := K + 41) ?_
  intro r _
  split
  · cost_steps
  · refine cost_bind' (n := 1) (k := K + 40) cost_receive ?_
    intro r
    split
    · cost_steps
    · exact cost_downloadMetrics _ _ _ _ hw

theorem cost_downloadReport_fill (cfg : Cfg) (m : Messager) (rd : S2CRecord) (w : Metrics) : Cost ok isFill 0 (downloadReport cfg m rd w : P σ _) := by
  unfold downloadReport sendS2CResults countError note Ask.send Ask.close
  cost_steps
  exact cost_downloadMetrics_fill ..

theorem cost_downloadRun (K : Nat) (cfg : Cfg) (m : Messager) : Cost (SmallStats K) anyEv (K + 52) (downloadRun cfg m : P σ _) := by
  unfold downloadRun sendMsg countError note Ask.send Ask.uuid Ask.addrs Ask.close Ask.startMeasuring Ask.fill Ask.stopMeasuring
  refine cost_call_bind (n := K + 51) ?_
  intro _ _
  refine cost_call_bind (n := K + 50) ?_
  intro _ _
  refine cost_call_bind (n := K + 49) ?_
  intro r _
  split
  · cost_steps
  · refine cost_call_bind (n := K + 48) ?_
    intro _ _
    refine cost_now_bind (n := K + 47) ?_
    intro _
    refine cost_now_bind (n := K + 46) ?_
    intro _
    refine cost_call_bind (n := K + 45) ?_
    intro _ _
    refine cost_now_bind (n := K + 44) ?_
    intro _
    refine cost_call_bind (n := K + 43) ?_
    intro r hr
    cases r with
    | error e => cost_steps
    | ok w => exact cost_downloadReport _ _ _ _ hr

theorem cost_downloadRun_fill (cfg : Cfg) (m : Messager) : Cost ok isFill 1 (downloadRun cfg m : P σ _) := by
  unfold downloadRun sendMsg countError note Ask.send Ask.uuid Ask.addrs Ask.close Ask.startMeasuring Ask.fill Ask.stopMeasuring
  cost_steps
  exact cost_downloadReport_fill ..

theorem cost_downloadManage (K : Nat) (cfg : Cfg) (m : Messager) : Cost (SmallStats K) anyEv (K + 58) (downloadManage cfg m : P σ _) := by
  unfold downloadManage downloadBody
  refine cost_bind' (k := 0) (n := K + 58) ?_ (by intro r; cost_steps) |>.mono (by omega)
  refine (cost_bind' (n := 2) (k := K + 56) (cost_startServer ..) ?_).mono (by omega)
  intro r
  unfold sendMsg countError note Ask.send
  split
  · cost_steps
  · refine cost_call_bind (n := K + 55) ?_
    intro r _
    split
    · cost_steps
    · refine (cost_bind' (n := 3) (k := K + 52) (cost_serveOnce ..) ?_).mono (by omega)
      intro r
      split
      · cost_steps
      · split
        · exact cost_downloadRun ..
        · cost_steps

theorem cost_downloadManage_fill (cfg : Cfg) (m : Messager) : Cost ok isFill 1 (downloadManage cfg m : P σ _) := by
  unfold downloadManage downloadBody
  refine cost_bind' (k := 0) (n := 1) ?_ (by intro r; cost_steps)
  refine cost_bind' (n := 0) (cost_startServer_fill ..) ?_
  intro r
  unfold sendMsg countError note Ask.send
  cost_steps
  refine cost_bind' (n := 0) (cost_serveOnce_fill ..) ?_
  intro r
  cost_steps
  exact cost_downloadRun_fill ..

end

section
variable {ok : Ev → Prop}

theorem cost_sendOrPanic {n : Nat} (m : Messager) (t : MsgType) (c text : Bytes) : Cost ok anyEv (n + 1) (sendOrPanic m t c text) := by
  unfold sendOrPanic sendMsg Ask.send
  cost_steps

theorem cost_sendOrPanic_fill {n : Nat} (m : Messager) (t : MsgType) (c text : Bytes) : Cost ok isFill n (sendOrPanic m t c text) := by
  unfold sendOrPanic sendMsg Ask.send
  cost_steps

theorem cost_runUpload (cfg : Cfg) (m : Messager) : Cost ok anyEv 20 (runUpload cfg m) := by
  unfold runUpload note
  refine cost_bind' (n := 18) (cost_uploadManage ..) ?_
  intro r
  cost_steps

theorem cost_runUpload_fill (cfg : Cfg) (m : Messager) : Cost ok isFill 0 (runUpload cfg m) := by
  unfold runUpload note
  refine cost_bind' (n := 0) (cost_uploadManage_fill ..) ?_
  intro r
  cost_steps

theorem cost_runDownload (K : Nat) (cfg : Cfg) (m : Messager) : Cost (SmallStats K) anyEv (K + 60) (runDownload cfg m) := by
  unfold runDownload note
  refine (cost_bind' (n := K + 58) (k := 2) (cost_downloadManage ..) ?_).mono (by omega)
  intro r
  cost_steps

theorem cost_runDownload_fill (cfg : Cfg) (m : Messager) : Cost ok isFill 1 (runDownload cfg m) := by
  unfold runDownload note
  refine cost_bind' (n := 1) (k := 0) (cost_downloadManage_fill ..) ?_
  intro r
  cost_steps

theorem cost_runMeta (cfg : Cfg) (m : Messager) : Cost ok anyEv 46 (runMeta cfg m) := by
  unfold runMeta
  refine cost_bind' (n := 46) (k := 0) (cost_metaManage ..) ?_
  intro r
  refine cost_modify_bind ?_
  intro _
  exact cost_panicOnError ..

theorem cost_runMeta_fill (cfg : Cfg) (m : Messager) : Cost ok isFill 0 (runMeta cfg m) := by
  unfold runMeta
  refine cost_bind' (n := 0) (k := 0) (cost_metaManage_fill ..) ?_
  intro r
  refine cost_modify_bind ?_
  intro _
  exact cost_panicOnError ..

theorem cost_farewell (m : Messager) (a b : F64) : Cost ok anyEv 2 (farewell m a b) := by
  unfold farewell
  exact cost_bind' (n := 1) (k := 1) (cost_sendOrPanic ..) fun _ => cost_sendOrPanic ..

theorem cost_farewell_fill (m : Messager) (a b : F64) : Cost ok isFill 0 (farewell m a b) := by
  unfold farewell
  exact cost_bind' (n := 0) (k := 0) (cost_sendOrPanic_fill ..) fun _ => cost_sendOrPanic_fill ..

theorem cost_runSuite (K : Nat) (cfg : Cfg) (n : Int) (m : Messager) : Cost (SmallStats K) anyEv (K + 131) (runSuite cfg n m) := by
  have h3 : ∀ a b, Cost (SmallStats K) anyEv 48 (if hasBit n bitMETA = true then runMeta cfg m >>= fun _ => farewell m a b else farewell m a b) := by
    intro a b
    split
    · exact cost_bind' (n := 46) (k := 2) (cost_runMeta ..) fun _ => cost_farewell ..
    · exact (cost_farewell ..).mono (by omega)
  have h2 : ∀ a, Cost (SmallStats K) anyEv (K + 108) (if hasBit n bitS2C = true then runDownload cfg m >>= fun b =>
      (if hasBit n bitMETA = true then runMeta cfg m >>= fun _ => farewell m a b else farewell m a b)
    else (if hasBit n bitMETA = true then runMeta cfg m >>= fun _ => farewell m a (.fin 0) else farewell m a (.fin 0))) := by
    intro a
    split
    · exact (cost_bind' (n := K + 60) (k := 48) (cost_runDownload ..) fun b => h3 a b).mono (by omega)
    · exact (h3 ..).mono (by omega)
  unfold runSuite greet
  refine Cost.mono (n := K + 128 + 3) (cost_bind' (n := 3) (k := K + 128) ?_ ?_) (by omega)
  · refine cost_modify_bind fun _ => ?_
    exact cost_bind' (n := 1) (k := 2) (cost_sendOrPanic ..) fun _ => cost_bind' (n := 1) (k := 1) (cost_sendOrPanic ..) fun _ => cost_sendOrPanic ..
  · intro _
    dsimp only
    split
    · exact (cost_bind' (n := 20) (k := K + 108) (cost_runUpload ..) fun a => h2 a).mono (by omega)
    · exact (h2 (.fin 0)).mono (by omega)

theorem cost_runSuite_fill (cfg : Cfg) (n : Int) (m : Messager) : Cost ok isFill 1 (runSuite cfg n m) := by
  have h3 : ∀ a b, Cost ok isFill 0 (if hasBit n bitMETA = true then runMeta cfg m >>= fun _ => farewell m a b else farewell m a b) := by
    intro a b
    split
    · exact cost_bind' (n := 0) (k := 0) (cost_runMeta_fill ..) fun _ => cost_farewell_fill ..
    · exact cost_farewell_fill ..
  have h2 : ∀ a, Cost ok isFill 1 (if hasBit n bitS2C = true then runDownload cfg m >>= fun b =>
      (if hasBit n bitMETA = true then runMeta cfg m >>= fun _ => farewell m a b else farewell m a b)
    else (if hasBit n bitMETA = true then runMeta cfg m >>= fun _ => farewell m a (.fin 0) else farewell m a (.fin 0))) := by
    intro a
    split
    · exact cost_bind' (n := 1) (k := 0) (cost_runDownload_fill ..) fun b => h3 a b
    · exact (h3 ..).mono (by omega)
  unfold runSuite greet
  refine cost_bind' (n := 0) (k := 1) ?_ ?_
  · refine cost_modify_bind fun _ => ?_
    exact cost_bind' (n := 0) (k := 0) (cost_sendOrPanic_fill ..) fun _ => cost_bind' (n := 0) (k := 0) (cost_sendOrPanic_fill ..) fun _ => cost_sendOrPanic_fill ..
  · intro _
    dsimp only
    split
    · exact cost_bind' (n := 0) (k := 1) (cost_runUpload_fill ..) fun a => h2 a
    · exact h2 (.fin 0)

theorem cost_login {p : Ev → Bool} (cfg : Cfg) : Cost ok p 1 (login cfg) := by
  unfold login Ask.recv
  refine cost_call_bind ?_
  intro r _
  cost_steps

theorem cost_login_fill (cfg : Cfg) : Cost ok isFill 0 (login cfg) := by
  unfold login Ask.recv
  refine cost_call_bind_free (fun _ => rfl) ?_
  intro r _
  cost_steps

theorem cost_countRequests (cfg : Cfg) (n : Int) : Cost ok anyEv 6 (countRequests cfg n) := by
  unfold countRequests countRequested note
  refine cost_bind' (n := 1) (by cost_steps) fun _ => ?_
  refine cost_bind' (n := 1) (by cost_steps) fun _ => ?_
  refine cost_bind' (n := 1) (by cost_steps) fun _ => ?_
  refine cost_bind' (n := 1) (by cost_steps) fun _ => ?_
  refine cost_bind' (n := 1) (by cost_steps) fun _ => ?_
  cost_steps

theorem cost_countRequests_fill (cfg : Cfg) (n : Int) : Cost ok isFill 0 (countRequests cfg n) := by
  unfold countRequests countRequested note
  refine cost_bind' (n := 0) (by cost_steps) fun _ => ?_
  refine cost_bind' (n := 0) (by cost_steps) fun _ => ?_
  refine cost_bind' (n := 0) (by cost_steps) fun _ => ?_
  refine cost_bind' (n := 0) (by cost_steps) fun _ => ?_
  refine cost_bind' (n := 0) (by cost_steps) fun _ => ?_
  cost_steps

theorem cost_session (K : Nat) (cfg : Cfg) : Cost (SmallStats K) anyEv (K + 138) (session cfg) := by
  unfold session countError note
  refine (cost_bind' (n := 1) (k := K + 137) (cost_login ..) ?_).mono (by omega)
  intro r
  split
  · exact cost_emit_bind fun _ => cost_panicOnError ..
  · split
    · refine (cost_bind' (n := 6) (k := K + 131) (cost_countRequests ..) ?_).mono (by omega)
      intro _
      refine cost_get_bind fun c => ?_
      split
      · cost_steps
      · exact cost_runSuite ..
    · cost_steps

theorem cost_session_fill (cfg : Cfg) : Cost ok isFill 1 (session cfg) := by
  unfold session countError note
  refine cost_bind' (n := 0) (k := 1) (cost_login_fill ..) ?_
  intro r
  split
  · exact cost_emit_bind fun _ => cost_panicOnError ..
  · split
    · refine cost_bind' (n := 0) (k := 1) (cost_countRequests_fill ..) ?_
      intro _
      refine cost_get_bind fun c => ?_
      split
      · cost_steps
      · exact cost_runSuite_fill ..
    · cost_steps

theorem cost_finish (cfg : Cfg) : Cost ok anyEv 5 (finishRecord cfg) := by
  unfold finishRecord saveData uuidToFile Ask.mkdirAll Ask.tempFile Ask.create Ask.closeFile Ask.write
  refine cost_now_bind fun _ => cost_modify_bind fun _ => cost_get_bind fun c => cost_call_bind fun r _ => ?_
  split
  · cost_steps
  · refine cost_bind' (n := 1) (k := 2) (by cost_steps) fun f => ?_
    split
    · cost_steps
    · exact cost_defer (n := 1) (k := 1) (by cost_steps) (by cost_steps)

theorem cost_finish_fill (cfg : Cfg) : Cost ok isFill 0 (finishRecord cfg) := by
  unfold finishRecord saveData uuidToFile Ask.mkdirAll Ask.tempFile Ask.create Ask.closeFile Ask.write
  refine cost_now_bind_free (fun _ => rfl) fun _ => cost_modify_bind fun _ => cost_get_bind fun c => cost_call_bind_free (fun _ => rfl) fun r _ => ?_
  split
  · cost_steps
  · refine cost_bind' (n := 0) (k := 0) (by cost_steps) fun f => ?_
    split
    · cost_steps
    · exact cost_defer (n := 0) (k := 0) (by cost_steps) (by cost_steps)

/-- The number of events of a control channel. -/
theorem cost_handle (K : Nat) (cfg : Cfg) : Cost (SmallStats K) anyEv (K + 147) (handleControlChannel cfg) := by
  unfold handleControlChannel Ask.close Ask.addrs Ask.uuid
  refine (cost_defer (n := K + 146) (k := 1) ?_ (cost_call (n := 0))).mono (by omega)
  refine cost_call_bind (n := K + 145) fun _ _ => cost_now_bind (n := K + 144) fun _ => cost_call_bind (n := K + 143) fun _ _ => cost_modify_bind fun _ => ?_
  exact cost_defer (n := K + 138) (k := 5) (cost_session ..) (cost_finish ..)

theorem cost_handle_fill (cfg : Cfg) : Cost ok isFill 1 (handleControlChannel cfg) := by
  unfold handleControlChannel Ask.close Ask.addrs Ask.uuid
  refine cost_defer (n := 1) (k := 0) ?_ (cost_call_free fun _ => rfl)
  refine cost_call_bind_free (fun _ => rfl) fun _ _ => cost_now_bind_free (fun _ => rfl) fun _ => cost_call_bind_free (fun _ => rfl) fun _ _ => cost_modify_bind fun _ => ?_
  exact cost_defer (n := 1) (k := 0) (cost_session_fill ..) (cost_finish_fill ..)

end
end Verif.Ndt5
