import Verif.Ndt5.CountLemmas
import Verif.Props.Archive

/-!
# How long a control connection lasts (C66)

A timed execution is an execution of `handleControlChannel` with a duration for every event, see `Spec/Timing.lean`.
-/

namespace Verif.Props
open Verif.Go Verif.Ndt5 Verif.Spec

instance (δ t : Nat) (e : Ev) (d : Nat) : Decidable (ServerLimits δ t e d) := by unfold ServerLimits; split <;> infer_instance

instance (δ t : Nat) (e : Ev) (d : Nat) : Decidable (ClientPrompt δ t e d) := by unfold ClientPrompt; split <;> infer_instance

instance meetsDecidable (P : Nat → Ev → Nat → Prop) [∀ t e d, Decidable (P t e d)] : ∀ t l, Decidable (Meets P t l)
  | _, [] => .isTrue trivial
  | t, (e, d) :: rest => by
    unfold Meets
    have := meetsDecidable P (t + d) rest
    infer_instance

/-- Waiting ends with the context, so only the bulk transfer and the number of operations matter. -/
theorem elapsed_bound {δ : Nat} {l : List (Ev × Nat)} : ∀ t, Meets (fun t e d => ServerLimits δ t e d ∧ ClientPrompt δ t e d) t l →
    t + elapsed l ≤ max t (45 * sec) + (l.countP fun x => isFill x.1) * (10 * sec) + l.length * δ := by
  induction l with
  | nil => intro t _; simp [elapsed]; omega
  | cons x rest ih =>
    obtain ⟨e, d⟩ := x
    rintro t ⟨⟨h1, h2⟩, h3⟩
    have h4 := ih (t + d) h3
    have h5 : elapsed ((e, d) :: rest) = d + elapsed rest := by simp [elapsed]
    rw [h5, List.countP_cons, List.length_cons, Nat.add_mul, Nat.add_mul, Nat.one_mul]
    dsimp only
    have key : max (t + d) (45 * sec) ≤ max t (45 * sec) + (if isFill e = true then 1 else 0) * (10 * sec) + δ := by
      cases e with
      | clock x => have := h1 rfl; simp only [isFill]; omega
      | emit x => have := h1 rfl; simp only [isFill]; omega
      | call q r =>
        cases q with
        | accept x => have := h1.2; simp only [isFill]; omega
        | drain => have := h1.2; simp only [isFill]; omega
        | fill x =>
          have h2 : d ≤ 10 * sec + δ := h2
          simp only [isFill, if_true]
          omega
        | send x => have := h2 rfl; simp only [isFill]; omega
        | recv => have := h2 rfl; simp only [isFill]; omega
        | close x => have := h2 rfl; simp only [isFill]; omega
        | _ => have := h1 rfl; simp only [isFill]; omega
    omega

/-- The untimed execution. -/
def untimed (l : List (Ev × Nat)) : List Ev := l.map Prod.fst

/-- C66, partial: a connection whose client never keeps the server waiting ends 55 seconds after the creation of the context, and after 45 seconds if it has no download, apart from
the time `δ` of single operations, of which there are at most 147 and one for every statistic sent to the client. Missing: the property demands 45 seconds, whatever the client does
(false, see below). -/
theorem C66_prompt_client_partial {cfg : Cfg} {l : List (Ev × Nat)} {out : Outcome Unit} {s : Ctl} {δ K : Nat}
    (h : Exec (handleControlChannel cfg) {} (untimed l) out s)
    (hs : Meets (ServerLimits δ) 0 l) (hc : Meets (ClientPrompt δ) 0 l) (hk : ∀ e ∈ untimed l, SmallStats K e) :
    elapsed l ≤ 45 * sec + (if (untimed l).any isFill then 10 * sec else 0) + (K + 147) * δ := by
  have hboth : ∀ t, Meets (ServerLimits δ) t l → Meets (ClientPrompt δ) t l → Meets (fun t e d => ServerLimits δ t e d ∧ ClientPrompt δ t e d) t l := by
    clear h hs hc hk
    induction l with
    | nil => intro _ _ _; trivial
    | cons x rest ih => exact fun t h1 h2 => ⟨⟨h1.1, h2.1⟩, ih _ h1.2 h2.2⟩
  have h1 := elapsed_bound 0 (hboth 0 hs hc)
  have h2 := cost_handle K cfg
  have h3 := cost_handle_fill (ok := SmallStats K) cfg
  unfold Cost at h2 h3
  have h2 := wp_iff.1 (h2 {}) _ _ _ h hk
  have h3 := wp_iff.1 (h3 {}) _ _ _ h hk
  have h4 : (untimed l).countP anyEv = l.length := by
    rw [(List.countP_eq_length (p := anyEv)).2 (fun _ _ => rfl)]
    simp [untimed]
  have h5 : (untimed l).countP isFill = l.countP fun x => isFill x.1 := by
    unfold untimed
    rw [List.countP_map]
    rfl
  have h6 : l.length * δ ≤ (K + 147) * δ := Nat.mul_le_mul_right _ (by omega)
  have h7 : (l.countP fun x => isFill x.1) * (10 * sec) ≤ if (untimed l).any isFill then 10 * sec else 0 := by
    split
    · refine Nat.le_trans (Nat.mul_le_mul_right _ (show _ ≤ 1 by omega)) (by omega)
    · rename_i hn
      rw [← h5, List.countP_eq_zero.2]
      · omega
      · intro a ha hf
        exact hn (List.any_eq_true.2 ⟨a, ha, hf⟩)
  omega

/-- Waiting without end for the login. -/
def silentClient (B : Nat) : List (Ev × Nat) :=
  [(.call (.addrs .control) (.ok ⟨str "192.0.2.1", 3001, str "198.51.100.7", 4000⟩), 0), (.clock 101, 0), (.call (.uuid .control) (.ok (str "u")), 0),
   (.call .recv (.ok (.error (str "EOF"))), B), (.emit (.testError (str "ndt5+plain") (str "control") (str "LoginCeremony")), 0)] ++
  (storing openingRecord).map (fun e => (e, 0)) ++ [(.call (.close .control) (.ok ()), 0)]

/-- C66 is violated: no time bounds all connections. The login, and every other message of the control connection, is awaited without a deadline. -/
theorem C66_unbounded_false (B : Nat) :
    ¬ ∀ (cfg : Cfg) (l : List (Ev × Nat)) (out : Outcome Unit) (s : Ctl), Exec (handleControlChannel cfg) {} (untimed l) out s → Meets (ServerLimits 0) 0 l →
      elapsed l ≤ B := by
  intro h
  have h1 : Exec (handleControlChannel plainCfg) {} (untimed (silentClient (B + 1)))
      (.panic (panicText (str "Login - error reading JSON message") (str "u") (str "EOF"))) { record := { openingRecord with endTime := 200 } } := by
    unfold silentClient storing untimed
    follow
  have h2 := h plainCfg _ _ _ h1 (by
    unfold silentClient storing
    simp [Meets, ServerLimits, onClient])
  simp [silentClient, storing, elapsed] at h2
  omega

/-- A client that asks for an upload and a download, connects after thirty and after five seconds and sends data for ten seconds. -/
def slowEnv (h : List Ev) : (q : Call) → Outcome q.Answer
  | .recv => .ok (.ok (if h.length < 10 then [2, 0, 1, 22] else Messager.tlv.frame MsgType.testMsg (str "1")))
  | q => nanEnv h q

/-- How long its operations take. -/
def slowDuration : Ev → Nat
  | .call (.accept .c2s) _ => 30 * sec
  | .call (.accept .s2c) _ => 5 * sec
  | .call .drain _ => 10 * sec
  | .call (.fill _) _ => 10 * sec
  | _ => 0

/-- The connection of this client. -/
def slowSession : List Ev × (Outcome Unit × Ctl) :=
  Prog.exec (S := sig) slowEnv (fun h => h.length * 1000000000) (handleControlChannel plainCfg {}) []

/-- The same with durations. -/
def slowTimed : List (Ev × Nat) := slowSession.1.map fun e => (e, slowDuration e)

theorem slowTimed_facts : Meets (ServerLimits 0) 0 slowTimed ∧ Meets (ClientPrompt 0) 0 slowTimed ∧ elapsed slowTimed = 55 * sec ∧ slowSession.2.1 = .ok () := by
  decide +kernel

theorem slowTimed_exec : Exec (handleControlChannel plainCfg) {} (untimed slowTimed) slowSession.2.1 slowSession.2.2 := by
  have h : untimed slowTimed = slowSession.1 := by
    unfold untimed slowTimed
    rw [List.map_map]
    exact List.map_id _
  rw [h]
  exact exec_in _ _ slowEnv (fun h => h.length * 1000000000) slowSession.eq_1.symm

/-- C66 is violated even for clients that never keep the server waiting and operations that take no time: the download's ten seconds are not cut short by the context. -/
theorem C66_prompt_client_false :
    ¬ ∀ (cfg : Cfg) (l : List (Ev × Nat)) (out : Outcome Unit) (s : Ctl), Exec (handleControlChannel cfg) {} (untimed l) out s → Meets (ServerLimits 0) 0 l →
      Meets (ClientPrompt 0) 0 l → elapsed l ≤ 45 * sec := by
  intro h
  obtain ⟨h1, h2, h3, -⟩ := slowTimed_facts
  have := h _ _ _ _ slowTimed_exec h1 h2
  rw [h3] at this
  exact absurd this (by decide)

/-- The bound of the partial theorem is attained by this client, whose session is successful. -/
example : elapsed slowTimed = 45 * sec + (if (untimed slowTimed).any isFill then 10 * sec else 0) + (0 + 147) * 0 := by decide +kernel

end Verif.Props
