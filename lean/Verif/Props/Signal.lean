import Verif.Main.Signal

/-!
# C58, C59, C72, C73: lame duck and shutdown
-/

namespace Verif.Props
open Verif.Go Verif.Main

/-- A history of actions is a possible one. -/
def Possible (l : List SigAct) : Prop := ∃ p, process.Reaches l p

macro "sig_cases" h:ident : tactic => `(tactic| (
  simp only [process, Proc.step] at $h:ident
  repeat' split at $h:ident
  all_goals first
    | (cases $h:ident; done)
    | (simp only [Option.some.injEq] at $h:ident; subst $h:ident)))

/-- The steps of `catchSigterm` up to each of its positions. -/
private inductive Trail : CatchPc → List SigAct → Prop
  | clearFlag : Trail .clearFlag []
  | clearMetric : Trail .clearMetric [.clearFlag]
  | listen : Trail .listen [.clearFlag, .clearMetric]
  | wait1 : Trail .wait1 [.clearFlag, .clearMetric, .listen]
  | setFlag (x) : x = .term1 ∨ x = .done1 → Trail .setFlag [.clearFlag, .clearMetric, .listen, x]
  | setMetric (x) : x = .term1 ∨ x = .done1 → Trail .setMetric [.clearFlag, .clearMetric, .listen, x, .setFlag]
  | wait2 (x) : x = .term1 ∨ x = .done1 → Trail .wait2 [.clearFlag, .clearMetric, .listen, x, .setFlag, .setMetric]
  | stop (x) : x = .term1 ∨ x = .done1 → Trail .stop [.clearFlag, .clearMetric, .listen, x, .setFlag, .setMetric, .term2]
  | close1 (x) : x = .term1 ∨ x = .done1 → Trail .close [.clearFlag, .clearMetric, .listen, x, .setFlag, .setMetric, .term2, .stop]
  | close2 (x) : x = .term1 ∨ x = .done1 → Trail .close [.clearFlag, .clearMetric, .listen, x, .setFlag, .setMetric, .done2]
  | ended1 (x) : x = .term1 ∨ x = .done1 → Trail .ended [.clearFlag, .clearMetric, .listen, x, .setFlag, .setMetric, .term2, .stop, .close]
  | ended2 (x) : x = .term1 ∨ x = .done1 → Trail .ended [.clearFlag, .clearMetric, .listen, x, .setFlag, .setMetric, .done2, .close]

private structure SigInv (k : List SigAct) (p : Proc) : Prop where
  trail : Trail p.pc k
  flag : p.flag = decide (.setFlag ∈ k)
  metric : p.metric = if .setMetric ∈ k then 1 else 0
  registered : p.registered = decide (.listen ∈ k)
  closed : p.closed = decide (.close ∈ k)

private theorem sigInv : ∀ {l p}, process.Reaches l p → SigInv (l.filter SigAct.ofCatcher) p := by
  refine LTS.invariant (P := fun l p => SigInv (l.filter SigAct.ofCatcher) p) ⟨.clearFlag, by simp [process], by simp [process], by simp [process], by simp [process]⟩ ?_
  intro l p a p' _ hi h
  rw [List.filter_append]
  generalize l.filter SigAct.ofCatcher = k at hi
  obtain ⟨ht, h1, h2, h3, h4⟩ := hi
  sig_cases h
  all_goals first
    | (refine ⟨?_, ?_, ?_, ?_, ?_⟩ <;> simp_all [SigAct.ofCatcher]; done)
    | (rename_i hpc
       first | (rw [hpc.1] at ht) | (rw [hpc] at ht)
       cases ht <;> refine ⟨?_, ?_, ?_, ?_, ?_⟩ <;> simp_all [SigAct.ofCatcher] <;> (constructor <;> simp_all))

/-- What the actions say about signals. -/
private structure SigInv2 (l : List SigAct) (p : Proc) : Prop where
  buf : p.buf = true → ∃ a b, l = a ++ .sigterm :: b ∧ .term1 ∉ b ∧ .term2 ∉ b
  first : .term1 ∈ l → ∃ a b, l = a ++ .term1 :: b ∧ .sigterm ∈ a
  ended : .done1 ∈ l ∨ .done2 ∈ l → .cancel ∈ l
  second : .term2 ∈ l → .cancel ∈ l ∨ ∃ a b c, l = a ++ .term1 :: b ++ .term2 :: c ∧ .sigterm ∈ a ∧ .sigterm ∈ b
  seen : p.life = .running → .sigterm ∈ l → .listen ∈ l ∧ (p.buf = true ∨ .term1 ∈ l ∨ .term2 ∈ l)
  exited : p.life = .exited → p.cancelled = true
  cancelled : p.cancelled = true ↔ .cancel ∈ l ∨ .stop ∈ l
  exit : .exit ∈ l → p.cancelled = true
  killed : p.life = .killed → .listen ∉ l
  crashed : p.life = .crashed → ∃ a, l = a ++ [.sigterm] ∧ .close ∈ a

private theorem mem_catcher {l : List SigAct} {x : SigAct} (hx : x.ofCatcher = true) : x ∈ l.filter SigAct.ofCatcher ↔ x ∈ l := by
  simp [List.mem_filter, hx]

private theorem split_snoc {l a b : List SigAct} {x y : SigAct} (h : l = a ++ x :: b) : l ++ [y] = a ++ x :: (b ++ [y]) := by simp [h]

/-- The second signal comes after the first was received. -/
private theorem two_signals {l a b : List SigAct} (h1 : l = a ++ .sigterm :: b) (h2 : .term1 ∉ b) (h3 : ∃ c d, l = c ++ .term1 :: d ∧ .sigterm ∈ c) :
    ∃ c d, l = c ++ .term1 :: d ∧ .sigterm ∈ c ∧ .sigterm ∈ d := by
  obtain ⟨c, d, rfl, hc⟩ := h3
  refine ⟨c, d, rfl, hc, ?_⟩
  rcases List.append_eq_append_iff.1 h1 with ⟨k, rfl, hk⟩ | ⟨k, rfl, hk⟩
  · rcases k with _ | ⟨x, k⟩
    · cases hk
    · cases hk; simp
  · rcases k with _ | ⟨x, k⟩
    · cases hk
    · cases hk; simp at h2

private theorem sigInv2 : ∀ {l p}, process.Reaches l p → SigInv2 l p := by
  refine LTS.invariant (P := fun l p => SigInv2 l p) (by constructor <;> simp [process]) ?_
  intro l p a p' hr hi h
  obtain ⟨ht, -, -, h3, h4⟩ := sigInv hr
  have m1 : .term1 ∈ l ↔ .term1 ∈ l.filter SigAct.ofCatcher := (mem_catcher rfl).symm
  have m2 : .done1 ∈ l ↔ .done1 ∈ l.filter SigAct.ofCatcher := (mem_catcher rfl).symm
  have m3 : .term2 ∈ l ↔ .term2 ∈ l.filter SigAct.ofCatcher := (mem_catcher rfl).symm
  have m4 : .stop ∈ l ↔ .stop ∈ l.filter SigAct.ofCatcher := (mem_catcher rfl).symm
  have m5 : .listen ∈ l ↔ .listen ∈ l.filter SigAct.ofCatcher := (mem_catcher rfl).symm
  have m6 : .close ∈ l ↔ .close ∈ l.filter SigAct.ofCatcher := (mem_catcher rfl).symm
  generalize l.filter SigAct.ofCatcher = k at *
  obtain ⟨b1, b2, b3, b4, b5, b6, b7, b8, b9, b10⟩ := hi
  refine ⟨?_, ?_, ?_, ?_, ?_, ?_, ?_, ?_, ?_, ?_⟩
  · intro hb
    by_cases hs : a = .sigterm
    · subst hs; exact ⟨l, [], rfl, by simp, by simp⟩
    · have : p.buf = true ∧ a ≠ .term1 ∧ a ≠ .term2 := by
        sig_cases h
        all_goals simp_all
      obtain ⟨c, d, h5, h6, h7⟩ := b1 this.1
      exact ⟨c, d ++ [a], split_snoc h5, by simp [h6, this.2.1.symm], by simp [h7, this.2.2.symm]⟩
  · intro hm
    rcases List.mem_append.1 hm with hm | hm
    · obtain ⟨c, d, h5, h6⟩ := b2 hm
      exact ⟨c, d ++ [a], split_snoc h5, h6⟩
    · simp only [List.mem_singleton] at hm
      subst hm
      have : p.buf = true := by
        sig_cases h
        simp_all
      obtain ⟨c, d, h5, -⟩ := b1 this
      exact ⟨l, [], rfl, by simp [h5]⟩
  · intro hm
    by_cases hm' : .done1 ∈ l ∨ .done2 ∈ l
    · exact List.mem_append_left _ (b3 hm')
    · have ha : a = .done1 ∨ a = .done2 := by
        simp only [List.mem_append, List.mem_singleton] at hm
        grind
      have hpc : (p.pc = .wait1 ∨ p.pc = .wait2) ∧ p.cancelled = true := by
        rcases ha with rfl | rfl <;> sig_cases h <;> simp_all
      rcases b7.1 hpc.2 with h5 | h5
      · simp [h5]
      · exfalso
        rw [m4] at h5
        rcases hpc.1 with hp | hp <;> rw [hp] at ht <;> cases ht
        · simp at h5
        · rename_i x hx
          rcases hx with rfl | rfl <;> simp at h5
  · intro hm
    rcases List.mem_append.1 hm with hm | hm
    · rcases b4 hm with h5 | ⟨c, d, e, h5, h6, h7⟩
      · simp [h5]
      · exact .inr ⟨c, d, e ++ [a], by simp [h5], h6, h7⟩
    · simp only [List.mem_singleton] at hm
      subst hm
      have hpc : p.pc = .wait2 ∧ p.buf = true := by
        sig_cases h
        assumption
      by_cases hd : .done1 ∈ l
      · simp [b3 (.inl hd)]
      · have h1 : .term1 ∈ l := by
          rw [m2] at hd
          rw [m1]
          rw [hpc.1] at ht
          cases ht
          rename_i x hx
          rcases hx with rfl | rfl
          · simp
          · simp at hd
        obtain ⟨c, d, h5, h6, -⟩ := b1 hpc.2
        obtain ⟨c, d, h5, h6, h7⟩ := two_signals h5 h6 (b2 h1)
        exact .inr ⟨c, d, [], by simp [h5], h6, h7⟩
  · clear b1 b2 b3 b4 b9 b10
    intro hl hm
    sig_cases h
    all_goals simp_all
    all_goals grind
  · clear b1 b2 b3 b4 b5 m1 m2 m3
    intro hl
    sig_cases h
    all_goals simp_all
  · clear b1 b2 b3 b4 b5 m1 m2 m3
    sig_cases h
    all_goals simp_all
    all_goals grind
  · clear b1 b2 b3 b4 b5 m1 m2 m3
    intro hm
    sig_cases h
    all_goals simp_all
  · clear b1 b2 b3 b4 b5 m1 m2 m3
    intro hl
    sig_cases h
    all_goals simp_all
  · clear b1 b2 b3 b4 b5 m1 m2 m3
    intro hl
    sig_cases h
    all_goals simp_all

private theorem possible_split {a b : List SigAct} (h : Possible (a ++ b)) : ∃ p p', process.Reaches a p ∧ process.runFrom p b = some p' := by
  obtain ⟨p', h⟩ := h
  obtain ⟨p, h1, h2⟩ := LTS.runFrom_append_eq.1 h
  exact ⟨p, p', h1, h2⟩

private theorem health_code {a : List SigAct} {code : Nat} (h : Possible (a ++ [.health code])) : code = if .setFlag ∈ a then 500 else 200 := by
  obtain ⟨p, p', h1, h2⟩ := possible_split h
  obtain ⟨q, h2, -⟩ := LTS.runFrom_cons_eq.1 h2
  have hf := (sigInv h1).flag
  sig_cases h2
  rename_i hc
  rw [hc, healthCode, hf]
  simp [List.mem_filter, SigAct.ofCatcher]

private theorem metric_value {a : List SigAct} {v : Nat} (h : Possible (a ++ [.scrape v])) : v = if .setMetric ∈ a then 1 else 0 := by
  obtain ⟨p, p', h1, h2⟩ := possible_split h
  obtain ⟨q, h2, -⟩ := LTS.runFrom_cons_eq.1 h2
  have hf := (sigInv h1).metric
  sig_cases h2
  rename_i hc
  rw [hc, hf]
  simp [List.mem_filter, SigAct.ofCatcher]

private theorem possible_left {a b : List SigAct} (h : Possible (a ++ b)) : Possible a := by
  obtain ⟨p, p', h1, -⟩ := possible_split h
  exact ⟨p, h1⟩

private theorem trail_of {a : List SigAct} (h : Possible a) : ∃ pc, Trail pc (a.filter SigAct.ofCatcher) := by
  obtain ⟨p, h⟩ := h
  exact ⟨p.pc, (sigInv h).trail⟩

/-- The handling of the first signal or cancellation. -/
def Handled (x : SigAct) : Prop := x = .term1 ∨ x = .done1

private theorem handled_then {a b c : List SigAct} {x y : SigAct} (h : Possible (a ++ x :: b ++ y :: c)) (hx : Handled x) (hy : y.ofCatcher = true) :
    .setFlag ∈ a ++ x :: b ++ y :: c := by
  obtain ⟨pc, ht⟩ := trail_of h
  have hx' : x.ofCatcher = true := by rcases hx with rfl | rfl <;> rfl
  rw [← mem_catcher rfl]
  simp only [List.filter_append, List.filter_cons_of_pos hx', List.filter_cons_of_pos hy] at ht ⊢
  generalize a.filter _ = a' at ht ⊢
  generalize b.filter _ = b' at ht ⊢
  generalize c.filter _ = c' at ht ⊢
  generalize hk : a' ++ x :: b' ++ y :: c' = k at ht
  cases ht
  all_goals first
    | (simp; done)
    | (exfalso
       rcases hx with rfl | rfl <;>
       rcases a' with _ | ⟨_, _ | ⟨_, _ | ⟨_, _ | ⟨_, a'⟩⟩⟩⟩ <;> simp at hk)

private theorem handled_then2 {a b c d : List SigAct} {x y z : SigAct} (h : Possible (a ++ x :: b ++ y :: c ++ z :: d)) (hx : Handled x)
    (hy : y.ofCatcher = true) (hz : z.ofCatcher = true) : .setMetric ∈ a ++ x :: b ++ y :: c ++ z :: d := by
  obtain ⟨pc, ht⟩ := trail_of h
  have hx' : x.ofCatcher = true := by rcases hx with rfl | rfl <;> rfl
  rw [← mem_catcher rfl]
  simp only [List.filter_append, List.filter_cons_of_pos hx', List.filter_cons_of_pos hy, List.filter_cons_of_pos hz] at ht ⊢
  generalize a.filter _ = a' at ht ⊢
  generalize b.filter _ = b' at ht ⊢
  generalize c.filter _ = c' at ht ⊢
  generalize d.filter _ = d' at ht ⊢
  generalize hk : a' ++ x :: b' ++ y :: c' ++ z :: d' = k at ht
  cases ht
  all_goals first
    | (simp; done)
    | (exfalso
       rcases hx with rfl | rfl <;>
       rcases a' with _ | ⟨_, _ | ⟨_, _ | ⟨_, _ | ⟨_, _ | ⟨_, a'⟩⟩⟩⟩⟩ <;> simp at hk <;>
       rcases b' with _ | ⟨_, b'⟩ <;> simp at hk)

private theorem order_flag {a : List SigAct} (h : Possible a) : (.setMetric ∈ a → .setFlag ∈ a) ∧ (.setFlag ∈ a → .term1 ∈ a ∨ .done1 ∈ a) := by
  obtain ⟨pc, ht⟩ := trail_of h
  rw [← mem_catcher (l := a) (x := .setMetric) rfl, ← mem_catcher (l := a) (x := .setFlag) rfl, ← mem_catcher (l := a) (x := .term1) rfl,
    ← mem_catcher (l := a) (x := .done1) rfl]
  generalize a.filter _ = k at ht
  cases ht <;> simp_all <;> grind

/-! ## C58 -/

/-- C58: the health endpoint knows two answers. -/
theorem C58_codes (a : List SigAct) (code : Nat) (h : Possible (a ++ [.health code])) : code = 200 ∨ code = 500 := by
  rw [health_code h]; split <;> simp

/-- C58: the server reports lame duck only after a signal or a cancellation, and after `catchSigterm` has noticed it. -/
theorem C58_no_false_alarm (a : List SigAct) (h : Possible (a ++ [.health 500])) : (.sigterm ∈ a ∨ .cancel ∈ a) ∧ ∃ x ∈ a, Handled x := by
  have hc := health_code h
  have hf : .setFlag ∈ a := by
    by_cases hf : .setFlag ∈ a
    · exact hf
    · rw [if_neg hf] at hc; cases hc
  obtain ⟨p, hp⟩ := possible_left h
  have hi := sigInv2 hp
  rcases (order_flag ⟨p, hp⟩).2 hf with h1 | h1
  · obtain ⟨c, d, h2, h3⟩ := hi.first h1
    exact ⟨.inl (by simp [h2, h3]), _, h1, .inl rfl⟩
  · exact ⟨.inr (hi.ended (.inl h1)), _, h1, .inr rfl⟩

/-- C58: lame duck is sticky. -/
theorem C58_sticky (a b : List SigAct) (code : Nat) (h : Possible (a ++ .health 500 :: b ++ [.health code])) : code = 500 := by
  have h1 := health_code h
  have h2 := health_code (a := a) (code := 500) (by
    rw [show a ++ .health 500 :: b ++ [.health code] = (a ++ [.health 500]) ++ (b ++ [.health code]) by simp] at h
    exact possible_left h)
  have hf : .setFlag ∈ a := by
    by_cases hf : .setFlag ∈ a
    · exact hf
    · rw [if_neg hf] at h2; cases h2
  rw [h1, if_pos (by simp [hf])]

/-- C58: once the goroutine has received the first signal or seen the end of the context and has made one more step, all answers are 500. -/
theorem C58_handled (a b c : List SigAct) (x y : SigAct) (code : Nat) (h : Possible (a ++ x :: b ++ y :: c ++ [.health code])) (hx : Handled x)
    (hy : y.ofCatcher = true) : code = 500 := by
  rw [health_code h, if_pos (handled_then (possible_left h) hx hy)]

/-- C58: all answers are 200 before that. -/
theorem C58_before (a : List SigAct) (code : Nat) (h : Possible (a ++ [.health code])) (hx : ∀ x ∈ a, ¬ Handled x) : code = 200 := by
  rw [health_code h, if_neg]
  intro hf
  rcases (order_flag (possible_left h)).2 hf with h1 | h1
  · exact hx _ h1 (.inl rfl)
  · exact hx _ h1 (.inr rfl)

/-- C58: the metric is 0 or 1; once it is 1 it stays 1 and all health checks are answered with 500. -/
theorem C58_metric (a : List SigAct) (v : Nat) (h : Possible (a ++ [.scrape v])) : v = 0 ∨ v = 1 := by
  rw [metric_value h]; split <;> simp

theorem C58_metric_sticky (a b : List SigAct) (v : Nat) (h : Possible (a ++ .scrape 1 :: b ++ [.scrape v])) : v = 1 := by
  have h1 := metric_value h
  have h2 := metric_value (a := a) (v := 1) (by
    rw [show a ++ .scrape 1 :: b ++ [.scrape v] = (a ++ [.scrape 1]) ++ (b ++ [.scrape v]) by simp] at h
    exact possible_left h)
  have hf : .setMetric ∈ a := by
    by_cases hf : .setMetric ∈ a
    · exact hf
    · rw [if_neg hf] at h2; cases h2
  rw [h1, if_pos (by simp [hf])]

theorem C58_metric_health (a b : List SigAct) (code : Nat) (h : Possible (a ++ .scrape 1 :: b ++ [.health code])) : code = 500 := by
  have h1 := health_code h
  have hl : Possible (a ++ [.scrape 1]) := by
    rw [show a ++ .scrape 1 :: b ++ [.health code] = (a ++ [.scrape 1]) ++ (b ++ [.health code]) by simp] at h
    exact possible_left h
  have h2 := metric_value hl
  have hf : .setMetric ∈ a := by
    by_cases hf : .setMetric ∈ a
    · exact hf
    · rw [if_neg hf] at h2; cases h2
  rw [h1, if_pos (by simp [(order_flag (possible_left hl)).1 hf])]

/-- C58: conversely, once a health check was answered with 500 the metric is 1 from the next step of the goroutine on. -/
theorem C58_health_metric (a b c : List SigAct) (y : SigAct) (v : Nat) (h : Possible (a ++ .health 500 :: b ++ y :: c ++ [.scrape v]))
    (hy : y.ofCatcher = true) : v = 1 := by
  have h1 := metric_value h
  have hl : Possible (a ++ [.health 500]) := by
    rw [show a ++ .health 500 :: b ++ y :: c ++ [.scrape v] = (a ++ [.health 500]) ++ (b ++ y :: c ++ [.scrape v]) by simp] at h
    exact possible_left h
  have h2 := health_code hl
  have hf : .setFlag ∈ a := by
    by_cases hf : .setFlag ∈ a
    · exact hf
    · rw [if_neg hf] at h2; cases h2
  rw [h1, if_pos]
  obtain ⟨pc, ht⟩ := trail_of (possible_left h)
  rw [← mem_catcher rfl] at hf ⊢
  have hh : (SigAct.health 500).ofCatcher = false := rfl
  simp only [List.filter_append, List.filter_cons_of_pos hy, List.filter_cons_of_neg (by simp [hh] : ¬ (SigAct.health 500).ofCatcher = true)] at ht ⊢
  generalize a.filter _ = a' at ht hf ⊢
  generalize b.filter _ = b' at ht ⊢
  generalize c.filter _ = c' at ht ⊢
  obtain ⟨a1, a2, rfl⟩ := List.append_of_mem hf
  generalize hk : a1 ++ .setFlag :: a2 ++ b' ++ y :: c' = k at ht
  have hmem : .setFlag ∈ k := by simp [← hk]
  cases ht
  all_goals first
    | (simp; done)
    | (exfalso; simp at hmem; done)
    | (exfalso
       rename_i x hx
       rcases hx with rfl | rfl <;> simp at hmem; done)
    | (exfalso
       rename_i x hx
       clear hmem hf
       rcases hx with rfl | rfl <;>
       rcases a1 with _ | ⟨_, _ | ⟨_, _ | ⟨_, _ | ⟨_, _ | ⟨_, a1⟩⟩⟩⟩⟩ <;> simp at hk)

/-- Is the process running after these actions. -/
def Alive (a : List SigAct) : Prop := ∃ p, process.Reaches a p ∧ p.life = .running

private theorem possible_snoc {a : List SigAct} {p : Proc} {x : SigAct} (h : process.Reaches a p) (hs : (process.step p x).isSome = true) :
    Possible (a ++ [x]) := by
  obtain ⟨p', hp⟩ := Option.isSome_iff_exists.1 hs
  exact ⟨p', LTS.reaches_snoc.2 ⟨p, h, hp⟩⟩

/-- C58: after a signal or a cancellation the goroutine is never stuck before lame duck is set in flag and metric, … -/
theorem C58_reacts (a : List SigAct) (hl : Alive a) (hs : .sigterm ∈ a ∨ .cancel ∈ a) (hn : .setMetric ∉ a) :
    ∃ x : SigAct, x.ofCatcher = true ∧ Possible (a ++ [x]) := by
  obtain ⟨p, hr, hl⟩ := hl
  have hi := sigInv hr
  have hi2 := sigInv2 hr
  have ht := hi.trail
  rw [← mem_catcher rfl] at hn
  have go : ∀ x : SigAct, x.ofCatcher = true → (process.step p x).isSome = true → ∃ x : SigAct, x.ofCatcher = true ∧ Possible (a ++ [x]) :=
    fun x h1 h2 => ⟨x, h1, possible_snoc hr h2⟩
  generalize hpc : p.pc = pc at ht
  cases hk : pc <;> subst hk
  · exact go .clearFlag rfl (by simp [process, Proc.step, hl, hpc])
  · exact go .clearMetric rfl (by simp [process, Proc.step, hl, hpc])
  · exact go .listen rfl (by simp [process, Proc.step, hl, hpc])
  · by_cases hc : p.cancelled = true
    · exact go .done1 rfl (by simp [process, Proc.step, hl, hpc, hc])
    · have hs : .sigterm ∈ a := by
        rcases hs with hs | hs
        · exact hs
        · exact absurd (hi2.cancelled.2 (.inl hs)) hc
      have hb : p.buf = true := by
        rcases (hi2.seen hl hs).2 with h | h | h
        · exact h
        · rw [← mem_catcher rfl] at h
          generalize a.filter _ = k at ht h
          cases ht; simp at h
        · rw [← mem_catcher rfl] at h
          generalize a.filter _ = k at ht h
          cases ht; simp at h
      exact go .term1 rfl (by simp [process, Proc.step, hl, hpc, hb])
  · exact go .setFlag rfl (by simp [process, Proc.step, hl, hpc])
  · exact go .setMetric rfl (by simp [process, Proc.step, hl, hpc])
  all_goals
    exfalso
    generalize a.filter _ = k at ht hn
    cases ht <;> simp at hn

/-- … and after six of its steps both are set. -/
theorem C58_six_steps (a : List SigAct) (h6 : 6 ≤ (a.filter SigAct.ofCatcher).length) :
    (∀ code, Possible (a ++ [.health code]) → code = 500) ∧ ∀ v, Possible (a ++ [.scrape v]) → v = 1 := by
  have key : Possible a → .setMetric ∈ a := by
    intro h
    obtain ⟨pc, ht⟩ := trail_of h
    rw [← mem_catcher rfl]
    generalize a.filter _ = k at ht h6
    cases ht <;> simp_all
  constructor
  · intro code h
    rw [health_code h, if_pos ((order_flag (possible_left h)).1 (key (possible_left h)))]
  · intro v h
    rw [metric_value h, if_pos (key (possible_left h))]

/-! ## C59 -/

private theorem stop_term2 {a : List SigAct} (h : Possible a) (hs : .stop ∈ a) : .term2 ∈ a := by
  obtain ⟨pc, ht⟩ := trail_of h
  rw [← mem_catcher rfl] at hs ⊢
  generalize a.filter _ = k at ht hs ⊢
  cases ht
  all_goals first
    | (simp; done)
    | (exfalso; simp at hs; done)
    | (exfalso
       rename_i x hx
       rcases hx with rfl | rfl <;> simp at hs; done)

private theorem close_stop {a : List SigAct} (h : Possible a) (hs : .close ∈ a) : .stop ∈ a ∨ .done2 ∈ a := by
  obtain ⟨pc, ht⟩ := trail_of h
  rw [← mem_catcher rfl] at hs
  rw [← mem_catcher (l := a) (x := .stop) rfl, ← mem_catcher (l := a) (x := .done2) rfl]
  generalize a.filter _ = k at ht hs ⊢
  cases ht
  all_goals first
    | (simp; done)
    | (exfalso; simp at hs; done)
    | (exfalso
       rename_i x hx
       rcases hx with rfl | rfl <;> simp at hs; done)

/-- C59: `catchSigterm` cancels a context that is not cancelled already only after it has received two signals, the second of which arrived after the first was received. -/
theorem C59_two_signals (a : List SigAct) (h : Possible a) (hs : .stop ∈ a) (hc : .cancel ∉ a) :
    ∃ b c d, a = b ++ .term1 :: c ++ .term2 :: d ∧ .sigterm ∈ b ∧ .sigterm ∈ c := by
  obtain ⟨p, hp⟩ := id h
  exact ((sigInv2 hp).second (stop_term2 h hs)).resolve_left hc

/-- C59: one signal alone does not cancel the context, and it does not end the process if it arrives after `signal.Notify`. -/
theorem C59_one_never (a : List SigAct) (p : Proc) (h : process.Reaches a p) (h1 : a.count .sigterm ≤ 1) (hc : .cancel ∉ a) :
    p.cancelled = false ∧ .exit ∉ a ∧ (.listen ∈ a → p.life = .running) := by
  have hi := sigInv2 h
  have hs : .stop ∉ a := by
    intro hs
    obtain ⟨b, c, d, rfl, hb, hc⟩ := C59_two_signals a ⟨p, h⟩ hs hc
    have e1 := List.count_pos_iff.2 hb
    have e2 := List.count_pos_iff.2 hc
    simp [List.count_append, List.count_cons] at h1
    omega
  have hn : p.cancelled = false := by
    rcases hcc : p.cancelled with _ | _
    · rfl
    · rcases hi.cancelled.1 hcc with h | h
      · exact absurd h hc
      · exact absurd h hs
  refine ⟨hn, fun he => ?_, fun hl => ?_⟩
  · rw [hi.exit he] at hn; cases hn
  · rcases hlife : p.life with _ | _ | _ | _
    · rfl
    · exact absurd hl (hi.killed hlife)
    · obtain ⟨b, rfl, hb⟩ := hi.crashed hlife
      exfalso
      obtain ⟨pc, ht⟩ := trail_of (possible_left ⟨p, h⟩ : Possible b)
      have hd : .done2 ∉ b := fun hd => hc (hi.ended (by simp [hd]))
      have hs : .stop ∉ b := fun hd => hs (by simp [hd])
      rcases close_stop (possible_left ⟨p, h⟩) hb with h1 | h1
      · exact hs h1
      · exact hd h1
    · have := hi.exited hlife
      rw [this] at hn; cases hn

/-- C59: once the second signal is received nothing keeps `catchSigterm` from cancelling the context and `main` from returning. -/
theorem C59_second_stops (a b : List SigAct) (hl : Alive (a ++ .term2 :: b)) (hn : .stop ∉ b) :
    Possible (a ++ .term2 :: b ++ [.stop, .exit]) := by
  obtain ⟨p, hr, hl⟩ := hl
  have ht := (sigInv hr).trail
  have hpc : p.pc = .stop := by
    have h2 : (SigAct.term2).ofCatcher = true := rfl
    have hn' : .stop ∉ b.filter SigAct.ofCatcher := by rw [mem_catcher rfl]; exact hn
    rw [List.filter_append, List.filter_cons_of_pos h2] at ht
    generalize a.filter _ = a' at ht
    generalize b.filter _ = b' at ht hn'
    generalize hk : a' ++ .term2 :: b' = k at ht
    have hm : .term2 ∈ k := by simp [← hk]
    generalize p.pc = pc at ht
    cases ht
    all_goals first
      | rfl
      | (exfalso; simp at hm; done)
      | (exfalso
         rename_i x hx
         rcases hx with rfl | rfl <;> simp at hm; done)
      | (exfalso
         rename_i x hx
         have hh : [SigAct.clearFlag, .clearMetric, .listen, x, .setFlag, .setMetric] ++ .term2 :: [.stop] = a' ++ .term2 :: b' ∨
           [SigAct.clearFlag, .clearMetric, .listen, x, .setFlag, .setMetric] ++ .term2 :: [.stop, .close] = a' ++ .term2 :: b' := by simp [hk]
         rcases hx with rfl | rfl <;>
         rcases a' with _ | ⟨_, _ | ⟨_, _ | ⟨_, _ | ⟨_, _ | ⟨_, _ | ⟨_, _ | ⟨_, _ | ⟨_, _ | ⟨_, a'⟩⟩⟩⟩⟩⟩⟩⟩⟩ <;> simp at hk <;> simp_all)
  have h1 : process.step p .stop = some { p with pc := .close, cancelled := true } := by simp [process, Proc.step, hl, hpc]
  have h2 : process.step { p with pc := .close, cancelled := true } .exit = some { p with pc := .close, cancelled := true, life := .exited } := by
    simp [process, Proc.step, hl]
  have h3 := LTS.reaches_snoc.2 ⟨_, LTS.reaches_snoc.2 ⟨_, hr, h1⟩, h2⟩
  rw [List.append_assoc] at h3
  exact ⟨_, h3⟩

/-- The usual life of a server: a signal puts it in lame duck, a second one makes it leave. -/
def usualLife : List SigAct :=
  [.health 200, .clearFlag, .clearMetric, .listen, .health 200, .scrape 0, .sigterm, .health 200, .term1, .health 200, .setFlag, .health 500, .scrape 0, .setMetric,
   .scrape 1, .health 500, .sigterm, .sigterm, .term2, .health 500, .stop]

example : Alive usualLife ∧ .cancel ∉ usualLife ∧ .stop ∈ usualLife := ⟨⟨_, rfl, rfl⟩, by decide, by decide⟩
example : Possible (usualLife ++ [.exit]) := ⟨_, rfl⟩
/-- C58: the hypotheses of the theorems hold along this life. -/
example : Possible ([.health 200, .clearFlag, .clearMetric, .listen, .sigterm] ++ .term1 :: [.health 200] ++ .setFlag :: [] ++ [.health 500]) := ⟨_, rfl⟩
example : Alive [.clearFlag, .clearMetric, .listen, .sigterm] ∧ Alive [.clearFlag, .clearMetric, .cancel] := ⟨⟨_, rfl, rfl⟩, ⟨_, rfl, rfl⟩⟩
example : Possible ([.clearFlag, .clearMetric, .listen, .sigterm, .term1, .setFlag] ++ .health 500 :: [] ++ .setMetric :: [] ++ [.scrape 1]) := ⟨_, rfl⟩
/-- Signals coalesce: two that arrive before the first is received count as one. -/
example : Alive [.clearFlag, .clearMetric, .listen, .sigterm, .sigterm, .term1, .setFlag, .setMetric] ∧
    ¬ Possible [.clearFlag, .clearMetric, .listen, .sigterm, .sigterm, .term1, .setFlag, .setMetric, .term2] := by
  refine ⟨⟨_, rfl, rfl⟩, ?_⟩
  rintro ⟨p, hp⟩
  cases hp

/-! ## C72: signals during the shutdown -/

/-- C72 fails: `catchSigterm` closes the channel on return (ndt-server.go:87) without `signal.Stop`, so a third SIGTERM crashes the process while it shuts down. -/
theorem C72_clean_shutdown_false : ¬ ∀ (a : List SigAct) (p : Proc), process.Reaches a p → p.life ≠ .crashed := by
  intro h
  exact h (usualLife ++ [SigAct.close, SigAct.sigterm]) { life := .crashed, pc := .ended, flag := true, metric := 1, registered := true, closed := true, cancelled := true } rfl rfl

/-- C72 as far as it holds: the process crashes only after three signals, or when the context was cancelled by something else, and only when `catchSigterm` has returned. -/
theorem C72_clean_shutdown_partial (a : List SigAct) (p : Proc) (h : process.Reaches a p) (hc : p.life = .crashed) :
    .close ∈ a ∧ (3 ≤ a.count .sigterm ∨ .cancel ∈ a) := by
  have hi := sigInv2 h
  obtain ⟨b, rfl, hb⟩ := hi.crashed hc
  refine ⟨by simp [hb], ?_⟩
  by_cases hcc : .cancel ∈ b ++ [.sigterm]
  · exact .inr hcc
  · left
    rcases close_stop (possible_left ⟨p, h⟩) hb with h1 | h1
    · obtain ⟨x, y, z, h2, h3, h4⟩ := C59_two_signals b (possible_left ⟨p, h⟩) h1 (fun hx => hcc (by simp [hx]))
      have e1 := List.count_pos_iff.2 h3
      have e2 := List.count_pos_iff.2 h4
      subst h2
      simp [List.count_append, List.count_cons]
      omega
    · exact absurd (hi.ended (.inr (by simp [h1]))) hcc

/-! ## C73: signals at the start -/

/-- C73 fails: a SIGTERM that arrives before `catchSigterm` has called `signal.Notify` ends the process at once, without lame duck. -/
theorem C73_one_signal_false : ¬ ∀ (a : List SigAct) (p : Proc), process.Reaches a p → a.count .sigterm ≤ 1 → .cancel ∉ a → p.life = .running := by
  intro h
  have := h [.clearFlag, .clearMetric, .sigterm] _ rfl (by decide) (by decide)
  cases this

/-- C73 as far as it holds: the process is ended by the default action only before `signal.Notify`. -/
theorem C73_one_signal_partial (a : List SigAct) (p : Proc) (h : process.Reaches a p) (hl : .listen ∈ a) : p.life ≠ .killed :=
  fun hk => (sigInv2 h).killed hk hl

example : ∃ p, process.Reaches [.clearFlag, .clearMetric, .listen, .sigterm] p := ⟨_, rfl⟩

end Verif.Props
