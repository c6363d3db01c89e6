import Verif.Go.Outcome

/-!
# Sequential Go code that talks to its environment

Code that sends, receives, listens, reads the clock, updates counters and may panic is written as a
program `M S σ α`: it has a local state `σ`, ends with an `Outcome α`, and every interaction with the outside is an
*event*. The environment is completely free: a program is a tree branching over all answers the environment
may give, and `Exec m s evs out s'` says that `evs` is the sequence of events of one possible execution.
Theorems about all executions therefore quantify over all behaviours of clients, network, kernel, disk and clock.
-/

namespace Verif.Go

/-- What a program can do: questions with an answer type (calls into the environment), and notifications. -/
structure Sig where
  /-- calls -/
  Q : Type
  /-- type of the answer to a call -/
  A : Q → Type
  /-- notifications, e.g. counter updates -/
  O : Type

/-- One interaction: a call with its outcome (a call may panic), a notification, or a clock reading (in nanoseconds). -/
inductive Event (S : Sig) where
  | call (q : S.Q) (r : Outcome (S.A q))
  | emit (o : S.O)
  | clock (t : Int)

/-- A program as a tree over all answers of the environment. -/
inductive Prog (S : Sig) (β : Type) where
  | ret (b : β)
  | call (q : S.Q) (k : Outcome (S.A q) → Prog S β)
  | emit (o : S.O) (k : Prog S β)
  | clock (k : Int → Prog S β)

namespace Prog
variable {S : Sig} {α β : Type}

/-- Sequencing. -/
def bind : Prog S α → (α → Prog S β) → Prog S β
  | ret a, f => f a
  | call q k, f => call q (fun r => bind (k r) f)
  | emit o k, f => emit o (bind k f)
  | clock k, f => clock (fun t => bind (k t) f)

/-- `Runs p evs b`: one execution of `p` has events `evs` and result `b`. -/
inductive Runs : Prog S β → List (Event S) → β → Prop
  | ret (b : β) : Runs (.ret b) [] b
  | call (q : S.Q) (k : Outcome (S.A q) → Prog S β) (r : Outcome (S.A q)) (evs : List (Event S)) (b : β) :
      Runs (k r) evs b → Runs (.call q k) (.call q r :: evs) b
  | emit (o : S.O) (k : Prog S β) (evs : List (Event S)) (b : β) :
      Runs k evs b → Runs (.emit o k) (.emit o :: evs) b
  | clock (k : Int → Prog S β) (t : Int) (evs : List (Event S)) (b : β) :
      Runs (k t) evs b → Runs (.clock k) (.clock t :: evs) b

/-- Every execution satisfies `P`. -/
def All (P : List (Event S) → β → Prop) : Prog S β → Prop
  | ret b => P [] b
  | call q k => ∀ r, All (fun e b => P (.call q r :: e) b) (k r)
  | emit o k => All (fun e b => P (.emit o :: e) b) k
  | clock k => ∀ t, All (fun e b => P (.clock t :: e) b) (k t)

theorem all_iff {P : List (Event S) → β → Prop} {p : Prog S β} :
    All P p ↔ ∀ evs b, Runs p evs b → P evs b := by
  induction p generalizing P with
  | ret b =>
    constructor
    · intro h evs b' hr; cases hr; exact h
    · intro h; exact h [] b (.ret b)
  | call q k ih =>
    constructor
    · intro h evs b hr
      cases hr with
      | call q k r evs b hr => exact (ih r).1 (h r) evs b hr
    · intro h r
      exact (ih r).2 fun evs b hr => h _ _ (.call q k r evs b hr)
  | emit o k ih =>
    constructor
    · intro h evs b hr
      cases hr with
      | emit o k evs b hr => exact ih.1 h evs b hr
    · intro h
      exact ih.2 fun evs b hr => h _ _ (.emit o k evs b hr)
  | clock k ih =>
    constructor
    · intro h evs b hr
      cases hr with
      | clock k t evs b hr => exact (ih t).1 (h t) evs b hr
    · intro h t
      exact (ih t).2 fun evs b hr => h _ _ (.clock k t evs b hr)

theorem all_bind {P : List (Event S) → β → Prop} {p : Prog S α} {f : α → Prog S β} :
    All P (bind p f) ↔ All (fun e a => All (fun e' b => P (e ++ e') b) (f a)) p := by
  induction p generalizing P with
  | ret a => exact Iff.rfl
  | call q k ih =>
    simp only [bind, All]
    exact forall_congr' fun r => ih r
  | emit o k ih =>
    simp only [bind, All]
    exact ih
  | clock k ih =>
    simp only [bind, All]
    exact forall_congr' fun t => ih t

theorem all_mono {P P' : List (Event S) → β → Prop} {p : Prog S β}
    (h : All P p) (hi : ∀ e b, P e b → P' e b) : All P' p :=
  all_iff.2 fun e b hr => hi e b (all_iff.1 h e b hr)

theorem all_and {P P' : List (Event S) → β → Prop} {p : Prog S β}
    (h : All P p) (h' : All P' p) : All (fun e b => P e b ∧ P' e b) p :=
  all_iff.2 fun e b hr => ⟨all_iff.1 h e b hr, all_iff.1 h' e b hr⟩

/-- Run a program against an environment given as functions of the events so far. -/
def exec (answer : List (Event S) → (q : S.Q) → Outcome (S.A q)) (now : List (Event S) → Int) :
    Prog S β → List (Event S) → List (Event S) × β
  | ret b, h => (h, b)
  | call q k, h => exec answer now (k (answer h q)) (h ++ [.call q (answer h q)])
  | emit o k, h => exec answer now k (h ++ [.emit o])
  | clock k, h => exec answer now (k (now h)) (h ++ [.clock (now h)])

/-- What `exec` computes is an execution. -/
theorem exec_runs (answer : List (Event S) → (q : S.Q) → Outcome (S.A q)) (now : List (Event S) → Int)
    (p : Prog S β) (h : List (Event S)) :
    ∃ evs, (exec answer now p h).1 = h ++ evs ∧ Runs p evs (exec answer now p h).2 := by
  induction p generalizing h with
  | ret b => exact ⟨[], by simp [exec], .ret b⟩
  | call q k ih =>
    obtain ⟨evs, h1, h2⟩ := ih (answer h q) (h ++ [.call q (answer h q)])
    exact ⟨.call q (answer h q) :: evs, by simp [exec, h1], .call q k _ _ _ h2⟩
  | emit o k ih =>
    obtain ⟨evs, h1, h2⟩ := ih (h ++ [.emit o])
    exact ⟨.emit o :: evs, by simp [exec, h1], .emit o k _ _ h2⟩
  | clock k ih =>
    obtain ⟨evs, h1, h2⟩ := ih (now h) (h ++ [.clock (now h)])
    exact ⟨.clock (now h) :: evs, by simp [exec, h1], .clock k _ _ _ h2⟩

/-- `Runs` as a recursive proposition, convenient for writing down a concrete execution. -/
def Follows : Prog S β → List (Event S) → β → Prop
  | ret b', [], b => b' = b
  | call q k, .call q' r :: evs, b => ∃ h : q' = q, Follows (k (h ▸ r)) evs b
  | emit o k, .emit o' :: evs, b => o' = o ∧ Follows k evs b
  | clock k, .clock t :: evs, b => Follows (k t) evs b
  | _, _, _ => False

theorem Follows.runs {p : Prog S β} {evs : List (Event S)} {b : β} (h : Follows p evs b) : Runs p evs b := by
  induction p generalizing evs with
  | ret b' =>
    cases evs with
    | nil => cases h; exact .ret _
    | cons e evs => cases h
  | call q k ih =>
    cases evs with
    | nil => cases h
    | cons e evs =>
      cases e with
      | call q' r => obtain ⟨rfl, h⟩ := h; exact .call _ _ _ _ _ (ih _ h)
      | emit o => cases h
      | clock t => cases h
  | emit o k ih =>
    cases evs with
    | nil => cases h
    | cons e evs =>
      cases e with
      | call q' r => cases h
      | emit o => obtain ⟨rfl, h⟩ := h; exact .emit _ _ _ _ (ih h)
      | clock t => cases h
  | clock k ih =>
    cases evs with
    | nil => cases h
    | cons e evs =>
      cases e with
      | call q' r => cases h
      | emit o => cases h
      | clock t => exact .clock _ _ _ _ (ih t h)

end Prog

/-- Programs with a local state that return or panic. -/
def M (S : Sig) (σ α : Type) : Type := σ → Prog S (Outcome α × σ)

namespace M
variable {S : Sig} {σ α β : Type}

/-- Return. -/
protected def pure (a : α) : M S σ α := fun s => .ret (.ok a, s)

/-- Sequencing: a panic skips the rest. -/
protected def bind (x : M S σ α) (f : α → M S σ β) : M S σ β := fun s =>
  Prog.bind (x s) fun r => match r.1 with
    | .ok a => f a r.2
    | .panic msg => .ret (.panic msg, r.2)

instance : Monad (M S σ) where
  pure := M.pure
  bind := M.bind

/-- `panic(msg)`. -/
def panic (msg : Bytes) : M S σ α := fun s => .ret (.panic msg, s)

/-- A call into the environment; it returns an answer or panics. -/
def call (q : S.Q) : M S σ (S.A q) := fun s => .call q fun r => .ret (r, s)

/-- A notification. -/
def emit (o : S.O) : M S σ Unit := fun s => .emit o (.ret (.ok (), s))

/-- `time.Now()` in nanoseconds. It does not panic. -/
def now : M S σ Int := fun s => .clock fun t => .ret (.ok t, s)

/-- Read the local state. -/
def get : M S σ σ := fun s => .ret (.ok s, s)

/-- Update the local state. -/
def modify (f : σ → σ) : M S σ Unit := fun s => .ret (.ok (), f s)

/-- `defer cleanup()` followed by the rest of the function: the cleanup runs however the rest ends. A panic of the
cleanup replaces the outcome, as in Go. -/
def defer (cleanup : M S σ Unit) (body : M S σ α) : M S σ α := fun s =>
  Prog.bind (body s) fun r => Prog.bind (cleanup r.2) fun c => match c.1 with
    | .ok _ => .ret (r.1, c.2)
    | .panic msg => .ret (.panic msg, c.2)

/-- A deferred function that calls `recover()`: it is run with the panic message, if any, and the enclosing function then
returns normally. -/
def recovering (handler : Option Bytes → M S σ Unit) (body : M S σ Unit) : M S σ Unit := fun s =>
  Prog.bind (body s) fun r => match r.1 with
    | .ok _ => handler none r.2
    | .panic msg => handler (some msg) r.2

/-- Call a function with a local state of its own. -/
def withState {τ : Type} (init : τ) (body : M S τ α) : M S σ α := fun s =>
  Prog.bind (body init) fun r => .ret (r.1, s)

end M

/-- `evs` are the events of one possible execution of `m` from state `s`, which ends with `out` in state `s'`. -/
def Exec {S : Sig} {σ α : Type} (m : M S σ α) (s : σ) (evs : List (Event S)) (out : Outcome α) (s' : σ) : Prop :=
  Prog.Runs (m s) evs (out, s')

/-- A concrete execution: check the given events one by one. -/
macro "follow" : tactic => `(tactic|
  (refine Prog.Follows.runs ?_; repeat (first | exact rfl | refine ⟨rfl, ?_⟩)))

/-! ## Reasoning about all executions -/

section wp
variable {S : Sig} {σ α β : Type}

/-- All executions of `m` from `s` satisfy `P`. -/
def wp (m : M S σ α) (s : σ) (P : List (Event S) → Outcome α → σ → Prop) : Prop :=
  Prog.All (fun e b => P e b.1 b.2) (m s)

theorem wp_iff {m : M S σ α} {s : σ} {P : List (Event S) → Outcome α → σ → Prop} :
    wp m s P ↔ ∀ evs out s', Exec m s evs out s' → P evs out s' := by
  unfold wp Exec
  rw [Prog.all_iff]
  constructor
  · intro h evs out s' hr; exact h evs (out, s') hr
  · intro h evs b hr; exact h evs b.1 b.2 hr

theorem wp_mono {m : M S σ α} {s : σ} {P P' : List (Event S) → Outcome α → σ → Prop}
    (h : wp m s P) (hi : ∀ e o s', P e o s' → P' e o s') : wp m s P' :=
  Prog.all_mono h fun e b => hi e b.1 b.2

theorem wp_and {m : M S σ α} {s : σ} {P P' : List (Event S) → Outcome α → σ → Prop}
    (h : wp m s P) (h' : wp m s P') : wp m s (fun e o s' => P e o s' ∧ P' e o s') :=
  Prog.all_and h h'

theorem wp_pure (a : α) (s : σ) (P : List (Event S) → Outcome α → σ → Prop) :
    wp (pure a : M S σ α) s P = P [] (.ok a) s := rfl

theorem wp_panic (msg : Bytes) (s : σ) (P : List (Event S) → Outcome α → σ → Prop) :
    wp (M.panic msg : M S σ α) s P = P [] (.panic msg) s := rfl

theorem wp_call (q : S.Q) (s : σ) (P : List (Event S) → Outcome (S.A q) → σ → Prop) :
    wp (M.call q) s P = ∀ r, P [.call q r] r s := rfl

theorem wp_emit (o : S.O) (s : σ) (P : List (Event S) → Outcome Unit → σ → Prop) :
    wp (M.emit o) s P = P [.emit o] (.ok ()) s := rfl

theorem wp_now (s : σ) (P : List (Event S) → Outcome Int → σ → Prop) :
    wp M.now s P = ∀ t, P [.clock t] (.ok t) s := rfl

theorem wp_get (s : σ) (P : List (Event S) → Outcome σ → σ → Prop) :
    wp M.get s P = P [] (.ok s) s := rfl

theorem wp_modify (f : σ → σ) (s : σ) (P : List (Event S) → Outcome Unit → σ → Prop) :
    wp (M.modify f) s P = P [] (.ok ()) (f s) := rfl

theorem wp_bind (x : M S σ α) (f : α → M S σ β) (s : σ) (P : List (Event S) → Outcome β → σ → Prop) :
    wp (x >>= f) s P ↔ wp x s (fun e o s' => match o with
      | .ok a => wp (f a) s' (fun e' o' s'' => P (e ++ e') o' s'')
      | .panic msg => P e (.panic msg) s') := by
  show Prog.All _ (Prog.bind (x s) _) ↔ _
  rw [Prog.all_bind]
  unfold wp
  constructor
  · intro h
    refine Prog.all_mono h ?_
    intro e b hb
    obtain ⟨o, s'⟩ := b
    cases o with
    | ok a => exact hb
    | panic msg => simpa [Prog.All] using hb
  · intro h
    refine Prog.all_mono h ?_
    intro e b hb
    obtain ⟨o, s'⟩ := b
    cases o with
    | ok a => exact hb
    | panic msg => simpa [Prog.All] using hb

theorem wp_defer (c : M S σ Unit) (x : M S σ α) (s : σ) (P : List (Event S) → Outcome α → σ → Prop) :
    wp (M.defer c x) s P ↔ wp x s (fun e o s' => wp c s' (fun e' o' s'' => match o' with
      | .ok _ => P (e ++ e') o s''
      | .panic msg => P (e ++ e') (.panic msg) s'')) := by
  show Prog.All _ (Prog.bind (x s) _) ↔ _
  rw [Prog.all_bind]
  unfold wp
  have : ∀ (e : List (Event S)) (b : Outcome α × σ),
      Prog.All (fun e' b => P (e ++ e') b.1 b.2) ((c b.2).bind fun c => match c.1 with
        | .ok _ => .ret (b.1, c.2)
        | .panic msg => .ret (.panic msg, c.2)) ↔
      Prog.All (fun e' b' => match b'.1 with
        | .ok _ => P (e ++ e') b.1 b'.2
        | .panic msg => P (e ++ e') (.panic msg) b'.2) (c b.2) := by
    intro e b
    rw [Prog.all_bind]
    constructor
    · intro h; refine Prog.all_mono h ?_
      intro e' b' hb
      obtain ⟨o, s'⟩ := b'
      cases o <;> simpa [Prog.All] using hb
    · intro h; refine Prog.all_mono h ?_
      intro e' b' hb
      obtain ⟨o, s'⟩ := b'
      cases o <;> simpa [Prog.All] using hb
  constructor
  · intro h; exact Prog.all_mono h fun e b hb => (this e b).1 hb
  · intro h; exact Prog.all_mono h fun e b hb => (this e b).2 hb

theorem wp_recovering (f : Option Bytes → M S σ Unit) (x : M S σ Unit) (s : σ)
    (P : List (Event S) → Outcome Unit → σ → Prop) :
    wp (M.recovering f x) s P ↔ wp x s (fun e o s' => wp (f (match o with
      | .ok _ => none
      | .panic msg => some msg)) s' (fun e' o' s'' => P (e ++ e') o' s'')) := by
  show Prog.All _ (Prog.bind (x s) _) ↔ _
  rw [Prog.all_bind]
  unfold wp
  constructor
  · intro h
    refine Prog.all_mono h ?_
    intro e b hb
    obtain ⟨o, s'⟩ := b
    cases o <;> exact hb
  · intro h
    refine Prog.all_mono h ?_
    intro e b hb
    obtain ⟨o, s'⟩ := b
    cases o <;> exact hb

theorem wp_withState {τ : Type} (init : τ) (x : M S τ α) (s : σ) (P : List (Event S) → Outcome α → σ → Prop) :
    wp (M.withState init x) s P ↔ wp x init (fun e o _ => P e o s) := by
  show Prog.All _ (Prog.bind (x init) _) ↔ _
  rw [Prog.all_bind]
  unfold wp
  simp [Prog.All]

theorem wp_ite (c : Prop) [Decidable c] (x y : M S σ α) (s : σ) (P : List (Event S) → Outcome α → σ → Prop) :
    wp (if c then x else y) s P ↔ (c → wp x s P) ∧ (¬ c → wp y s P) := by
  by_cases h : c <;> simp [h]

end wp

end Verif.Go
