/-!
# Concurrent Go code

Code with several goroutines is written as a labelled transition system: the state holds the shared variables and the position
of every goroutine, an action is one atomic step of one goroutine together with what the environment decides at that step, and
`step s a` is the next state, or `none` if the action is not possible in `s`. Theorems about all schedules are theorems
about all sequences of actions. Single reads and writes of shared variables are atomic steps (sequential consistency).
-/

namespace Verif.Go

/-- A transition system with states `σ` and actions `α`. -/
structure LTS (σ α : Type) where
  init : σ
  step : σ → α → Option σ

namespace LTS
variable {σ α : Type} (T : LTS σ α)

/-- The state after a sequence of actions, if all of them are possible. -/
def runFrom (s : σ) : List α → Option σ
  | [] => some s
  | a :: as => (T.step s a).bind fun s' => runFrom s' as

/-- `s` is reached by the actions `as` from the initial state. -/
def Reaches (as : List α) (s : σ) : Prop := T.runFrom T.init as = some s

variable {T}

theorem runFrom_append {s : σ} {as bs : List α} : T.runFrom s (as ++ bs) = (T.runFrom s as).bind fun s' => T.runFrom s' bs := by
  induction as generalizing s with
  | nil => rfl
  | cons a as ih =>
    simp only [List.cons_append, runFrom]
    cases T.step s a with
    | none => rfl
    | some s' => exact ih

theorem runFrom_cons_eq {s s' : σ} {a : α} {as : List α} :
    T.runFrom s (a :: as) = some s' ↔ ∃ t, T.step s a = some t ∧ T.runFrom t as = some s' := by
  simp only [runFrom]
  cases T.step s a <;> simp

theorem runFrom_append_eq {s s' : σ} {as bs : List α} :
    T.runFrom s (as ++ bs) = some s' ↔ ∃ t, T.runFrom s as = some t ∧ T.runFrom t bs = some s' := by
  rw [runFrom_append]
  cases T.runFrom s as <;> simp

theorem reaches_snoc {as : List α} {a : α} {s' : σ} :
    T.Reaches (as ++ [a]) s' ↔ ∃ s, T.Reaches as s ∧ T.step s a = some s' := by
  unfold Reaches
  rw [runFrom_append_eq]
  constructor
  · rintro ⟨t, h1, h2⟩
    rw [runFrom_cons_eq] at h2
    obtain ⟨u, h2, h3⟩ := h2
    cases h3
    exact ⟨t, h1, h2⟩
  · rintro ⟨s, h1, h2⟩
    exact ⟨s, h1, runFrom_cons_eq.2 ⟨s', h2, rfl⟩⟩

/-- Induction over executions: a relation between the actions so far and the state. -/
theorem invariant {P : List α → σ → Prop} (h0 : P [] T.init)
    (hs : ∀ as s a s', T.Reaches as s → P as s → T.step s a = some s' → P (as ++ [a]) s') : ∀ {as s}, T.Reaches as s → P as s := by
  intro as
  have key : ∀ n (as : List α), as.length = n → ∀ s, T.Reaches as s → P as s := by
    intro n
    induction n with
    | zero =>
      intro as hn s h
      cases as with
      | nil => cases h; exact h0
      | cons a as => cases hn
    | succ n ih =>
      intro as hn s h
      rcases List.eq_nil_or_concat as with rfl | ⟨bs, a, rfl⟩
      · cases hn
      · rw [List.concat_eq_append] at h hn ⊢
        obtain ⟨t, h1, h2⟩ := reaches_snoc.1 h
        exact hs bs t a s h1 (ih bs (by simpa using hn) t h1) h2
  intro s h
  exact key _ as rfl s h

/-- Induction over executions for properties of states alone. -/
theorem state_invariant {P : σ → Prop} (h0 : P T.init) (hs : ∀ s a s', P s → T.step s a = some s' → P s') :
    ∀ {as s}, T.Reaches as s → P s :=
  invariant (P := fun _ s => P s) h0 fun _ _ _ _ _ h hst => hs _ _ _ h hst

/-- The same along executions that start anywhere. -/
theorem runFrom_invariant {P : σ → Prop} (hs : ∀ s a s', P s → T.step s a = some s' → P s') :
    ∀ {as s s'}, P s → T.runFrom s as = some s' → P s' := by
  intro as
  induction as with
  | nil => intro s s' h hr; cases hr; exact h
  | cons a as ih =>
    intro s s' h hr
    obtain ⟨t, h1, h2⟩ := runFrom_cons_eq.1 hr
    exact ih (hs _ _ _ h h1) h2

end LTS

end Verif.Go
