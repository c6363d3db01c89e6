/-!
# Loops driven by their environment

A loop is given by what one iteration does in a state with a given answer of the environment. A script is the list of the answers of
the environment, one for each iteration; an exhausted script means that the loop is still running.
-/

namespace Verif.Go

/-- What an iteration leads to: the events, the new state, and the result if the loop ended. -/
abbrev Iter (E σ R : Type) := List E × σ × Option R

/-- Run a loop on a script. -/
def runScript {A E σ R : Type} (step : σ → A → Iter E σ R) : σ → List A → Iter E σ R
  | s, [] => ([], s, none)
  | s, a :: as =>
    match step s a with
    | (evs, s', some r) => (evs, s', some r)
    | (evs, s', none) => ((evs ++ (runScript step s' as).1), (runScript step s' as).2)

/-- Reasoning about loops: `I` holds between iterations, `F` at the end; both may refer to all events so far. -/
theorem runScript_spec {A E σ R : Type} {step : σ → A → Iter E σ R} {I : List E → σ → Prop} {F : List E → σ → R → Prop}
    (hnext : ∀ h s a evs s', I h s → step s a = (evs, s', none) → I (h ++ evs) s')
    (hend : ∀ h s a evs s' r, I h s → step s a = (evs, s', some r) → F (h ++ evs) s' r) :
    ∀ (as : List A) (h : List E) (s : σ), I h s → ∀ {evs s' o}, runScript step s as = (evs, s', o) →
      (o = none → I (h ++ evs) s') ∧ ∀ r, o = some r → F (h ++ evs) s' r := by
  intro as
  induction as with
  | nil =>
    intro h s hi evs s' o hr
    simp only [runScript, Prod.mk.injEq] at hr
    obtain ⟨rfl, rfl, rfl⟩ := hr
    exact ⟨fun _ => by simpa using hi, by simp⟩
  | cons a as ih =>
    intro h s hi evs s' o hr
    rw [runScript] at hr
    split at hr
    · rename_i e1 s1 r1 h1
      simp only [Prod.mk.injEq] at hr
      obtain ⟨rfl, rfl, rfl⟩ := hr
      exact ⟨by simp, fun r hr => by cases hr; exact hend _ _ _ _ _ _ hi h1⟩
    · rename_i e1 s1 h1
      simp only [Prod.mk.injEq] at hr
      obtain ⟨rfl, h2⟩ := hr
      have := ih (h ++ e1) s1 (hnext _ _ _ _ _ hi h1) (evs := (runScript step s1 as).1) (s' := s') (o := o) (by rw [← h2])
      simpa using this

/-- The same when the whole history satisfies one predicate that also holds at the end. -/
theorem runScript_invariant {A E σ R : Type} {step : σ → A → Iter E σ R} {I : List E → σ → Prop}
    (hstep : ∀ h s a evs s' o, I h s → step s a = (evs, s', o) → I (h ++ evs) s') (as : List A) (h : List E) (s : σ) (hi : I h s)
    {evs s' o} (hr : runScript step s as = (evs, s', o)) : I (h ++ evs) s' := by
  have := runScript_spec (I := I) (F := fun h s _ => I h s) (fun _ _ _ _ _ hi hs => hstep _ _ _ _ _ _ hi hs)
    (fun _ _ _ _ _ _ hi hs => hstep _ _ _ _ _ _ hi hs) as h s hi hr
  cases o with
  | none => exact this.1 rfl
  | some r => exact this.2 r rfl

end Verif.Go
