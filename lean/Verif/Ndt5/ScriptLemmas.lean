import Verif.Ndt5.WP
import Verif.Spec.Script

/-! # Lemmas about the message script -/

namespace Verif.Ndt5
open Verif.Go Verif.Spec

theorem attempts_append (a b : List Ev) : attempts (a ++ b) = attempts a ++ attempts b := List.filterMap_append

theorem sent_append (a b : List Ev) : sent (a ++ b) = sent a ++ sent b := List.filterMap_append

theorem attempts_nil : attempts [] = [] := rfl

theorem attempts_cons (a : Ev) (b : List Ev) : attempts (a :: b) = (attemptOf a).toList ++ attempts b := by
  unfold attempts
  rw [List.filterMap_cons]
  cases attemptOf a <;> rfl

theorem sent_nil : sent [] = [] := rfl

theorem sent_cons (a : Ev) (b : List Ev) : sent (a :: b) = (sentOf a).toList ++ sent b := by
  unfold sent
  rw [List.filterMap_cons]
  cases sentOf a <;> rfl

theorem notes_append (a b : List Ev) : notes (a ++ b) = notes a ++ notes b := List.filterMap_append

theorem notes_nil : notes [] = [] := rfl

theorem notes_cons (a : Ev) (b : List Ev) : notes (a :: b) = (noteOf a).toList ++ notes b := by
  unfold notes
  rw [List.filterMap_cons]
  cases noteOf a <;> rfl

theorem noCrash_nil : NoCrash [] := by simp [NoCrash]

theorem noCrash_cons (a : Ev) (b : List Ev) : NoCrash (a :: b) ↔ crashed a = false ∧ NoCrash b := by
  simp [NoCrash]

theorem portOf_cons (d : Dir) (a : Ev) (b : List Ev) :
    portOf d (a :: b) = (portAnswer d a).getD (portOf d b) := by
  unfold portOf
  rw [List.findSome?_cons]
  cases portAnswer d a <;> rfl

theorem portOf_nil (d : Dir) : portOf d [] = 0 := rfl

theorem uuidOf_cons (c : ConnId) (a : Ev) (b : List Ev) : uuidOf c (a :: b) = (uuidAnswer c a).getD (uuidOf c b) := by
  unfold uuidOf
  rw [List.findSome?_cons]
  cases uuidAnswer c a <;> rfl

theorem addrsOf_cons (c : ConnId) (a : Ev) (b : List Ev) : addrsOf c (a :: b) = (addrsAnswer c a).getD (addrsOf c b) := by
  unfold addrsOf
  rw [List.findSome?_cons]
  cases addrsAnswer c a <;> rfl

theorem uuidOf_nil (c : ConnId) : uuidOf c [] = [] := rfl

theorem addrsOf_nil (c : ConnId) : addrsOf c [] = ⟨[], 0, [], 0⟩ := rfl

theorem count_append (p : Ev → Bool) (a b : List Ev) : count p (a ++ b) = count p a + count p b := List.countP_append

theorem count_cons (p : Ev → Bool) (a : Ev) (b : List Ev) : count p (a :: b) = count p b + if p a then 1 else 0 := List.countP_cons

theorem count_nil (p : Ev → Bool) : count p [] = 0 := rfl

theorem count_eq_zero {p : Ev → Bool} {a : List Ev} (h : ∀ x ∈ a, p x = false) : count p a = 0 := by
  unfold count
  rw [List.countP_eq_zero]
  intro x hx
  simp [h x hx]

theorem noCrash_append {a b : List Ev} : NoCrash (a ++ b) ↔ NoCrash a ∧ NoCrash b := by
  unfold NoCrash
  constructor
  · intro h
    exact ⟨fun e he => h e (List.mem_append_left _ he), fun e he => h e (List.mem_append_right _ he)⟩
  · rintro ⟨h1, h2⟩ e he
    rcases List.mem_append.1 he with h | h
    · exact h1 e h
    · exact h2 e h

theorem sent_sublist (evs : List Ev) : (sent evs).length ≤ (attempts evs).length := by
  induction evs with
  | nil => exact Nat.le_refl _
  | cons e evs ih =>
    have : sent (e :: evs) = sent [e] ++ sent evs := sent_append [e] evs
    rw [this]
    have : attempts (e :: evs) = attempts [e] ++ attempts evs := attempts_append [e] evs
    rw [this, List.length_append, List.length_append]
    have : (sent [e]).length ≤ (attempts [e]).length := by
      unfold sent attempts
      simp only [List.filterMap_cons, List.filterMap_nil]
      cases e with
      | call q r =>
        cases q with
        | send f =>
          cases r with
          | ok o => cases o <;> simp [attemptOf, sentOf]
          | panic msg => simp [attemptOf, sentOf]
        | _ => simp [attemptOf, sentOf]
      | emit o => simp [attemptOf, sentOf]
      | clock t => simp [attemptOf, sentOf]
    omega

/-- A failed send is an attempt that was not sent. -/
theorem failed_send_counts {evs : List Ev} {b : Bytes} {er : Err} (h : .call (.send b) (.ok (some er)) ∈ evs) :
    (sent evs).length < (attempts evs).length := by
  obtain ⟨x, y, rfl⟩ := List.append_of_mem h
  have h1 := sent_sublist x
  have h2 := sent_sublist y
  rw [sent_append, attempts_append, sent_cons, attempts_cons]
  simp only [sentOf, attemptOf, Option.toList_none, Option.toList_some, List.length_append, List.length_cons, List.length_nil, List.nil_append]
  omega

end Verif.Ndt5

namespace Verif.Spec.OnScript
open Verif.Go Verif.Ndt5
variable {S S₁ S₂ : List Bytes} {e e₁ e₂ : List Ev} {done done' : Prop}

/-- A completed script has no failed attempt. -/
theorem attempts_of_sent (h : OnScript S e done) (hs : sent e = S) : attempts e = S := by
  refine List.IsPrefix.eq_of_length h.isPrefix ?_
  have h1 := sent_sublist e
  rw [hs] at h1
  exact Nat.le_antisymm h.isPrefix.length_le h1

/-- Events that send nothing. -/
theorem nil (hq : attempts e = []) (hs : sent e = []) (hd : done) : OnScript [] e done :=
  ⟨by rw [hq]; exact List.nil_prefix, .inl (by rw [hq, hs]), fun _ => hs, fun _ _ => hd⟩

/-- One script after another. -/
theorem append (h₁ : OnScript S₁ e₁ True) (h₂ : OnScript S₂ e₂ done) : OnScript (S₁ ++ S₂) (e₁ ++ e₂) done := by
  have hs := h₁.complete trivial
  have ha := h₁.attempts_of_sent hs
  refine ⟨?_, ?_, ?_, ?_⟩
  · rw [attempts_append, ha]
    exact (List.prefix_append_right_inj _).2 h₂.isPrefix
  · rw [attempts_append, sent_append, ha, hs]
    rcases h₂.failStop with h | ⟨f, h⟩
    · exact .inl (by rw [h])
    · exact .inr ⟨f, by rw [h, List.append_assoc]⟩
  · intro hd
    rw [sent_append, hs, h₂.complete hd]
  · intro hn h
    rw [sent_append, hs] at h
    exact h₂.converse (noCrash_append.1 hn).2 (List.append_cancel_left h)

/-- A run that ended early keeps to every longer script. -/
theorem stop (h : OnScript S₁ e done) (hne : S₂ ≠ []) (hd : ¬ done') : OnScript (S₁ ++ S₂) e done' := by
  refine ⟨h.isPrefix.trans (List.prefix_append _ _), h.failStop, fun hd' => absurd hd' hd, ?_⟩
  intro _ hs
  have h1 := sent_sublist e
  have h2 := h.isPrefix.length_le
  rw [hs, List.length_append] at h1
  have : S₂.length = 0 := by omega
  exact absurd (List.eq_nil_of_length_eq_zero this) hne

/-- Events that send nothing may follow. -/
theorem quiet (h : OnScript S e₁ done) (ha : attempts e₂ = []) (hs : sent e₂ = []) : OnScript S (e₁ ++ e₂) done := by
  refine ⟨?_, ?_, ?_, ?_⟩
  · rw [attempts_append, ha, List.append_nil]; exact h.isPrefix
  · rw [attempts_append, sent_append, ha, hs, List.append_nil, List.append_nil]; exact h.failStop
  · rw [sent_append, hs, List.append_nil]; exact h.complete
  · rw [sent_append, hs, List.append_nil]; exact fun hn => h.converse (noCrash_append.1 hn).1

/-- Events that send nothing may precede. -/
theorem after (h : OnScript S e₂ done) (ha : attempts e₁ = []) (hs : sent e₁ = []) : OnScript S (e₁ ++ e₂) done := by
  refine ⟨?_, ?_, ?_, ?_⟩
  · rw [attempts_append, ha, List.nil_append]; exact h.isPrefix
  · rw [attempts_append, sent_append, ha, hs, List.nil_append, List.nil_append]; exact h.failStop
  · rw [sent_append, hs, List.nil_append]; exact h.complete
  · rw [sent_append, hs, List.nil_append]; exact fun hn => h.converse (noCrash_append.1 hn).2

/-- Events that sent exactly the script. -/
theorem all (ha : attempts e = S) (hs : sent e = S) : OnScript S e True :=
  ⟨by rw [ha]; exact List.prefix_refl _, .inl (by rw [ha, hs]), fun _ => hs, fun _ _ => trivial⟩

theorem congr (h : OnScript S e done) (hd : done ↔ done') : OnScript S e done' :=
  ⟨h.isPrefix, h.failStop, fun d => h.complete (hd.2 d), fun hn hs => hd.1 (h.converse hn hs)⟩

end Verif.Spec.OnScript

namespace Verif.Ndt5
open Verif.Go Verif.Spec

/-- Evaluate the vocabulary of `Spec.Session` on a concrete list of events. -/
macro "ev_simp" "[" ls:Lean.Parser.Tactic.simpLemma,* "]" : tactic => `(tactic|
  simp [attempts_nil, attempts_cons, sent_nil, sent_cons, notes_nil, notes_cons, noCrash_nil, noCrash_cons, portOf_nil, portOf_cons,
    count_nil, count_cons, attemptOf, sentOf, noteOf, crashed, portAnswer, uuidOf_nil, uuidOf_cons, uuidAnswer, addrsOf_nil, addrsOf_cons, addrsAnswer, opensListener, closesListener, handsConn,
    handsConnAndError, handsNothing, closesConn, countsError, countsResult, countsErrorResult, $ls,*])

end Verif.Ndt5
