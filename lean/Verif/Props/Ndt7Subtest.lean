import Verif.Ndt7.Subtest

/-!
# C49, C83: the archival data after the subtest, and the end of the subtest
-/

namespace Verif.Props
open Verif.Go Verif.Ndt7

variable {as bs : List SubAct} {s s' : SubState}

private structure SubInv (s : SubState) : Prop where
  exited : s.cancelled = true → s.r = .exited
  done : s.h = .returned ∨ s.h = .written → s.recvDone = true

macro "sub_cases" h:ident : tactic => `(tactic| (
  simp only [subtest, subStep] at $h:ident
  repeat' split at $h:ident
  all_goals first | (cases $h:ident; done) | (simp only [Option.some.injEq] at $h:ident; subst $h:ident)))

private theorem subInv (h : subtest.Reaches as s) : SubInv s := by
  refine LTS.state_invariant (P := SubInv) ?_ ?_ h
  · constructor <;> simp [subtest]
  · intro s a s' hi hst
    obtain ⟨i1, i2⟩ := hi
    cases a <;> sub_cases hst
    all_goals (constructor <;> simp_all [SubState.recvDone])

/-- C49, partial: if the receiver has ended by itself when `Do` returns, which is the case unless the context has ended, then nothing
changes the archival data afterwards, whatever happens; in particular the file holds it. -/
theorem C49_data_final_partial (h : subtest.Reaches (as ++ [.received]) s) (hc : s.ctxDone = false) (hr : subtest.runFrom s bs = some s') :
    s'.server = s.server ∧ s'.client = s.client ∧ ∀ f, s'.file = some f → f = (s.server, s.client) := by
  have hi := subInv h
  obtain ⟨s0, h0, hst⟩ := LTS.reaches_snoc.1 h
  have hf : s0.file = none ∨ s0.h = .written := by
    refine LTS.state_invariant (P := fun s => s.file = none ∨ s.h = .written) ?_ ?_ h0
    · simp [subtest]
    · intro s a s' hi hst
      cases a <;> sub_cases hst
      all_goals simp_all
  have hh : s.h = .returned ∧ s.file = none := by
    sub_cases hst
    simp_all
  have hcan : s.cancelled = true := by
    have := hi.done (.inl hh.1)
    simpa [SubState.recvDone, hc] using this
  have hex := hi.exited hcan
  have key : s'.r = .exited ∧ (s'.h = .returned ∨ s'.h = .written) ∧ s'.server = s.server ∧ s'.client = s.client ∧
      ∀ f, s'.file = some f → f = (s.server, s.client) := by
    refine LTS.runFrom_invariant (T := subtest) (P := fun t => t.r = .exited ∧ (t.h = .returned ∨ t.h = .written) ∧ t.server = s.server ∧
      t.client = s.client ∧ ∀ f, t.file = some f → f = (s.server, s.client)) ?_ ⟨hex, .inl hh.1, rfl, rfl, by simp [hh.2]⟩ hr
    intro t a t' ht hst
    obtain ⟨t1, t2, t3, t4, t5⟩ := ht
    cases a <;> sub_cases hst
    all_goals simp_all
  exact key.2.2

/-- C49: in any case the server measurements do not change any more, and at most one client measurement is added. -/
theorem C49_at_most_one_more (h : subtest.Reaches (as ++ [.received]) s) (hr : subtest.runFrom s bs = some s') :
    s'.server = s.server ∧ (s'.client = s.client ∨ ∃ m, s'.client = s.client ++ [m]) := by
  have hi := subInv h
  obtain ⟨s0, h0, hst⟩ := LTS.reaches_snoc.1 h
  have hh : s.h = .returned := by sub_cases hst; rfl
  have hd := hi.done (.inl hh)
  have key : (s'.h = .returned ∨ s'.h = .written) ∧ s'.server = s.server ∧ s'.recvDone = true ∧
      (s'.client = s.client ∨ ((∃ m, s'.client = s.client ++ [m]) ∧ (s'.r = .top ∨ s'.r = .returned ∨ s'.r = .exited))) := by
    refine LTS.runFrom_invariant (T := subtest) (P := fun t => (t.h = .returned ∨ t.h = .written) ∧ t.server = s.server ∧ t.recvDone = true ∧
      (t.client = s.client ∨ ((∃ m, t.client = s.client ++ [m]) ∧ (t.r = .top ∨ t.r = .returned ∨ t.r = .exited)))) ?_
      ⟨.inl hh, rfl, hd, .inl rfl⟩ hr
    intro t a t' ht hst
    obtain ⟨t1, t2, t3, t4⟩ := ht
    cases a <;> sub_cases hst
    all_goals simp_all [SubState.recvDone, SubState.rxDone]
  exact ⟨key.2.1, key.2.2.2.imp id And.left⟩

/-- C49 is violated: when the context ends while the receiver works on a message, `Do` returns at once, and the message is added to
the archival data after the result was written (or while it is being written). -/
theorem C49_data_final_false (m : Measurement) : ∃ s s', subtest.Reaches [.check, .message m, .sent, .ctxEnd, .received] s ∧ s.h = .returned ∧
    subtest.runFrom s [.write, .append] = some s' ∧ s'.file = some ([], []) ∧ s'.client = [m] := ⟨_, _, rfl, rfl, rfl, rfl, rfl⟩

/-- The usual course: two measurements on either side, the client closes the connection, the result is written. -/
example (m : Measurement) : ∃ s s', subtest.Reaches ([.record m, .check, .message m, .append, .check, .skip, .record m, .sent, .check, .message m, .append,
      .check, .fail, .cancel] ++ [.received]) s ∧ s.ctxDone = false ∧ subtest.runFrom s [.write, .ctxEnd] = some s' ∧
    s'.file = some ([m, m], [m, m]) := ⟨_, _, rfl, rfl, rfl, rfl⟩

/-! ## C83 -/

/-- A step of the receiver's goroutine. -/
def ofReceiver : SubAct → Bool
  | .check | .message _ | .skip | .fail | .append | .cancel => true
  | _ => false

/-- C83: `Do` never waits for a receiver that has ended, and a receiver that has not ended can always go on. -/
theorem C83_never_stuck (h : subtest.Reaches as s) (hw : s.h = .waiting) :
    (s.r = .exited ∧ ∃ s', subtest.step s .received = some s' ∧ s'.h = .returned) ∨ (s.r ≠ .exited ∧ ∃ a s', ofReceiver a = true ∧ subtest.step s a = some s') := by
  have hi : s.r = .exited → s.cancelled = true := by
    refine LTS.state_invariant (P := fun s => s.r = .exited → s.cancelled = true) ?_ ?_ h
    · simp [subtest]
    · intro s a s' hi hst
      cases a <;> sub_cases hst
      all_goals simp_all
      all_goals (split <;> simp_all)
  cases hr : s.r with
  | exited =>
    refine .inl ⟨rfl, ?_⟩
    simp [subtest, subStep, hw, SubState.recvDone, hi hr]
  | top => exact .inr ⟨by simp, .check, _, rfl, by simp [subtest, subStep, hr]; rfl⟩
  | reading => exact .inr ⟨by simp, .fail, _, rfl, by simp [subtest, subStep, hr]; rfl⟩
  | appending m => exact .inr ⟨by simp, .append, _, rfl, by simp [subtest, subStep, hr]; rfl⟩
  | returned => exact .inr ⟨by simp, .cancel, _, rfl, by simp [subtest, subStep, hr]; rfl⟩

/-- How many steps the receiver has at most before it when its context has ended. -/
private def rank : RPos → Nat
  | .exited => 0 | .returned => 1 | .top => 2 | .appending _ => 3 | .reading => 4

/-- C83: after the end of its context the receiver takes at most four more steps, whatever else happens. -/
theorem C83_receiver_ends (hd : s.ctxDone = true ∨ s.timedOut = true ∨ s.cancelled = true) (hr : subtest.runFrom s bs = some s') :
    (bs.filter ofReceiver).length ≤ 4 := by
  have hd : s.rxDone = true := by simp only [SubState.rxDone, SubState.recvDone]; rcases hd with h | h | h <;> simp [h]
  have key : ∀ (bs : List SubAct) (s : SubState), s.rxDone = true → subtest.runFrom s bs = some s' → (bs.filter ofReceiver).length ≤ rank s.r := by
    intro bs
    induction bs with
    | nil => intro s _ _; simp
    | cons a bs ih =>
      intro s hd hr
      obtain ⟨t, h1, h2⟩ := LTS.runFrom_cons_eq.1 hr
      have ht : t.rxDone = true ∧ (if ofReceiver a then rank t.r + 1 ≤ rank s.r else t.r = s.r) := by
        cases a <;> sub_cases h1
        all_goals simp_all [SubState.rxDone, SubState.recvDone, ofReceiver, rank]
      have := ih t ht.1 h2
      cases ha : ofReceiver a with
      | true => have h3 := ht.2; simp only [ha, if_true] at h3; simp only [List.filter_cons, ha, if_true, List.length_cons]; omega
      | false => have h3 := ht.2; simp only [ha] at h3; simp only [List.filter_cons, ha]; simp at h3; rw [← h3]; simpa using this
  have := key bs s hd hr
  have : rank s.r ≤ 4 := by cases s.r <;> simp [rank]
  omega

/-- C83: after the end of the context of the request, `Do` returns as soon as the sender has returned. -/
theorem C83_returns_after_deadline (hc : s.ctxDone = true) (hw : s.h = .waiting) : ∃ s', subtest.step s .received = some s' ∧ s'.h = .returned := by
  simp [subtest, subStep, hw, SubState.recvDone, hc]

/-- A subtest that waits for a receiver that waits for a message, and the longest end of a receiver. -/
example (m : Measurement) : ∃ s s', subtest.Reaches [.check, .sent] s ∧ s.h = .waiting ∧ s.r ≠ .exited ∧ subtest.runFrom s [.receiverTimeout, .message m, .append, .check, .cancel] = some s' ∧
    s'.r = .exited ∧ subtest.step s' .received ≠ none := ⟨_, _, rfl, rfl, (by intro h; cases h), rfl, rfl, (by intro h; cases h)⟩

end Verif.Props
