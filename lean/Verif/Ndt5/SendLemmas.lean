import Verif.Ndt5.ScriptLemmas

/-! # All executions of `SendMetrics` -/

namespace Verif.Ndt5
open Verif.Go Verif.Spec

section
variable {σ : Type}

theorem sends_append_done {S₁ S₂ : List Bytes} {e₁ e₂ : List Ev} {o : Outcome (Option Err)} (h₁ : Sends S₁ e₁ (.ok none))
    (h₂ : Sends S₂ e₂ o) : Sends (S₁ ++ S₂) (e₁ ++ e₂) o := by
  generalize ho : Outcome.ok none = o₁ at h₁
  induction h₁ with
  | done => exact h₂
  | sent f rest evs out _ ih => exact .sent _ _ _ _ (ih ho)
  | failed f rest e => simp at ho
  | crashed f rest msg => simp at ho

theorem sends_append_failed {S₁ : List Bytes} (S₂ : List Bytes) {e : List Ev} {o : Outcome (Option Err)} (h : Sends S₁ e o)
    (ho : o ≠ .ok none) : Sends (S₁ ++ S₂) e o := by
  induction h with
  | done => exact absurd rfl ho
  | sent f rest evs out _ ih => exact .sent _ _ _ _ (ih ho)
  | failed f rest e => exact .failed _ _ _
  | crashed f rest msg => exact .crashed _ _ _

theorem sends_append_inv {S₁ S₂ : List Bytes} {e : List Ev} {o : Outcome (Option Err)} (h : Sends (S₁ ++ S₂) e o) :
    (∃ e₁ e₂, e = e₁ ++ e₂ ∧ Sends S₁ e₁ (.ok none) ∧ Sends S₂ e₂ o) ∨ (Sends S₁ e o ∧ o ≠ .ok none) := by
  induction S₁ generalizing e with
  | nil => exact .inl ⟨[], e, rfl, .done, h⟩
  | cons f rest ih =>
    cases h with
    | sent f rest' evs out h =>
      rcases ih h with ⟨e₁, e₂, rfl, h1, h2⟩ | ⟨h1, h2⟩
      · exact .inl ⟨_ :: e₁, e₂, rfl, .sent _ _ _ _ h1, h2⟩
      · exact .inr ⟨.sent _ _ _ _ h1, h2⟩
    | failed f rest' er => exact .inr ⟨.failed _ _ _, by simp⟩
    | crashed f rest' msg => exact .inr ⟨.crashed _ _ _, by simp⟩

theorem wp_sendOne (f : Bytes) (s : σ) (P : List Ev → Outcome (Option Err) → σ → Prop) :
    wp (Ask.send f) s P ↔ ∀ e o, Sends [f] e o → P e o s := by
  rw [wp_send]
  constructor
  · rintro ⟨h1, h2⟩ e o h
    cases h with
    | sent f rest evs out h => cases h; exact h1 none
    | failed f rest er => exact h1 (some er)
    | crashed f rest msg => exact h2 msg
  · intro h
    refine ⟨fun a => ?_, fun msg => h _ _ (.crashed _ _ _)⟩
    cases a with
    | none => exact h _ _ (.sent _ _ _ _ .done)
    | some er => exact h _ _ (.failed _ _ _)

mutual
theorem wp_sendField (m : Messager) (pre name : Bytes) (v : MVal) (s : σ) (P : List Ev → Outcome (Option Err) → σ → Prop) :
    wp (sendField m pre name v) s P ↔ ∀ e o, Sends ((metricLine pre name v).map (m.frame MsgType.testMsg)) e o → P e o s := by
  cases v with
  | num text => simp only [sendField, sendMsg, metricLine, List.map_cons, List.map_nil]; exact wp_sendOne _ _ _
  | text text => simp only [sendField, sendMsg, metricLine, List.map_cons, List.map_nil]; exact wp_sendOne _ _ _
  | stringer text => simp only [sendField, sendMsg, metricLine, List.map_cons, List.map_nil]; exact wp_sendOne _ _ _
  | struct fields =>
    simp only [sendField, metricLine]
    exact wp_sendFields m _ fields s P
  | other =>
    simp only [sendField, metricLine, List.map_nil, wp_pure]
    constructor
    · intro h e o hs; cases hs; exact h
    · intro h; exact h _ _ .done

theorem wp_sendFields (m : Messager) (pre : Bytes) (fs : List (Bytes × MVal)) (s : σ)
    (P : List Ev → Outcome (Option Err) → σ → Prop) :
    wp (sendFields m pre fs) s P ↔ ∀ e o, Sends ((metricLines pre fs).map (m.frame MsgType.testMsg)) e o → P e o s := by
  cases fs with
  | nil =>
    simp only [sendFields, metricLines, List.map_nil, wp_pure]
    constructor
    · intro h e o hs; cases hs; exact h
    · intro h; exact h _ _ .done
  | cons f rest =>
    obtain ⟨name, v⟩ := f
    simp only [sendFields, metricLines, List.map_append, wp_bind]
    rw [wp_sendField m pre name v s]
    constructor
    · intro h e o hs
      rcases sends_append_inv hs with ⟨e₁, e₂, rfl, h1, h2⟩ | ⟨h1, h2⟩
      · have := h e₁ _ h1
        simp only at this
        exact (wp_sendFields m pre rest s _).1 this e₂ o h2
      · have := h e o h1
        cases o with
        | panic msg => exact this
        | ok a =>
          cases a with
          | none => exact absurd rfl h2
          | some er => simpa only [wp_pure, List.append_nil] using this
    · intro h e o h1
      cases o with
      | panic msg => exact h _ _ (sends_append_failed _ h1 (by simp))
      | ok a =>
        cases a with
        | none =>
          simp only
          refine (wp_sendFields m pre rest s _).2 ?_
          intro e₂ o₂ h2
          exact h _ _ (sends_append_done h1 h2)
        | some er =>
          simp only [wp_pure, List.append_nil]
          exact h _ _ (sends_append_failed _ h1 (by simp))
end

/-- Sending frames keeps to the script of these frames. -/
theorem sends_onScript {S : List Bytes} {e : List Ev} {o : Outcome (Option Err)} (h : Sends S e o) :
    OnScript S e (o = .ok none) := by
  induction h with
  | done => exact .nil rfl rfl rfl
  | sent f rest evs out h ih =>
    have h1 : OnScript [f] [.call (.send f) (.ok none)] True :=
      ⟨by simp [attempts_cons, attempts_nil, attemptOf], .inl (by simp [attempts_cons, attempts_nil, attemptOf, sent_cons, sent_nil, sentOf]),
        fun _ => by simp [sent_cons, sent_nil, sentOf], fun _ _ => trivial⟩
    exact h1.append ih
  | failed f rest e =>
    refine ⟨?_, .inr ⟨f, ?_⟩, ?_, ?_⟩ <;> simp [attempts_cons, attempts_nil, attemptOf, sent_cons, sent_nil, sentOf]
  | crashed f rest msg =>
    refine ⟨?_, .inr ⟨f, ?_⟩, ?_, ?_⟩ <;> simp [attempts_cons, attempts_nil, attemptOf, sent_cons, sent_nil, sentOf]

/-- Sending frames causes no other events. -/
theorem sends_only {S : List Bytes} {e : List Ev} {o : Outcome (Option Err)} (h : Sends S e o) {Q : Ev → Prop}
    (hQ : ∀ f r, Q (.call (.send f) r)) : ∀ x ∈ e, Q x := by
  induction h with
  | done => simp
  | sent f rest evs out _ ih =>
    intro x hx
    rcases List.mem_cons.1 hx with rfl | hx
    · exact hQ _ _
    · exact ih x hx
  | failed f rest e => intro x hx; rw [List.mem_singleton.1 hx]; exact hQ _ _
  | crashed f rest msg => intro x hx; rw [List.mem_singleton.1 hx]; exact hQ _ _

theorem sends_count {S : List Bytes} {e : List Ev} {o : Outcome (Option Err)} (h : Sends S e o) {p : Ev → Bool}
    (hp : ∀ f r, p (.call (.send f) r) = false) : count p e = 0 := count_eq_zero (sends_only h hp)

/-- An error of sending frames is the error of one send. -/
theorem sends_failed {S : List Bytes} {e : List Ev} {er : Err} (h : Sends S e (.ok (some er))) :
    ∃ f, .call (.send f) (.ok (some er)) ∈ e := by
  generalize ho : Outcome.ok (some er) = o at h
  induction h with
  | done => simp at ho
  | sent f rest evs out _ ih => obtain ⟨g, hg⟩ := ih ho; exact ⟨g, .tail _ hg⟩
  | failed f rest e => injection ho with ho; injection ho with ho; subst ho; exact ⟨f, .head _⟩
  | crashed f rest msg => simp at ho

/-- If nothing crashed, sending returns. -/
theorem sends_noCrash {S : List Bytes} {e : List Ev} {o : Outcome (Option Err)} (h : Sends S e o) :
    NoCrash e ↔ ∃ er, o = .ok er := by
  induction h with
  | done => simp [noCrash_nil]
  | sent f rest evs out _ ih => simpa [noCrash_cons, crashed] using ih
  | failed f rest e => simp [noCrash_cons, noCrash_nil, crashed]
  | crashed f rest msg => simp [noCrash_cons, noCrash_nil, crashed]

end

mutual
theorem metricLines_entries (pre : Bytes) (fields : List (Bytes × MVal)) :
    metricLines pre fields = (metricEntries pre fields).map fun e => e.1 ++ str ": " ++ e.2 ++ [10] := by
  cases fields with
  | nil => simp [metricLines, metricEntries]
  | cons f rest =>
    obtain ⟨name, v⟩ := f
    rw [metricLines, metricEntries, List.map_append, ← metricLines_entries pre rest, ← metricLine_entry pre name v]

theorem metricLine_entry (pre name : Bytes) (v : MVal) :
    metricLine pre name v = (metricEntry pre name v).map fun e => e.1 ++ str ": " ++ e.2 ++ [10] := by
  cases v with
  | num text => simp [metricLine, metricEntry]
  | text text => simp [metricLine, metricEntry]
  | stringer text => simp [metricLine, metricEntry]
  | struct fields => rw [metricLine, metricEntry]; exact metricLines_entries _ fields
  | other => simp [metricLine, metricEntry]
end

mutual
theorem entries_prefix (pre : Bytes) (fields : List (Bytes × MVal)) : ∀ e ∈ metricEntries pre fields, pre <+: e.1 := by
  cases fields with
  | nil => simp [metricEntries]
  | cons f rest =>
    obtain ⟨name, v⟩ := f
    intro e he
    rw [metricEntries, List.mem_append] at he
    rcases he with he | he
    · obtain ⟨t, ht, _⟩ := entry_prefix pre name v e he
      exact ⟨name ++ t, by rw [ht, List.append_assoc]⟩
    · exact entries_prefix pre rest e he

theorem entry_prefix (pre name : Bytes) (v : MVal) : ∀ e ∈ metricEntry pre name v,
    ∃ t, e.1 = pre ++ name ++ t ∧ (t = [] ∨ t.head? = some 46) := by
  cases v with
  | num text => intro e he; simp only [metricEntry, List.mem_singleton] at he; subst he; exact ⟨[], by simp, .inl rfl⟩
  | text text => intro e he; simp only [metricEntry, List.mem_singleton] at he; subst he; exact ⟨[], by simp, .inl rfl⟩
  | stringer text => intro e he; simp only [metricEntry, List.mem_singleton] at he; subst he; exact ⟨[], by simp, .inl rfl⟩
  | struct fields =>
    intro e he
    rw [metricEntry] at he
    obtain ⟨t, ht⟩ := entries_prefix _ fields e he
    exact ⟨str "." ++ t, by rw [← ht]; simp, .inr rfl⟩
  | other => intro e he; simp [metricEntry] at he
end

/-- Two identifiers without dots, followed by nothing or a dot, are the same if the texts are. -/
theorem name_of_path {a b t u : Bytes} (ha : 46 ∉ a) (hb : 46 ∉ b) (ht : t = [] ∨ t.head? = some 46) (hu : u = [] ∨ u.head? = some 46)
    (h : a ++ t = b ++ u) : a = b := by
  have key : ∀ (a t : Bytes), 46 ∉ a → (t = [] ∨ t.head? = some 46) → (a ++ t).takeWhile (· ≠ 46) = a := by
    intro a t ha ht
    rw [List.takeWhile_append_of_pos (by intro x hx; simp; rintro rfl; exact ha hx)]
    rcases ht with rfl | ht
    · simp
    · cases t with
      | nil => simp
      | cons c t => simp at ht; subst ht; simp
  rw [← key a t ha ht, h, key b u hb hu]

mutual
theorem entries_nodup (pre : Bytes) (fields : List (Bytes × MVal)) (h : GoFields fields) :
    ((metricEntries pre fields).map Prod.fst).Nodup ∧
    ∀ e ∈ metricEntries pre fields, ∃ name ∈ fields.map Prod.fst, 46 ∉ name ∧ ∃ t, e.1 = pre ++ name ++ t ∧ (t = [] ∨ t.head? = some 46) := by
  cases fields with
  | nil => simp [metricEntries]
  | cons f rest =>
    obtain ⟨name, v⟩ := f
    obtain ⟨h1, h2, h3, h4⟩ := h
    obtain ⟨ih1, ih2⟩ := entries_nodup pre rest h4
    have hv := entry_nodup pre name v h3
    rw [metricEntries]
    refine ⟨?_, ?_⟩
    · rw [List.map_append, List.nodup_append]
      refine ⟨hv, ih1, ?_⟩
      intro a ha b hb hab
      obtain ⟨e, he, rfl⟩ := List.mem_map.1 ha
      obtain ⟨e', he', rfl⟩ := List.mem_map.1 hb
      obtain ⟨t, ht, ht'⟩ := entry_prefix pre name v e he
      obtain ⟨name', hn, hd, u, hu, hu'⟩ := ih2 e' he'
      rw [ht, hu, List.append_assoc, List.append_assoc] at hab
      exact h2 (name_of_path h1 hd ht' hu' (List.append_cancel_left hab) ▸ hn)
    · intro e he
      rcases List.mem_append.1 he with he | he
      · exact ⟨name, by simp, h1, entry_prefix pre name v e he⟩
      · obtain ⟨n, hn, h⟩ := ih2 e he
        exact ⟨n, by simp at hn ⊢; exact .inr hn, h⟩

theorem entry_nodup (pre name : Bytes) (v : MVal) (h : GoValue v) : ((metricEntry pre name v).map Prod.fst).Nodup := by
  cases v with
  | num text => simp [metricEntry]
  | text text => simp [metricEntry]
  | stringer text => simp [metricEntry]
  | struct fields => rw [metricEntry]; exact (entries_nodup _ fields h).1
  | other => simp [metricEntry]
end

end Verif.Ndt5
