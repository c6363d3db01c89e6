import Verif.Spec.Ndt7Page
import Verif.Props.GoodTest
import Mathlib.Tactic.Linarith

/-!
# C100: the upload worker of a page
-/

namespace Verif.Props
open Verif.Go Verif.Ndt7 Verif.Web Verif.Spec

private theorem givenSizes_append (a b : List UpEv) : givenSizes (a ++ b) = givenSizes a ++ givenSizes b := List.filterMap_append
private theorem givenBytes_append (a b : List UpEv) : givenBytes (a ++ b) = givenBytes a + givenBytes b := by simp [givenBytes, givenSizes_append]
private theorem posted_append (a b : List UpEv) : posted (a ++ b) = posted a ++ posted b := List.filterMap_append
private theorem reported_append (a b : List Post) : reportedBytes (a ++ b) = reportedBytes a ++ reportedBytes b := List.filterMap_append
private theorem passedOn_append (a b : List Post) : passedOn (a ++ b) = passedOn a ++ passedOn b := List.filterMap_append

/-- The four ways in which a turn can go. -/
private theorem uploader_cases (c : Bool) (b : Nat) (l : Loop) (t t2 : Rat) :
    (c = true ∧ uploader c b l t t2 = ([], b, none)) ∨
    (c = false ∧ l.end ≤ t ∧ uploader c b l t t2 = ([.close, clientMeasurement l.total b l.start t2], b, none)) ∨
    (c = false ∧ t < l.end ∧ b < 7 * nextSize l b ∧ ∃ ms p, (ms = [] ∨ ms = [clientMeasurement (l.total + nextSize l b) (b + nextSize l b) l.start t2]) ∧
      uploader c b l t t2 = (.send t (nextSize l b) :: ms, b + nextSize l b, some ⟨nextSize l b, l.start, l.end, p, l.total + nextSize l b⟩)) ∨
    (c = false ∧ t < l.end ∧ 7 * nextSize l b ≤ b ∧ ∃ ms p, (ms = [] ∨ ms = [clientMeasurement l.total b l.start t2]) ∧
      uploader c b l t t2 = (ms, b, some ⟨nextSize l b, l.start, l.end, p, l.total⟩)) := by
  cases c
  · right
    by_cases h : l.end ≤ t
    · exact .inl ⟨rfl, h, by simp [uploader, h]⟩
    · right
      have h' : t < l.end := not_le.1 h
      by_cases hb : b < 7 * nextSize l b
      · refine .inl ⟨rfl, h', hb, if l.previous + 250 ≤ t then [clientMeasurement (l.total + nextSize l b) (b + nextSize l b) l.start t2] else [], if l.previous + 250 ≤ t then t else l.previous, ?_, ?_⟩
        · split <;> simp
        · simp [uploader, h, hb]
      · refine .inr ⟨rfl, h', not_lt.1 hb, if l.previous + 250 ≤ t then [clientMeasurement l.total b l.start t2] else [], if l.previous + 250 ≤ t then t else l.previous, ?_, ?_⟩
        · split <;> simp
        · simp [uploader, h, hb]
  · exact .inl ⟨rfl, rfl⟩

private theorem nextSize_or (l : Loop) (b : Nat) : nextSize l b = l.size ∨ (nextSize l b = 2 * l.size ∧ l.size < maxUpload) := by
  unfold nextSize
  split
  · exact .inl rfl
  · split
    · exact .inr ⟨by omega, by omega⟩
    · exact .inl rfl

/-- A size that messages may have. -/
private def Pow (n : Nat) : Prop := ∃ k ≤ 10, n = 8192 * 2 ^ k

private theorem pow_next {l : Loop} {b : Nat} (h : Pow l.size) : Pow (nextSize l b) := by
  rcases nextSize_or l b with h1 | ⟨h1, h2⟩
  · rwa [h1]
  · obtain ⟨k, hk, e⟩ := h
    refine ⟨k + 1, ?_, by rw [h1, e, pow_succ]; omega⟩
    rcases Nat.lt_or_ge k 10 with h | h
    · exact h
    · have : k = 10 := by omega
      subst this
      rw [e] at h2
      exact absurd h2 (by decide)

private def UInv (as : List UpAct) (s : Up) : Prop :=
  (∀ n ∈ givenSizes s.log, Pow n) ∧
  (∀ t n, .send t n ∈ s.log → ∃ start t1 t2, .open start t1 t2 ∈ as ∧ t < start + 10000) ∧
  (∀ l, s.loop = some l → Pow l.size ∧ l.total = givenBytes s.log ∧ .close ∉ s.log ∧ ∃ start t1 t2, .open start t1 t2 ∈ as ∧ l.end = start + 10000 ∧ l.start = start) ∧
  (s.opened = false → s.loop = none ∧ .close ∉ s.log ∧ givenSizes s.log = []) ∧
  (s.closed = false → .post .complete ∉ s.log) ∧
  (∀ a b, s.log = a ++ .close :: b → givenSizes b = [] ∧ .close ∉ b) ∧
  (∀ a b, s.log = a ++ .post .complete :: b → givenSizes b = [] ∧ .close ∉ b ∧ .post .complete ∉ b)

private theorem split_append {α : Type} {l d a b : List α} {x : α} (h : l ++ d = a ++ x :: b) :
    (∃ b', l = a ++ x :: b' ∧ b = b' ++ d) ∨ (∃ a', a = l ++ a' ∧ d = a' ++ x :: b) := by
  rcases List.append_eq_append_iff.1 h with ⟨c, h1, h2⟩ | ⟨c, h1, h2⟩
  · exact .inr ⟨c, h1, h2⟩
  · cases c with
    | nil => exact .inr ⟨[], by simpa using h1.symm, by simpa using h2.symm⟩
    | cons y c =>
      simp only [List.cons_append, List.cons.injEq] at h2
      obtain ⟨rfl, rfl⟩ := h2
      exact .inl ⟨c, h1, rfl⟩

private theorem mem_givenSizes {log : List UpEv} {n : Nat} : n ∈ givenSizes log ↔ ∃ t, .send t n ∈ log := by
  simp only [givenSizes, List.mem_filterMap]
  constructor
  · rintro ⟨x, hx, h⟩
    cases x <;> simp at h
    subst h; exact ⟨_, hx⟩
  · rintro ⟨t, h⟩; exact ⟨_, h, rfl⟩

/-- A turn of the loop keeps the invariant. -/
private theorem uinv_run {as as' : List UpAct} {s : Up} {l : Loop} {t t2 : Rat} {before : List UpEv} (hi : UInv as s) (hsub : ∀ x ∈ as, x ∈ as')
    (hb : ∀ x ∈ before, ∃ p, x = .post p ∧ p ≠ .complete)
    (hl : Pow l.size ∧ l.total = givenBytes s.log ∧ .close ∉ s.log ∧ ∃ start t1 t2, .open start t1 t2 ∈ as' ∧ l.end = start + 10000 ∧ l.start = start) : UInv as' (s.run before l t t2) := by
  obtain ⟨i1, i2, i3, i4, i5, i6, i7⟩ := hi
  obtain ⟨l1, l2, l3, start, u1, u2, l4, l5, l6⟩ := hl
  have hbs : givenSizes before = [] := by
    rw [List.eq_nil_iff_forall_not_mem]
    intro n hn
    obtain ⟨t, ht⟩ := mem_givenSizes.1 hn
    obtain ⟨p, hp, -⟩ := hb _ ht
    cases hp
  have hbc : .close ∉ before := by
    intro h
    obtain ⟨p, hp, -⟩ := hb _ h
    cases hp
  have hbp : .post .complete ∉ before := by
    intro h
    obtain ⟨p, hp, hne⟩ := hb _ h
    cases hp
    exact hne rfl
  have i2' : ∀ t n, .send t n ∈ s.log → ∃ start t1 t2, .open start t1 t2 ∈ as' ∧ t < start + 10000 := by
    intro t n h
    obtain ⟨a, b, c, h1, h2⟩ := i2 t n h
    exact ⟨a, b, c, hsub _ h1, h2⟩
  have hcm : ∀ a b c d, givenSizes [clientMeasurement a b c d] = [] := fun _ _ _ _ => rfl
  have hcc : ∀ a b c d, UpEv.close ∉ [clientMeasurement a b c d] := by simp [clientMeasurement]
  have hcp : ∀ a b c d, UpEv.post .complete ∉ [clientMeasurement a b c d] := by simp [clientMeasurement]
  -- after the log so far there is nothing new that is not allowed
  have key : ∀ d : List UpEv, (s.closed = false ∨ d = []) → .post .complete ∉ d → (∀ a b, d = a ++ .close :: b → givenSizes b = [] ∧ .close ∉ b) →
      (∀ a b, s.log ++ before ++ d = a ++ .close :: b → givenSizes b = [] ∧ .close ∉ b) ∧
      (∀ a b, s.log ++ before ++ d = a ++ .post .complete :: b → givenSizes b = [] ∧ .close ∉ b ∧ .post .complete ∉ b) := by
    intro d hc hp hd
    constructor
    · intro a b h
      rcases split_append h with ⟨b', h1, rfl⟩ | ⟨a', rfl, h1⟩
      · rcases split_append h1 with ⟨b'', h2, rfl⟩ | ⟨a'', rfl, h2⟩
        · exact absurd (h2 ▸ by simp) l3
        · exact absurd (h2 ▸ by simp) hbc
      · exact hd _ _ h1
    · intro a b h
      rcases split_append h with ⟨b', h1, rfl⟩ | ⟨a', rfl, h1⟩
      · rcases split_append h1 with ⟨b'', h2, rfl⟩ | ⟨a'', rfl, h2⟩
        · rcases hc with hc | rfl
          · exact absurd (h2 ▸ by simp) (i5 hc)
          · obtain ⟨j1, j2, j3⟩ := i7 _ _ h2
            simp only [List.append_nil, givenSizes_append, j1, hbs, List.mem_append, j2, hbc, j3, hbp]
            simp
        · exact absurd (h2 ▸ by simp) hbp
      · exact absurd (h1 ▸ by simp) hp
  have h5 : ∀ d : List UpEv, .post .complete ∉ d → s.closed = false → .post .complete ∉ s.log ++ before ++ d := by
    intro d hd hc
    simp only [List.mem_append, i5 hc, hbp, hd]; simp
  rcases uploader_cases s.closed s.buffered l t t2 with ⟨h1, hu⟩ | ⟨h1, h2, hu⟩ | ⟨h1, h2, h3, ms, p, h4, hu⟩ | ⟨h1, h2, h3, ms, p, h4, hu⟩ <;> simp only [Up.run, hu]
  · have k := key [] (.inr rfl) (by simp) (by simp)
    refine ⟨?_, ?_, by simp, by simp, h5 _ (by simp), k.1, k.2⟩
    · simpa [givenSizes_append, hbs] using i1
    · intro t n h
      simp only [List.append_nil, List.mem_append] at h
      rcases h with h | h
      · exact i2' _ _ h
      · exact absurd (mem_givenSizes.2 ⟨_, h⟩) (by simp [hbs])
  · have k := key [.close, clientMeasurement l.total s.buffered l.start t2] (.inl h1) (by simp [clientMeasurement]) (by
      intro a b h
      cases a with
      | nil => simp only [List.nil_append, List.cons.injEq, true_and] at h; subst h; exact ⟨rfl, hcc _ _ _ _⟩
      | cons x a =>
        simp only [List.cons_append, List.cons.injEq] at h
        exact absurd (h.2 ▸ by simp) (hcc l.total s.buffered l.start t2))
    refine ⟨?_, ?_, by simp, by simp, h5 _ (by simp [clientMeasurement]), k.1, k.2⟩
    · rw [givenSizes_append, givenSizes_append, hbs]; simpa [givenSizes, clientMeasurement] using i1
    · intro t n h
      simp only [List.mem_append, List.mem_cons, clientMeasurement, List.not_mem_nil, reduceCtorEq, or_false] at h
      rcases h with h | h
      · exact i2' _ _ h
      · exact absurd (mem_givenSizes.2 ⟨_, h⟩) (by simp [hbs])
  · have hms : givenSizes ms = [] ∧ .close ∉ ms ∧ .post .complete ∉ ms := by
      rcases h4 with rfl | rfl
      · simp [givenSizes]
      · exact ⟨rfl, hcc _ _ _ _, hcp _ _ _ _⟩
    have hsz : givenSizes (s.log ++ before ++ .send t (nextSize l s.buffered) :: ms) = givenSizes s.log ++ [nextSize l s.buffered] := by
      rw [givenSizes_append, givenSizes_append, hbs, List.append_nil]
      congr 1
      show nextSize l s.buffered :: givenSizes ms = _
      rw [hms.1]
    have hncl : .close ∉ UpEv.send t (nextSize l s.buffered) :: ms := by simp [hms]
    have k := key (.send t (nextSize l s.buffered) :: ms) (.inl h1) (by simp [hms]) (by
      intro a b h
      exact absurd (h ▸ by simp) hncl)
    refine ⟨?_, ?_, ?_, by simp, h5 _ (by simp [hms]), k.1, k.2⟩
    · rw [hsz]
      intro n hn
      rcases List.mem_append.1 hn with h | h
      · exact i1 n h
      · rw [List.mem_singleton.1 h]; exact pow_next l1
    · intro t' n h
      simp only [List.mem_append, List.mem_cons, UpEv.send.injEq] at h
      rcases h with (h | h) | ⟨rfl, rfl⟩ | h
      · exact i2' _ _ h
      · exact absurd (mem_givenSizes.2 ⟨_, h⟩) (by simp [hbs])
      · exact ⟨start, u1, u2, l4, l5 ▸ h2⟩
      · exact absurd (mem_givenSizes.2 ⟨_, h⟩) (by simp [hms])
    · rintro l' ⟨⟩
      refine ⟨pow_next l1, ?_, ?_, start, u1, u2, l4, l5, l6⟩
      · simp only [givenBytes, hsz, List.sum_append, List.sum_singleton, l2]
      · simp only [List.mem_append, l3, hbc, hncl]; simp
  · have hms : givenSizes ms = [] ∧ .close ∉ ms ∧ .post .complete ∉ ms := by
      rcases h4 with rfl | rfl
      · simp [givenSizes]
      · exact ⟨rfl, hcc _ _ _ _, hcp _ _ _ _⟩
    have hsz : givenSizes (s.log ++ before ++ ms) = givenSizes s.log := by
      rw [givenSizes_append, givenSizes_append, hbs, hms.1, List.append_nil, List.append_nil]
    have k := key ms (.inl h1) hms.2.2 (by
      intro a b h
      exact absurd (h ▸ by simp) hms.2.1)
    refine ⟨?_, ?_, ?_, by simp, h5 _ hms.2.2, k.1, k.2⟩
    · rwa [hsz]
    · intro t' n h
      simp only [List.mem_append] at h
      rcases h with (h | h) | h
      · exact i2' _ _ h
      · exact absurd (mem_givenSizes.2 ⟨_, h⟩) (by simp [hbs])
      · exact absurd (mem_givenSizes.2 ⟨_, h⟩) (by simp [hms])
    · rintro l' ⟨⟩
      refine ⟨pow_next l1, ?_, ?_, start, u1, u2, l4, l5, l6⟩
      · simp only [givenBytes, hsz, l2]
      · simp only [List.mem_append, l3, hbc, hms]; simp

/-- So does an event at which the worker only posts something. -/
private theorem uinv_post {as as' : List UpAct} {s : Up} {p : Post} (closed : Bool) (hi : UInv as s) (hsub : ∀ x ∈ as, x ∈ as') (hc : closed = false → p ≠ .complete ∧ s.closed = false)
    (hp : p = .complete → s.closed = false) : UInv as' { s with closed := closed, log := s.log ++ [.post p] } := by
  obtain ⟨i1, i2, i3, i4, i5, i6, i7⟩ := hi
  have hsz : givenSizes (s.log ++ [.post p]) = givenSizes s.log := by rw [givenSizes_append]; simp [givenSizes]
  refine ⟨by rwa [hsz], ?_, ?_, ?_, ?_, ?_, ?_⟩
  · intro t n h
    obtain ⟨a, b, c, h1, h2⟩ := i2 t n (by simpa using h)
    exact ⟨a, b, c, hsub _ h1, h2⟩
  · intro l hl
    obtain ⟨h1, h2, h3, a, b, c, h4, h5, h6⟩ := i3 l hl
    exact ⟨h1, by simp only [givenBytes, hsz]; exact h2, by simpa using h3, a, b, c, hsub _ h4, h5, h6⟩
  · intro h
    obtain ⟨h1, h2, h3⟩ := i4 h
    exact ⟨h1, by simpa using h2, by rw [hsz, h3]⟩
  · intro h
    obtain ⟨h1, h2⟩ := hc h
    simp only [List.mem_append, i5 h2, List.mem_singleton, UpEv.post.injEq]
    simpa [eq_comm] using h1
  · intro a b h
    rcases split_append h with ⟨b', h1, rfl⟩ | ⟨a', rfl, h1⟩
    · obtain ⟨j1, j2⟩ := i6 _ _ h1
      rw [givenSizes_append, j1]
      exact ⟨rfl, by simp [j2]⟩
    · cases a' <;> simp at h1
  · intro a b h
    rcases split_append h with ⟨b', h1, rfl⟩ | ⟨a', rfl, h1⟩
    · obtain ⟨j1, j2, j3⟩ := i7 _ _ h1
      have : p ≠ .complete := fun e => i5 (hp e) (h1 ▸ by simp)
      rw [givenSizes_append, j1]
      exact ⟨rfl, by simp [j2], by simp [j3, this.symm]⟩
    · cases a' with
      | nil => simp only [List.nil_append, List.cons.injEq] at h1; obtain ⟨-, rfl⟩ := h1; simp [givenSizes]
      | cons x a' => simp at h1

private theorem uinv {as : List UpAct} {s : Up} (h : uploadWorker.Reaches as s) : UInv as s := by
  refine LTS.invariant (T := uploadWorker) (P := UInv) ?_ ?_ h
  · exact ⟨by simp [uploadWorker, givenSizes], by simp [uploadWorker], by simp [uploadWorker], by simp [uploadWorker, givenSizes], by simp [uploadWorker], by simp [uploadWorker], by simp [uploadWorker]⟩
  · intro as s a s' _ hi hs
    have hsub : ∀ x ∈ as, x ∈ as ++ [a] := fun x hx => by simp [hx]
    cases a with
    | «open» start t t2 =>
      simp only [uploadWorker, upStep] at hs
      split at hs
      · cases hs
      · rename_i ho
        cases hs
        have ho : s.opened = false := by simpa using ho
        obtain ⟨-, -, -, i4, -⟩ := id hi
        obtain ⟨h1, h2, h3⟩ := i4 ho
        refine uinv_run hi hsub (by simp) ⟨⟨0, by omega, rfl⟩, by simp [givenBytes, h3], h2, start, t, t2, by simp, rfl, rfl⟩
    | turn t t2 =>
      simp only [uploadWorker, upStep, Option.map_eq_some_iff] at hs
      obtain ⟨l, hl, rfl⟩ := hs
      obtain ⟨h1, h2, h3, a, b, c, h4, h5, h6⟩ := hi.2.2.1 l hl
      exact uinv_run hi hsub (by simp) ⟨h1, h2, h3, a, b, c, hsub _ h4, h5, h6⟩
    | buffer n =>
      simp only [uploadWorker, upStep, Option.some.injEq] at hs
      subst hs
      obtain ⟨i1, i2, i3, i4, i5, i6, i7⟩ := hi
      refine ⟨i1, ?_, ?_, i4, i5, i6, i7⟩
      · intro t n h
        obtain ⟨a, b, c, h1, h2⟩ := i2 t n h
        exact ⟨a, b, c, hsub _ h1, h2⟩
      · intro l hl
        obtain ⟨h1, h2, h3, a, b, c, h4, h5, h6⟩ := i3 l hl
        exact ⟨h1, h2, h3, a, b, c, hsub _ h4, h5, h6⟩
    | onclose =>
      simp only [uploadWorker, upStep, Option.some.injEq] at hs
      split at hs
      · subst hs
        obtain ⟨i1, i2, i3, i4, i5, i6, i7⟩ := hi
        refine ⟨i1, ?_, ?_, i4, i5, i6, i7⟩
        · intro t n h
          obtain ⟨a, b, c, h1, h2⟩ := i2 t n h
          exact ⟨a, b, c, hsub _ h1, h2⟩
        · intro l hl
          obtain ⟨h1, h2, h3, a, b, c, h4, h5, h6⟩ := i3 l hl
          exact ⟨h1, h2, h3, a, b, c, hsub _ h4, h5, h6⟩
      · rename_i hc
        subst hs
        exact uinv_post true hi hsub (by simp) (fun _ => by simpa using hc)
    | onerror =>
      simp only [uploadWorker, upStep, Option.some.injEq] at hs
      subst hs
      exact uinv_post s.closed hi hsub (fun h => ⟨by simp, h⟩) (by simp)
    | onmessage d =>
      cases d with
      | none =>
        simp only [uploadWorker, upStep, Option.some.injEq] at hs
        subst hs
        obtain ⟨i1, i2, i3, i4, i5, i6, i7⟩ := hi
        refine ⟨i1, ?_, ?_, i4, i5, i6, i7⟩
        · intro t n h
          obtain ⟨a, b, c, h1, h2⟩ := i2 t n h
          exact ⟨a, b, c, hsub _ h1, h2⟩
        · intro l hl
          obtain ⟨h1, h2, h3, a, b, c, h4, h5, h6⟩ := i3 l hl
          exact ⟨h1, h2, h3, a, b, c, hsub _ h4, h5, h6⟩
      | some d =>
        simp only [uploadWorker, upStep, Option.some.injEq] at hs
        subst hs
        exact uinv_post s.closed hi hsub (fun h => ⟨by simp, h⟩) (by simp)

variable {as : List UpAct} {s : Up}

/-- C100: whatever the browser and the network do, every message of the upload has one of eleven sizes, from 8 KiB to 8 MiB by powers of two. -/
theorem C100_sizes (h : uploadWorker.Reaches as s) : ∀ n ∈ givenSizes s.log, ∃ k ≤ 10, n = 8192 * 2 ^ k := (uinv h).1

/-- C100: nothing is sent ten seconds after the start or later. -/
theorem C100_time (h : uploadWorker.Reaches as s) {t : Rat} {n : Nat} (hs : .send t n ∈ s.log) : ∃ start t1 t2, .open start t1 t2 ∈ as ∧ t < start + 10000 :=
  (uinv h).2.1 t n hs

/-- C100: the worker closes the connection at most once and sends nothing after that; it reports the end at most once and neither sends nor closes after that. -/
theorem C100_once (h : uploadWorker.Reaches as s) :
    (∀ a b, s.log = a ++ .close :: b → givenSizes b = [] ∧ .close ∉ b) ∧
    (∀ a b, s.log = a ++ .post .complete :: b → givenSizes b = [] ∧ .close ∉ b ∧ .post .complete ∉ b) :=
  (uinv h).2.2.2.2.2

private theorem open_once (h : uploadWorker.Reaches as s) :
    (s.opened = false → ∀ a b c, .open a b c ∉ as) ∧ ∀ a b c, .open a b c ∈ as → ∀ a' b' c', .open a' b' c' ∈ as → a = a' := by
  refine LTS.invariant (T := uploadWorker) (P := fun as s => (s.opened = false → ∀ a b c, .open a b c ∉ as) ∧ ∀ a b c, .open a b c ∈ as → ∀ a' b' c', .open a' b' c' ∈ as → a = a') ?_ ?_ h
  · simp
  · intro as s a s' _ ⟨h1, h2⟩ hs
    have other : (∀ x y z, a ≠ .open x y z) → (s'.opened = false → s.opened = false) →
        (s'.opened = false → ∀ x y z, .open x y z ∉ as ++ [a]) ∧ ∀ x y z, .open x y z ∈ as ++ [a] → ∀ x' y' z', .open x' y' z' ∈ as ++ [a] → x = x' := by
      intro ha ho
      have : ∀ x y z, UpAct.open x y z ∈ as ++ [a] → UpAct.open x y z ∈ as := by
        intro x y z hx
        rcases List.mem_append.1 hx with h | h
        · exact h
        · exact absurd (List.mem_singleton.1 h).symm (ha _ _ _)
      exact ⟨fun h x y z hx => h1 (ho h) x y z (this _ _ _ hx), fun x y z hx x' y' z' hx' => h2 _ _ _ (this _ _ _ hx) _ _ _ (this _ _ _ hx')⟩
    cases a with
    | «open» start t t2 =>
      simp only [uploadWorker, upStep] at hs
      split at hs
      · cases hs
      · rename_i ho
        cases hs
        have hn := h1 (by simpa using ho)
        refine ⟨by simp [Up.run], ?_⟩
        intro x y z hx x' y' z' hx'
        simp only [List.mem_append, hn, List.mem_singleton, false_or, UpAct.open.injEq] at hx hx'
        rw [hx.1, hx'.1]
    | turn t t2 =>
      refine other (by simp) ?_
      simp only [uploadWorker, upStep, Option.map_eq_some_iff] at hs
      obtain ⟨l, hl, rfl⟩ := hs
      simp [Up.run]
    | buffer n =>
      refine other (by simp) ?_
      simp only [uploadWorker, upStep, Option.some.injEq] at hs
      subst hs; exact fun h => h
    | onclose =>
      refine other (by simp) ?_
      simp only [uploadWorker, upStep, Option.some.injEq] at hs
      subst hs; split <;> exact fun h => h
    | onerror =>
      refine other (by simp) ?_
      simp only [uploadWorker, upStep, Option.some.injEq] at hs
      subst hs; exact fun h => h
    | onmessage d =>
      refine other (by simp) ?_
      cases d <;>
      · simp only [uploadWorker, upStep, Option.some.injEq] at hs
        subst hs; exact fun h => h

private theorem no_turns (h : uploadWorker.Reaches as s) (ho : s.opened = false) : ∀ a ∈ as, (∀ x y z, a ≠ .open x y z) ∧ ∀ x y, a ≠ .turn x y := by
  revert ho
  refine LTS.invariant (T := uploadWorker) (P := fun as s => s.opened = false → ∀ a ∈ as, (∀ x y z, a ≠ .open x y z) ∧ ∀ x y, a ≠ .turn x y) (by simp) ?_ h
  intro as s a s' hre hi hs ho x hx
  have hold : (∀ x y z, a ≠ .open x y z) → (∀ x y, a ≠ .turn x y) → s.opened = false → (∀ y z w, x ≠ .open y z w) ∧ ∀ y z, x ≠ .turn y z := by
    intro h1 h2 h3
    rcases List.mem_append.1 hx with hx | hx
    · exact hi h3 x hx
    · rw [List.mem_singleton.1 hx]; exact ⟨h1, h2⟩
  cases a with
  | «open» start t t2 =>
    simp only [uploadWorker, upStep] at hs
    split at hs
    · cases hs
    · cases hs; simp [Up.run] at ho
  | turn t t2 =>
    simp only [uploadWorker, upStep, Option.map_eq_some_iff] at hs
    obtain ⟨l, hl, rfl⟩ := hs
    simp [Up.run] at ho
  | buffer n =>
    simp only [uploadWorker, upStep, Option.some.injEq] at hs
    subst hs; exact hold (by simp) (by simp) ho
  | onclose =>
    simp only [uploadWorker, upStep, Option.some.injEq] at hs
    subst hs
    refine hold (by simp) (by simp) ?_
    split at ho <;> exact ho
  | onerror =>
    simp only [uploadWorker, upStep, Option.some.injEq] at hs
    subst hs; exact hold (by simp) (by simp) ho
  | onmessage d =>
    cases d <;> simp only [uploadWorker, upStep, Option.some.injEq] at hs <;> subst hs <;> exact hold (by simp) (by simp) ho

/-- C100: the first turn of the loop at which ten seconds are over, or which finds the connection closed, is the last one; in the first case it closes the connection and makes a last measurement. -/
theorem C100_ends (h : uploadWorker.Reaches as s) {t t2 start t0 t1 : Rat} {s' : Up} (hs : upStep s (.turn t t2) = some s') (ho : .open start t0 t1 ∈ as) (he : s.closed = true ∨ start + 10000 ≤ t) :
    s'.loop = none ∧ (s.closed = true → s'.log = s.log) ∧
    (s.closed = false → s'.log = s.log ++ [.close, .post (.client ((t2 - start) / 1000) (givenBytes s.log - s.buffered))]) := by
  simp only [upStep, Option.map_eq_some_iff] at hs
  obtain ⟨l, hl, rfl⟩ := hs
  obtain ⟨h1, h2, h3, a, b, c, h4, h5, h6⟩ := (uinv h).2.2.1 l hl
  rw [(open_once h).2 _ _ _ h4 _ _ _ ho] at h5 h6
  have hcl : ∀ {p : Prop}, s.closed = false → t < l.end → p := by
    intro p c1 c2
    rcases he with he | he
    · rw [c1] at he; cases he
    · exact absurd c2 (not_lt.2 (h5 ▸ he))
  rcases uploader_cases s.closed s.buffered l t t2 with ⟨c1, hu⟩ | ⟨c1, c2, hu⟩ | ⟨c1, c2, -⟩ | ⟨c1, c2, -⟩
  · simp only [Up.run, hu]; simp [c1]
  · simp only [Up.run, hu, List.append_nil]
    refine ⟨trivial, by simp [c1], fun _ => ?_⟩
    rw [← h2, ← h6]; rfl
  · exact hcl c1 c2
  · exact hcl c1 c2

/-- C100: the bytes in a measurement of the client are those that were given to the browser less those that it still holds, and its time is counted from the start. -/
theorem C100_reports (h : uploadWorker.Reaches (as ++ [a]) s') (h0 : uploadWorker.Reaches as s) {d : List Post} (hd : posted s'.log = posted s.log ++ d) {e : Rat} {n : Int} (hm : .client e n ∈ d) :
    n = givenBytes s'.log - s'.buffered ∧ ∃ start b c, .open start b c ∈ as ++ [a] ∧ ((∃ t t2, a = .turn t t2 ∧ e = (t2 - start) / 1000) ∨ ∃ t t2, a = .open start t t2 ∧ e = (t2 - start) / 1000) := by
  obtain ⟨s0, hr, hs⟩ := LTS.reaches_snoc.1 h
  have : s0 = s := by have := hr.symm.trans h0; simpa using this
  subst this
  -- a turn posts only such measurements
  have key : ∀ (l : Loop) (t t2 : Rat) before, givenSizes before = [] → l.total = givenBytes s0.log → posted (s0.run before l t t2).log = posted s0.log ++ d → (∀ x y, .client x y ∉ posted before) →
      n = givenBytes (s0.run before l t t2).log - (s0.run before l t t2).buffered ∧ e = (t2 - l.start) / 1000 := by
    intro l t t2 before hb hl hp hnb
    have hcases : ∀ {total buffered : Nat} {ms : List UpEv}, (ms = [] ∨ ms = [clientMeasurement total buffered l.start t2]) → .client e n ∈ posted ms → n = total - buffered ∧ e = (t2 - l.start) / 1000 := by
      rintro total buffered ms (rfl | rfl) hx
      · simp [posted] at hx
      · simp only [posted, clientMeasurement, List.filterMap_cons, List.filterMap_nil, List.mem_singleton, Post.client.injEq] at hx
        exact ⟨hx.2, hx.1⟩
    rcases uploader_cases s0.closed s0.buffered l t t2 with ⟨c1, hu⟩ | ⟨c1, c2, hu⟩ | ⟨c1, c2, c3, ms, p, c4, hu⟩ | ⟨c1, c2, c3, ms, p, c4, hu⟩ <;>
      simp only [Up.run, hu] at hp ⊢ <;> rw [posted_append, posted_append, List.append_assoc, List.append_cancel_left_eq] at hp <;> subst hp <;> rcases List.mem_append.1 hm with hm | hm
    · exact absurd hm (hnb _ _)
    · simp [posted] at hm
    · exact absurd hm (hnb _ _)
    · obtain ⟨h1, h2⟩ := hcases (total := l.total) (buffered := s0.buffered) (.inr rfl) (by simpa [posted] using hm)
      refine ⟨?_, h2⟩
      rw [h1, hl, givenBytes_append, givenBytes_append]
      have : givenBytes [UpEv.close, clientMeasurement (givenBytes s0.log) s0.buffered l.start t2] = 0 := rfl
      rw [this, givenBytes, givenBytes, hb]
      simp
    · exact absurd hm (hnb _ _)
    · obtain ⟨h1, h2⟩ := hcases c4 (by simpa [posted] using hm)
      refine ⟨?_, h2⟩
      have hms : givenSizes ms = [] := by rcases c4 with rfl | rfl <;> rfl
      have : givenBytes (UpEv.send t (nextSize l s0.buffered) :: ms) = nextSize l s0.buffered := by
        show (nextSize l s0.buffered :: givenSizes ms).sum = _
        rw [hms]; simp
      rw [h1, hl, givenBytes_append, givenBytes_append, this]
      simp [givenBytes, hb]
    · exact absurd hm (hnb _ _)
    · obtain ⟨h1, h2⟩ := hcases c4 hm
      refine ⟨?_, h2⟩
      have hms : givenSizes ms = [] := by rcases c4 with rfl | rfl <;> rfl
      rw [h1, hl, givenBytes_append, givenBytes_append]
      simp [givenBytes, hb, hms]
  have nomore : ∀ {q : List Post}, posted s0.log ++ q = posted s0.log ++ d → .client e n ∉ q → False := by
    intro q hq hn
    rw [List.append_cancel_left_eq] at hq
    exact hn (hq ▸ hm)
  cases a with
  | «open» start t t2 =>
    simp only [uploadWorker, upStep] at hs
    split at hs
    · cases hs
    · rename_i ho
      cases hs
      obtain ⟨-, -, h3⟩ := (uinv h0).2.2.2.1 (by simpa using ho)
      obtain ⟨k1, k2⟩ := key ⟨8192, start, start + 10000, start, 0⟩ t t2 _ rfl (by simp [givenBytes, h3]) hd (by simp [posted])
      exact ⟨k1, start, t, t2, by simp, .inr ⟨t, t2, rfl, k2⟩⟩
  | turn t t2 =>
    simp only [uploadWorker, upStep, Option.map_eq_some_iff] at hs
    obtain ⟨l, hl, rfl⟩ := hs
    obtain ⟨h1, h2, h3, a, b, c, h4, h5, h6⟩ := (uinv h0).2.2.1 l hl
    obtain ⟨k1, k2⟩ := key l t t2 [] rfl h2 hd (by simp [posted])
    exact ⟨k1, a, b, c, by simp [h4], .inl ⟨t, t2, rfl, h6 ▸ k2⟩⟩
  | buffer n =>
    simp only [uploadWorker, upStep, Option.some.injEq] at hs
    subst hs
    exact (nomore (q := []) (by simpa using hd) (by simp)).elim
  | onclose =>
    simp only [uploadWorker, upStep, Option.some.injEq] at hs
    split at hs <;> subst hs
    · exact (nomore (q := []) (by simpa using hd) (by simp)).elim
    · rw [posted_append] at hd
      exact (nomore hd (by simp [posted])).elim
  | onerror =>
    simp only [uploadWorker, upStep, Option.some.injEq] at hs
    subst hs
    rw [posted_append] at hd
    exact (nomore hd (by simp [posted])).elim
  | onmessage x =>
    cases x with
    | none =>
      simp only [uploadWorker, upStep, Option.some.injEq] at hs
      subst hs
      exact (nomore (q := []) (by simpa using hd) (by simp)).elim
    | some x =>
      simp only [uploadWorker, upStep, Option.some.injEq] at hs
      subst hs
      rw [posted_append] at hd
      exact (nomore hd (by simp [posted])).elim

/-- C100: every message of the server is passed on to the page, in order and once. -/
theorem C100_passes_on (h : uploadWorker.Reaches as s) : passedOn (posted s.log) = upGot as := by
  refine LTS.invariant (T := uploadWorker) (P := fun as s => passedOn (posted s.log) = upGot as) rfl ?_ h
  intro as s a s' _ hi hs
  have hrun : ∀ (l : Loop) (t t2 : Rat) before, passedOn (posted before) = [] → passedOn (posted (s.run before l t t2).log) = passedOn (posted s.log) := by
    intro l t t2 before hb
    rcases uploader_cases s.closed s.buffered l t t2 with ⟨c1, hu⟩ | ⟨c1, c2, hu⟩ | ⟨c1, c2, c3, ms, p, c4, hu⟩ | ⟨c1, c2, c3, ms, p, c4, hu⟩ <;>
      simp only [Up.run, hu] <;> rw [posted_append, posted_append, passedOn_append, passedOn_append, hb]
    · simp [posted, passedOn]
    · simp [posted, passedOn, clientMeasurement]
    · rcases c4 with rfl | rfl <;> simp [posted, passedOn, clientMeasurement]
    · rcases c4 with rfl | rfl <;> simp [posted, passedOn, clientMeasurement]
  have hg : upGot (as ++ [a]) = upGot as ++ upGot [a] := List.filterMap_append
  rw [hg, ← hi]
  cases a with
  | «open» start t t2 =>
    simp only [uploadWorker, upStep] at hs
    split at hs
    · cases hs
    · cases hs
      rw [hrun _ _ _ _ rfl]; simp [upGot]
  | turn t t2 =>
    simp only [uploadWorker, upStep, Option.map_eq_some_iff] at hs
    obtain ⟨l, hl, rfl⟩ := hs
    rw [hrun _ _ _ _ rfl]; simp [upGot]
  | buffer n =>
    simp only [uploadWorker, upStep, Option.some.injEq] at hs
    subst hs; simp [upGot]
  | onclose =>
    simp only [uploadWorker, upStep, Option.some.injEq] at hs
    split at hs <;> subst hs
    · simp [upGot]
    · rw [posted_append, passedOn_append]; simp [upGot, posted, passedOn]
  | onerror =>
    simp only [uploadWorker, upStep, Option.some.injEq] at hs
    subst hs
    rw [posted_append, passedOn_append]; simp [upGot, posted, passedOn]
  | onmessage x =>
    cases x <;> simp only [uploadWorker, upStep, Option.some.injEq] at hs <;> subst hs
    · simp [upGot]
    · rw [posted_append, passedOn_append]; simp [upGot, posted, passedOn]

/-! ## In a browser whose `bufferedAmount` can be trusted -/

private def HInv (s : Up) : Prop :=
  (s.opened = false → givenSizes s.log = []) ∧ s.buffered ≤ givenBytes s.log ∧ (∀ n, (givenSizes s.log).getLast? = some n → s.buffered < 8 * n) ∧
  (∀ l, s.loop = some l → (givenSizes s.log).getLast? = some l.size ∧ l.total = givenBytes s.log) ∧
  (reportedBytes (posted s.log)).Pairwise (· ≤ ·) ∧ ∀ x ∈ reportedBytes (posted s.log), 0 ≤ x ∧ x ≤ givenBytes s.log - s.buffered

/-- With 16 messages out and less than 8 in the buffer, the message of double size is sent at once. -/
private theorem next_sent {l : Loop} {b : Nat} (hb : b < 8 * l.size) : b < 7 * nextSize l b ∨ (7 * nextSize l b ≤ b ∧ nextSize l b = l.size) := by
  rcases nextSize_or l b with h | ⟨h, -⟩
  · rw [h]; omega
  · rw [h]; omega

private theorem hinv_run {s : Up} {l : Loop} {t t2 : Rat} {before : List UpEv} (hi : HInv s) (hb : givenSizes before = []) (hp : reportedBytes (posted before) = [])
    (hl : l.total = givenBytes s.log) (hlast : (givenSizes s.log).getLast? = some l.size ∨ (s.buffered = 0 ∧ 0 < l.size)) : HInv (s.run before l t t2) := by
  obtain ⟨i1, i2, i3, i4, i5, i6⟩ := hi
  have hbl : s.buffered < 8 * l.size := by
    rcases hlast with h | ⟨h, h'⟩
    · exact i3 _ h
    · omega
  have hbb : givenBytes before = 0 := by simp [givenBytes, hb]
  have hrep : ∀ {total buffered : Nat} {ms : List UpEv}, (ms = [] ∨ ms = [clientMeasurement total buffered l.start t2]) → (buffered ≤ total) → ((givenBytes s.log : Int) - s.buffered ≤ total - buffered) →
      (reportedBytes (posted (s.log ++ before ++ ms))).Pairwise (· ≤ ·) ∧ ∀ x ∈ reportedBytes (posted (s.log ++ before ++ ms)), 0 ≤ x ∧ x ≤ (total : Int) - buffered := by
    intro total buffered ms hms h1 h2
    rw [posted_append, posted_append, reported_append, reported_append, hp, List.append_nil]
    rcases hms with rfl | rfl
    · simp only [posted, List.filterMap_nil, reportedBytes, List.append_nil]
      exact ⟨i5, fun x hx => ⟨(i6 x hx).1, le_trans (i6 x hx).2 h2⟩⟩
    · have : reportedBytes (posted [clientMeasurement total buffered l.start t2]) = [(total : Int) - buffered] := rfl
      rw [this]
      constructor
      · refine List.pairwise_append.2 ⟨i5, by simp, ?_⟩
        intro x hx y hy
        rw [List.mem_singleton.1 hy]
        exact le_trans (i6 x hx).2 h2
      · intro x hx
        rcases List.mem_append.1 hx with hx | hx
        · exact ⟨(i6 x hx).1, le_trans (i6 x hx).2 h2⟩
        · rw [List.mem_singleton.1 hx]; omega
  rcases uploader_cases s.closed s.buffered l t t2 with ⟨c1, hu⟩ | ⟨c1, c2, hu⟩ | ⟨c1, c2, c3, ms, p, c4, hu⟩ | ⟨c1, c2, c3, ms, p, c4, hu⟩ <;> simp only [Up.run, hu, HInv]
  · have hsz : givenSizes (s.log ++ before ++ []) = givenSizes s.log := by rw [givenSizes_append, givenSizes_append, hb]; simp [givenSizes]
    have hsb : givenBytes (s.log ++ before ++ []) = givenBytes s.log := by rw [givenBytes, hsz]; rfl
    rw [hsz, hsb]
    obtain ⟨k1, k2⟩ := hrep (.inl rfl) i2 le_rfl
    exact ⟨by simp, i2, i3, by simp, k1, k2⟩
  · have hsz : givenSizes (s.log ++ before ++ [.close, clientMeasurement l.total s.buffered l.start t2]) = givenSizes s.log := by
      rw [givenSizes_append, givenSizes_append, hb]; simp [givenSizes, clientMeasurement]
    have hsb : givenBytes (s.log ++ before ++ [.close, clientMeasurement l.total s.buffered l.start t2]) = givenBytes s.log := by rw [givenBytes, hsz]; rfl
    rw [hsz, hsb]
    obtain ⟨k1, k2⟩ := hrep (total := l.total) (buffered := s.buffered) (.inr rfl) (hl ▸ i2) (by rw [hl])
    have hpe : posted (s.log ++ before ++ [.close, clientMeasurement l.total s.buffered l.start t2]) = posted (s.log ++ before ++ [clientMeasurement l.total s.buffered l.start t2]) := by
      rw [posted_append (s.log ++ before), posted_append (s.log ++ before)]; rfl
    rw [hpe]
    exact ⟨by simp, i2, i3, by simp, k1, by rw [← hl]; exact k2⟩
  · have hms : givenSizes ms = [] := by rcases c4 with rfl | rfl <;> rfl
    have hsz : givenSizes (s.log ++ before ++ .send t (nextSize l s.buffered) :: ms) = givenSizes s.log ++ [nextSize l s.buffered] := by
      rw [givenSizes_append, givenSizes_append, hb, List.append_nil]
      congr 1
      show nextSize l s.buffered :: givenSizes ms = _
      rw [hms]
    have hsb : givenBytes (s.log ++ before ++ .send t (nextSize l s.buffered) :: ms) = givenBytes s.log + nextSize l s.buffered := by rw [givenBytes, hsz]; simp [givenBytes]
    rw [hsz, hsb]
    obtain ⟨k1, k2⟩ := hrep c4 (by omega) (by rw [hl]; push_cast; omega)
    have hpe : posted (s.log ++ before ++ .send t (nextSize l s.buffered) :: ms) = posted (s.log ++ before ++ ms) := by
      rw [posted_append, posted_append (s.log ++ before)]; rfl
    rw [hpe]
    refine ⟨by simp, by omega, ?_, ?_, k1, by rw [hl] at k2; exact_mod_cast k2⟩
    · intro n hn
      simp only [List.getLast?_concat, Option.some.injEq] at hn
      omega
    · rintro l' ⟨⟩
      simp [hl]
  · have hms : givenSizes ms = [] := by rcases c4 with rfl | rfl <;> rfl
    have hsz : givenSizes (s.log ++ before ++ ms) = givenSizes s.log := by rw [givenSizes_append, givenSizes_append, hb, hms]; simp
    have hsb : givenBytes (s.log ++ before ++ ms) = givenBytes s.log := by rw [givenBytes, hsz]; rfl
    rw [hsz, hsb]
    obtain ⟨k1, k2⟩ := hrep c4 (hl ▸ i2) (by rw [hl])
    refine ⟨by simp, i2, i3, ?_, k1, by rwa [hl] at k2⟩
    rintro l' ⟨⟩
    rcases next_sent hbl with h | ⟨h, h'⟩
    · omega
    · refine ⟨?_, hl⟩
      rcases hlast with h1 | ⟨h1, h2⟩
      · simpa [h'] using h1
      · simp only [h'] at h; omega

private theorem honest_init {a : UpAct} (h : HonestBuffer (as ++ [a])) : HonestBuffer as := by
  intro before n after s' e
  exact h before n (after ++ [a]) s' (by simp [e])

private theorem hinv (h : uploadWorker.Reaches as s) (hh : HonestBuffer as) : HInv s := by
  refine LTS.invariant (T := uploadWorker) (P := fun as s => HonestBuffer as → HInv s) ?_ ?_ h hh
  · intro _
    simp [HInv, uploadWorker, givenSizes, givenBytes, posted, reportedBytes]
  · intro as s a s' hr ih hs hh
    have hi := ih (honest_init hh)
    obtain ⟨i1, i2, i3, i4, i5, i6⟩ := id hi
    have hpost : ∀ (p : Post) (c : Bool), reportedBytes (posted [.post p]) = [] → HInv { s with closed := c, log := s.log ++ [.post p] } := by
      intro p c hp
      have hsz : givenSizes (s.log ++ [.post p]) = givenSizes s.log := by rw [givenSizes_append]; simp [givenSizes]
      have hsb : givenBytes (s.log ++ [.post p]) = givenBytes s.log := by rw [givenBytes, hsz]; rfl
      simp only [HInv, hsz, hsb]
      rw [posted_append, reported_append, hp, List.append_nil]
      exact ⟨i1, i2, i3, i4, i5, i6⟩
    cases a with
    | «open» start t t2 =>
      simp only [uploadWorker, upStep] at hs
      split at hs
      · cases hs
      · rename_i ho
        cases hs
        have h3 := i1 (by simpa using ho)
        have h4 : givenBytes s.log = 0 := by simp [givenBytes, h3]
        exact hinv_run hi rfl rfl (by simp [h4]) (.inr ⟨by omega, by simp⟩)
    | turn t t2 =>
      simp only [uploadWorker, upStep, Option.map_eq_some_iff] at hs
      obtain ⟨l, hl, rfl⟩ := hs
      exact hinv_run hi rfl rfl (i4 l hl).2 (.inl (i4 l hl).1)
    | buffer n =>
      simp only [uploadWorker, upStep, Option.some.injEq] at hs
      have hn : n ≤ s.buffered := hh as n [] s rfl hr
      subst hs
      refine ⟨i1, by show n ≤ givenBytes s.log; omega, ?_, i4, i5, ?_⟩
      · intro m hm
        have := i3 m hm
        show n < 8 * m
        omega
      · intro x hx
        have := i6 x hx
        refine ⟨this.1, ?_⟩
        show x ≤ (givenBytes s.log : Int) - n
        omega
    | onclose =>
      simp only [uploadWorker, upStep, Option.some.injEq] at hs
      split at hs <;> subst hs
      · exact hi
      · exact hpost .complete true rfl
    | onerror =>
      simp only [uploadWorker, upStep, Option.some.injEq] at hs
      subst hs
      exact hpost .error s.closed rfl
    | onmessage x =>
      cases x <;> simp only [uploadWorker, upStep, Option.some.injEq] at hs <;> subst hs
      · exact hi
      · exact hpost _ s.closed rfl

/-- C100: the browser never holds as much as eight messages of the last size, so never more than 64 MiB less one byte. -/
theorem C100_buffer (h : uploadWorker.Reaches as s) (hh : HonestBuffer as) : (∀ n, (givenSizes s.log).getLast? = some n → s.buffered < 8 * n) ∧ s.buffered ≤ 8 * 8388608 - 1 := by
  obtain ⟨-, i2, i3, -⟩ := hinv h hh
  refine ⟨i3, ?_⟩
  cases hl : (givenSizes s.log).getLast? with
  | none =>
    rw [List.getLast?_eq_none_iff] at hl
    simp only [givenBytes, hl, List.sum_nil, nonpos_iff_eq_zero] at i2
    omega
  | some n =>
    have := i3 n hl
    obtain ⟨k, hk, rfl⟩ := C100_sizes h n (List.mem_of_getLast? hl)
    have : 2 ^ k ≤ 2 ^ 10 := Nat.pow_le_pow_right (by decide) hk
    omega

/-- C100: a message is as long as the one before it, or, exactly if the largest size is not reached and the network has taken sixteen times that much already, twice as long. -/
theorem C100_growth (h : uploadWorker.Reaches as s) (hh : HonestBuffer as) {a : UpAct} {s' : Up} (hs : upStep s a = some s') {n m : Nat} (hn : (givenSizes s.log).getLast? = some n)
    (hm : givenSizes s'.log = givenSizes s.log ++ [m]) : m = if n < 8388608 ∧ s.buffered + 16 * n ≤ givenBytes s.log then 2 * n else n := by
  obtain ⟨i1, i2, i3, i4, i5, i6⟩ := hinv h hh
  have nomore : ∀ {p : List UpEv}, givenSizes p = [] → givenSizes (s.log ++ p) = givenSizes s.log ++ [m] → False := by
    intro p hp e
    rw [givenSizes_append, hp] at e
    simp at e
  cases a with
  | «open» start t t2 =>
    simp only [upStep] at hs
    split at hs
    · cases hs
    · rename_i ho
      rw [i1 (by simpa using ho)] at hn
      cases hn
  | turn t t2 =>
    simp only [upStep, Option.map_eq_some_iff] at hs
    obtain ⟨l, hl, rfl⟩ := hs
    obtain ⟨h1, h2⟩ := i4 l hl
    rw [hn] at h1
    have h1 : n = l.size := by simpa using h1
    subst h1
    have hval : nextSize l s.buffered = if l.size < 8388608 ∧ s.buffered + 16 * l.size ≤ givenBytes s.log then 2 * l.size else l.size := by
      unfold nextSize maxUpload
      rw [h2]
      split
      · rw [if_neg (by omega)]
      · split
        · rw [if_pos (by omega)]; omega
        · rw [if_neg (by omega)]
    rcases uploader_cases s.closed s.buffered l t t2 with ⟨c1, hu⟩ | ⟨c1, c2, hu⟩ | ⟨c1, c2, c3, ms, p, c4, hu⟩ | ⟨c1, c2, c3, ms, p, c4, hu⟩ <;> simp only [Up.run, hu, List.append_nil] at hm
    · simp at hm
    · exact (nomore rfl hm).elim
    · have hms : givenSizes ms = [] := by rcases c4 with rfl | rfl <;> rfl
      rw [givenSizes_append, List.append_cancel_left_eq] at hm
      have : nextSize l s.buffered :: givenSizes ms = [m] := hm
      rw [hms] at this
      rw [← hval]
      simpa using this.symm
    · have hms : givenSizes ms = [] := by rcases c4 with rfl | rfl <;> rfl
      exact (nomore hms hm).elim
  | buffer k =>
    simp only [upStep, Option.some.injEq] at hs
    subst hs
    exact (nomore (p := []) rfl (by simpa using hm)).elim
  | onclose =>
    simp only [upStep, Option.some.injEq] at hs
    split at hs <;> subst hs
    · exact (nomore (p := []) rfl (by simpa using hm)).elim
    · exact (nomore rfl hm).elim
  | onerror =>
    simp only [upStep, Option.some.injEq] at hs
    subst hs
    exact (nomore rfl hm).elim
  | onmessage x =>
    cases x <;> simp only [upStep, Option.some.injEq] at hs <;> subst hs
    · exact (nomore (p := []) rfl (by simpa using hm)).elim
    · exact (nomore rfl hm).elim

/-- C100: a measurement never says more than what has left the browser, never less than the one before it. -/
theorem C100_measurements (h : uploadWorker.Reaches as s) (hh : HonestBuffer as) :
    (reportedBytes (posted s.log)).Pairwise (· ≤ ·) ∧ ∀ x ∈ reportedBytes (posted s.log), 0 ≤ x ∧ x ≤ givenBytes s.log - s.buffered :=
  (hinv h hh).2.2.2.2

/-- C100: the first message has 8 KiB. -/
theorem C100_first (h : uploadWorker.Reaches as s) {n : Nat} {ns : List Nat} (hn : givenSizes s.log = n :: ns) : n = 8192 := by
  suffices hi : (∀ n ns, givenSizes s.log = n :: ns → n = 8192) ∧ (givenSizes s.log = [] → ∀ l, s.loop = some l → l.size = 8192 ∧ l.total = 0) from hi.1 n ns hn
  refine LTS.invariant (T := uploadWorker)
    (P := fun _ s => (∀ n ns, givenSizes s.log = n :: ns → n = 8192) ∧ (givenSizes s.log = [] → ∀ l, s.loop = some l → l.size = 8192 ∧ l.total = 0)) ⟨by simp [uploadWorker, givenSizes], by simp [uploadWorker]⟩ ?_ h
  intro as s a s' hr ⟨h1, h2⟩ hs
  have hrun : ∀ (l : Loop) (t t2 : Rat) before, givenSizes before = [] → (givenSizes s.log = [] → l.size = 8192 ∧ l.total = 0) →
      (∀ n ns, givenSizes (s.run before l t t2).log = n :: ns → n = 8192) ∧ (givenSizes (s.run before l t t2).log = [] → ∀ l', (s.run before l t t2).loop = some l' → l'.size = 8192 ∧ l'.total = 0) := by
    intro l t t2 before hb hl
    have hnx : givenSizes s.log = [] → nextSize l s.buffered = 8192 := by
      intro he
      obtain ⟨e1, e2⟩ := hl he
      unfold nextSize
      rw [e1, e2, if_neg (by decide), if_neg (by push_cast; omega)]
    rcases uploader_cases s.closed s.buffered l t t2 with ⟨c1, hu⟩ | ⟨c1, c2, hu⟩ | ⟨c1, c2, c3, ms, p, c4, hu⟩ | ⟨c1, c2, c3, ms, p, c4, hu⟩ <;>
      simp only [Up.run, hu] <;> rw [givenSizes_append, givenSizes_append, hb, List.append_nil]
    · exact ⟨by simpa [givenSizes] using h1, by simp⟩
    · have : givenSizes [.close, clientMeasurement l.total s.buffered l.start t2] = [] := rfl
      rw [this, List.append_nil]
      exact ⟨h1, by simp⟩
    · have hms : givenSizes (.send t (nextSize l s.buffered) :: ms) = [nextSize l s.buffered] := by rcases c4 with rfl | rfl <;> rfl
      rw [hms]
      refine ⟨?_, by simp⟩
      intro n ns hn
      cases hg : givenSizes s.log with
      | nil =>
        rw [hg] at hn
        simp only [List.nil_append, List.cons.injEq] at hn
        rw [← hn.1, hnx hg]
      | cons x xs =>
        rw [hg] at hn
        simp only [List.cons_append, List.cons.injEq] at hn
        rw [← hn.1]; exact h1 _ _ hg
    · have hms : givenSizes ms = [] := by rcases c4 with rfl | rfl <;> rfl
      rw [hms, List.append_nil]
      refine ⟨h1, ?_⟩
      rintro he l' ⟨⟩
      exact ⟨hnx he, (hl he).2⟩
  have hpost : ∀ (p : Post), givenSizes (s.log ++ [.post p]) = givenSizes s.log := by
    intro p; rw [givenSizes_append]; simp [givenSizes]
  cases a with
  | «open» start t t2 =>
    simp only [uploadWorker, upStep] at hs
    split at hs
    · cases hs
    · cases hs
      exact hrun _ _ _ _ rfl (fun _ => ⟨rfl, rfl⟩)
  | turn t t2 =>
    simp only [uploadWorker, upStep, Option.map_eq_some_iff] at hs
    obtain ⟨l, hl, rfl⟩ := hs
    exact hrun _ _ _ _ rfl (fun he => h2 he l hl)
  | buffer n =>
    simp only [uploadWorker, upStep, Option.some.injEq] at hs
    subst hs; exact ⟨h1, h2⟩
  | onclose =>
    simp only [uploadWorker, upStep, Option.some.injEq] at hs
    split at hs <;> subst hs
    · exact ⟨h1, h2⟩
    · simp only [hpost]; exact ⟨h1, h2⟩
  | onerror =>
    simp only [uploadWorker, upStep, Option.some.injEq] at hs
    subst hs
    simp only [hpost]; exact ⟨h1, h2⟩
  | onmessage x =>
    cases x <;> simp only [uploadWorker, upStep, Option.some.injEq] at hs <;> subst hs
    · exact ⟨h1, h2⟩
    · simp only [hpost]; exact ⟨h1, h2⟩
/-! ## What a turn does -/

private theorem previous_inv (h : uploadWorker.Reaches as s) : ∀ l, s.loop = some l → l.previous = lastQuarter l.start (turnTimes as) := by
  refine LTS.invariant (T := uploadWorker) (P := fun as s => ∀ l, s.loop = some l → l.previous = lastQuarter l.start (turnTimes as)) (by simp [uploadWorker]) ?_ h
  intro as s a s' hre hi hs l' hl'
  have ht : turnTimes (as ++ [a]) = turnTimes as ++ turnTimes [a] := List.filterMap_append
  have hrun : ∀ (l : Loop) (t t2 : Rat) before ts, l.previous = lastQuarter l.start ts → (s.run before l t t2).loop = some l' → l'.previous = lastQuarter l'.start (ts ++ [t]) := by
    intro l t t2 before ts hl h
    simp only [Up.run, uploader] at h
    split at h
    · cases h
    · split at h
      · cases h
      · simp only [Option.some.injEq] at h
        subst h
        simp [lastQuarter, List.foldl_append, hl]
  cases a with
  | «open» start t t2 =>
    simp only [uploadWorker, upStep] at hs
    split at hs
    · cases hs
    · rename_i ho
      cases hs
      have : turnTimes as = [] := by
        rw [List.eq_nil_iff_forall_not_mem]
        intro x hx
        obtain ⟨y, hy, e⟩ := List.mem_filterMap.1 hx
        have := no_turns hre (by simpa using ho) y hy
        cases y <;> simp_all
      rw [ht, this]
      exact hrun _ t t2 _ [] rfl hl'
  | turn t t2 =>
    simp only [uploadWorker, upStep, Option.map_eq_some_iff] at hs
    obtain ⟨l, hl, rfl⟩ := hs
    rw [ht]
    exact hrun _ t t2 _ _ (hi l hl) hl'
  | buffer n =>
    simp only [uploadWorker, upStep, Option.some.injEq] at hs
    subst hs
    rw [ht]; simpa [turnTimes] using hi l' hl'
  | onclose =>
    simp only [uploadWorker, upStep, Option.some.injEq] at hs
    subst hs
    rw [ht]
    refine (hi l' ?_).trans (by simp [turnTimes])
    split at hl' <;> exact hl'
  | onerror =>
    simp only [uploadWorker, upStep, Option.some.injEq] at hs
    subst hs
    rw [ht]; simpa [turnTimes] using hi l' hl'
  | onmessage d =>
    cases d <;> simp only [uploadWorker, upStep, Option.some.injEq] at hs <;> subst hs <;> rw [ht] <;> simpa [turnTimes] using hi l' hl'

/-- C100: what a turn of the loop does while the ten seconds last and the connection is open: with `m` the size of the next message, it sends it if less than seven such messages are in the browser, and makes a measurement if the last
one, or else the start, is 250 ms ago; and there will be another turn. -/
theorem C100_turn (h : uploadWorker.Reaches as s) (hh : HonestBuffer as) {t t2 start t0 t1 : Rat} {s' : Up} (hs : upStep s (.turn t t2) = some s') (ho : .open start t0 t1 ∈ as) (hc : s.closed = false)
    (ht : t < start + 10000) : ∃ n m, (givenSizes s.log).getLast? = some n ∧ m = grown n (givenBytes s.log) s.buffered ∧ s'.loop.isSome ∧
      s'.buffered = (if s.buffered < 7 * m then s.buffered + m else s.buffered) ∧
      s'.log = s.log ++ (if s.buffered < 7 * m then [.send t m] else []) ++
        (if lastQuarter start (turnTimes as) + 250 ≤ t then [.post (.client ((t2 - start) / 1000) (givenBytes s'.log - s'.buffered))] else []) := by
  have hs0 := hs
  simp only [upStep, Option.map_eq_some_iff] at hs
  obtain ⟨l, hl, rfl⟩ := hs
  obtain ⟨-, h2, -, a, b, c, h4, h5, h6⟩ := (uinv h).2.2.1 l hl
  rw [(open_once h).2 _ _ _ h4 _ _ _ ho] at h5 h6
  obtain ⟨-, -, -, i4, -⟩ := hinv h hh
  obtain ⟨k1, -⟩ := i4 l hl
  have hp := previous_inv h l hl
  rw [h6] at hp
  have hm : nextSize l s.buffered = grown l.size (givenBytes s.log) s.buffered := by
    rw [← h2]
    unfold nextSize grown maxUpload
    split
    · rw [if_neg (by omega)]
    · split
      · rw [if_pos (by omega)]; omega
      · rw [if_neg (by omega)]
  have hend : ¬ t ≥ l.end := by rw [h5]; exact not_le.2 ht
  have hlog : (s.run [] l t t2).log = s.log ++ (if s.buffered < 7 * nextSize l s.buffered then [.send t (nextSize l s.buffered)] else []) ++
      (if l.previous + 250 ≤ t then [clientMeasurement (if s.buffered < 7 * nextSize l s.buffered then l.total + nextSize l s.buffered else l.total)
        (if s.buffered < 7 * nextSize l s.buffered then s.buffered + nextSize l s.buffered else s.buffered) l.start t2] else []) := by
    simp [Up.run, uploader, hc, hend]
  have hbuf : (s.run [] l t t2).buffered = if s.buffered < 7 * nextSize l s.buffered then s.buffered + nextSize l s.buffered else s.buffered := by
    simp [Up.run, uploader, hc, hend]
  refine ⟨l.size, nextSize l s.buffered, k1, hm, by simp [Up.run, uploader, hc, hend], hbuf, ?_⟩
  have hgb : givenBytes (s.run [] l t t2).log = if s.buffered < 7 * nextSize l s.buffered then l.total + nextSize l s.buffered else l.total := by
    rw [hlog, givenBytes_append, givenBytes_append, ← h2]
    have : ∀ (p : Prop) [Decidable p] x y z w, givenBytes (if p then [clientMeasurement x y z w] else []) = 0 := by
      intro p _ x y z w
      split <;> rfl
    rw [this]
    split <;> simp [givenBytes, givenSizes]
  rw [hgb, hbuf, hlog, hp, h6]
  congr 1

/-- C100: when the connection opens, the start is posted, the first 8 KiB are sent, and the loop begins, if the clock does not jump over the end. -/
theorem C100_opens (h : uploadWorker.Reaches as s) (hh : HonestBuffer as) {t t2 start : Rat} {s' : Up} (hs : upStep s (.open start t t2) = some s') (hc : s.closed = false) (ht : t < start + 10000) :
    s'.loop.isSome ∧ s'.log = s.log ++ [.post (startPost start), .send t 8192] ++ (if start + 250 ≤ t then [.post (.client ((t2 - start) / 1000) (givenBytes s'.log - s'.buffered))] else []) := by
  simp only [upStep] at hs
  split at hs
  · cases hs
  · rename_i ho
    cases hs
    obtain ⟨i1, i2, -⟩ := hinv h hh
    have hz : givenBytes s.log = 0 := by simp [givenBytes, i1 (by simpa using ho)]
    have hb : s.buffered = 0 := by omega
    have hend : ¬ start + 10000 ≤ t := not_le.2 ht
    have hn : nextSize ⟨8192, start, start + 10000, start, 0⟩ 0 = 8192 := by simp [nextSize, maxUpload]
    have hlog : (s.run [.post (startPost start)] ⟨8192, start, start + 10000, start, 0⟩ t t2).log = s.log ++ [.post (startPost start), .send t 8192] ++ (if start + 250 ≤ t then [clientMeasurement 8192 8192 start t2] else []) := by
      simp [Up.run, uploader, hc, hend, hb, hn]
    have hbuf : (s.run [.post (startPost start)] ⟨8192, start, start + 10000, start, 0⟩ t t2).buffered = 8192 := by
      simp [Up.run, uploader, hc, hend, hb, hn]
    refine ⟨by simp [Up.run, uploader, hc, hend], ?_⟩
    change (s.run [.post (startPost start)] ⟨8192, start, start + 10000, start, 0⟩ t t2).log = _ ++ (if start + 250 ≤ t then [.post (.client ((t2 - start) / 1000) (givenBytes (s.run [.post (startPost start)] ⟨8192, start, start + 10000, start, 0⟩ t t2).log - (s.run [.post (startPost start)] ⟨8192, start, start + 10000, start, 0⟩ t t2).buffered))] else [])
    have hgb : givenBytes (s.run [.post (startPost start)] ⟨8192, start, start + 10000, start, 0⟩ t t2).log = 8192 := by
      rw [hlog, givenBytes_append, givenBytes_append, hz]
      split <;> simp [givenBytes, givenSizes, clientMeasurement]
    rw [hgb, hbuf, hlog]
    rfl

private theorem notices_append (a b : List Post) : notices (a ++ b) = notices a ++ notices b := List.filter_append ..

private theorem notices_uploader (c : Bool) (b : Nat) (l : Loop) (t t2 : Rat) : notices (posted (uploader c b l t t2).1) = [] := by
  unfold uploader
  split
  · rfl
  · split
    · rfl
    · simp only [posted_append, notices_append]
      split <;> split <;> rfl

private theorem told_run : ∀ (as : List UpAct) (s z : Up), uploadWorker.runFrom s as = some z → notices (posted z.log) = notices (posted s.log) ++ upTold as s.closed := by
  intro as
  induction as with
  | nil => intro s z h; simp only [LTS.runFrom, Option.some.injEq] at h; subst h; simp [upTold]
  | cons a as ih =>
    intro s z h
    obtain ⟨s1, hs, h⟩ := LTS.runFrom_cons_eq.1 h
    rw [ih _ _ h]
    cases a with
    | «open» start t t2 =>
      simp only [uploadWorker, upStep] at hs
      split at hs
      · cases hs
      · cases hs
        simp only [Up.run, posted_append, notices_append, notices_uploader, upTold, List.append_nil, List.append_assoc]
        rfl
    | turn t t2 =>
      simp only [uploadWorker, upStep, Option.map_eq_some_iff] at hs
      obtain ⟨l, hl, rfl⟩ := hs
      simp [Up.run, posted_append, notices_append, notices_uploader, upTold]
    | buffer n =>
      simp only [uploadWorker, upStep, Option.some.injEq] at hs
      subst hs; simp [upTold]
    | onclose =>
      simp only [uploadWorker, upStep, Option.some.injEq] at hs
      subst hs
      cases hc : s.closed <;> simp [hc, upTold, posted_append, notices_append, posted, notices]
    | onerror =>
      simp only [uploadWorker, upStep, Option.some.injEq] at hs
      subst hs; simp [upTold, posted_append, notices_append, posted, notices]
    | onmessage d =>
      cases d <;> simp only [uploadWorker, upStep, Option.some.injEq] at hs <;> subst hs <;> simp [upTold, posted_append, notices_append, posted, notices]

/-- C100: the page is told of the start when the connection opens, of every error that the browser reports, and of the end the first time that it reports the connection closed; of nothing else but measurements. -/
theorem C100_told (h : uploadWorker.Reaches as s) : notices (posted s.log) = upTold as false := by
  simpa [uploadWorker, posted, notices] using told_run as _ _ h



/-! ## And the server -/

private theorem arriving_ok {n : Nat} (h : ∃ k ≤ 10, n = 8192 * 2 ^ k) : arriving n = .binary := by
  obtain ⟨k, hk, rfl⟩ := h
  have : 2 ^ k ≤ 2 ^ 10 := Nat.pow_le_pow_right (by decide) hk
  unfold arriving maxMessageSize
  rw [if_neg]
  have : (1 : Nat) <<< 24 = 16777216 := rfl
  omega

/-- What the server's receiver gets from the worker is a binary message or the end of the connection. -/
private theorem incoming_of (h : uploadWorker.Reaches as s) {ts : List TAct} (hf : FromWorker (givenSizes s.log) ts) {ps : List Pong} {i : Incoming} (hi : .rxNext ps i ∈ ts) :
    i = .binary ∨ ∃ e, i = .broken e := by
  obtain ⟨k, tail, h1, h2⟩ := hf.messages
  have hm : i ∈ ((givenSizes s.log).take k).map arriving ++ tail := by
    rw [← h1]
    exact List.mem_filterMap.2 ⟨_, hi, rfl⟩
  rcases List.mem_append.1 hm with hm | hm
  · obtain ⟨n, hn, rfl⟩ := List.mem_map.1 hm
    exact .inl (arriving_ok (C100_sizes h n (List.mem_of_mem_take hn)))
  · rcases h2 with rfl | ⟨e, rfl⟩
    · simp at hm
    · exact .inr ⟨e, List.mem_singleton.1 hm⟩

/-- C100: to the server the worker is a client that keeps to the protocol: none of its messages is too long, none is a text, and its pongs are answers to pings. -/
theorem C100_keeps (h : uploadWorker.Reaches as s) {ts : List TAct} (hf : FromWorker (givenSizes s.log) ts) (measurement : Bytes → Prop) : ∀ a ∈ ts, clientKept .upload measurement a := by
  intro a ha
  cases a with
  | rxNext ps i =>
    refine ⟨?_, ?_⟩
    · intro p hp
      obtain ⟨t, ht, e⟩ := hf.pongs ps i ha p hp
      have := C95_pong ht p.at'
      rw [← e] at this
      exact this
    · rcases incoming_of h hf ha with rfl | ⟨e, rfl⟩ <;> trivial
  | _ => trivial

/-- C100: the server never counts the worker under an error: it stops receiving because the connection was closed or because the time is up, and the result has no measurements of the client, because the worker sends none. -/
theorem C100_server (h : uploadWorker.Reaches as s) {c : TestCfg} (hk : c.kind = .upload) {ts : List TAct} {z : TestState} (hz : (test c).Reaches (ts ++ [.write]) z) (hw : ∀ a ∈ ts, testWorked a)
    (hf : FromWorker (givenSizes s.log) ts) {e : SubtestEnd} (he : z.file = some e) :
    (z.heard = [] ∨ z.heard = [.setDeadline none] ∨ HeardOut c ts z.heard) ∧ (.ctxEnd ∉ ts → HeardOut c ts z.heard) ∧ e.clientMeasurements = [] := by
  obtain ⟨h1, h2, h3⟩ := C95_client hz hw (by rw [hk]; exact C100_keeps h hf _) he
  refine ⟨h1, h2, ?_⟩
  have ht : clientTexts ts = [] := by
    rw [List.eq_nil_iff_forall_not_mem]
    intro b hb
    obtain ⟨a, ha, hab⟩ := List.mem_filterMap.1 hb
    cases a with
    | rxNext ps i =>
      rcases incoming_of h hf ha with rfl | ⟨e, rfl⟩ <;> simp at hab
    | _ => simp at hab
  rw [ht] at h3
  rcases h3 with h3 | ⟨-, y, h3⟩
  · simpa using h3.symm
  · simp at h3

/-! ## Examples -/

private theorem reach_of {as : List UpAct} {log : List UpEv} (h : ((uploadWorker.runFrom uploadWorker.init as).map (·.log)) = some log) : ∃ s, uploadWorker.Reaches as s ∧ s.log = log := by
  obtain ⟨s, hs, hl⟩ := Option.map_eq_some_iff.1 h
  exact ⟨s, hs, hl⟩

/-- A short upload: two messages, a message of the server, the end. -/
def exUp : List UpAct := [.open 100 100 100, .buffer 0, .onmessage (some (str "{}")), .turn 400 401, .buffer 0, .turn 10100 10101, .onclose]

theorem exUp_reach : ∃ s, uploadWorker.Reaches exUp s ∧ s.log =
    [.post (.start (1/10) (some (101/10))), .send 100 8192, .post (.server (str "{}")), .send 400 8192, .post (.client (301/1000) 8192), .close, .post (.client (10001/1000) 16384), .post .complete] :=
  reach_of (by decide +kernel)

/-- The same in a browser with a long message queue: seventeen turns, in which the sizes are doubled. -/
def exUpFast : List UpAct := .open 0 0 0 :: (List.range 17).flatMap fun i => [.buffer 0, .turn i i]

theorem exUpFast_reach : ∃ s, uploadWorker.Reaches exUpFast s ∧ givenSizes s.log = List.replicate 16 8192 ++ [16384, 16384] := by
  have h : (uploadWorker.runFrom uploadWorker.init exUpFast).map (fun s => givenSizes s.log) = some (List.replicate 16 8192 ++ [16384, 16384]) := by decide +kernel
  obtain ⟨s, hs, hl⟩ := Option.map_eq_some_iff.1 h
  exact ⟨s, hs, hl⟩

private theorem honest_zero {as : List UpAct} (h : ∀ n, .buffer n ∈ as → n = 0) : HonestBuffer as := by
  intro b n a s e _
  rw [h n (by rw [e]; simp)]
  exact Nat.zero_le _

theorem exUp_honest : HonestBuffer exUp := honest_zero (by simp [exUp])

theorem exUpFast_honest : HonestBuffer exUpFast := honest_zero (by
  intro n hn
  simp only [exUpFast, List.mem_cons, List.mem_flatMap, reduceCtorEq, false_or] at hn
  obtain ⟨i, -, hi⟩ := hn
  simpa using hi)

private theorem step_of {as : List UpAct} {a : UpAct} {b : Nat} {d : List UpEv}
    (h : ((uploadWorker.runFrom uploadWorker.init as).bind fun s => (upStep s a).map fun s' => (s.closed, s.buffered, decide (s'.log = s.log ++ d))) = some (false, b, true)) :
    ∃ s s', uploadWorker.Reaches as s ∧ upStep s a = some s' ∧ s.closed = false ∧ s.buffered = b ∧ s'.log = s.log ++ d := by
  obtain ⟨s, hs, h⟩ := Option.bind_eq_some_iff.1 h
  obtain ⟨s', hs', h⟩ := Option.map_eq_some_iff.1 h
  simp only [Prod.mk.injEq, decide_eq_true_eq] at h
  exact ⟨s, s', hs, hs', h⟩

/-- The second turn of the first one is one of those that `C100_turn` is about, and makes a measurement; a turn with seven messages in the browser sends nothing. -/
example : ∃ s s', uploadWorker.Reaches (exUp.take 3) s ∧ upStep s (.turn 400 401) = some s' ∧ s.closed = false ∧ s.buffered = 0 ∧ s'.log = s.log ++ [.send 400 8192, .post (.client (301/1000) 8192)] := step_of (by decide +kernel)

example : ∃ s s', uploadWorker.Reaches (.open 0 0 0 :: List.replicate 6 (.turn 1 1)) s ∧ upStep s (.turn 2 2) = some s' ∧ s.closed = false ∧ s.buffered = 7 * 8192 ∧ s'.log = s.log ++ [] :=
  step_of (by decide +kernel)

example : upTold exUp false = [startPost 100, .complete] := rfl

/-- The server's side of the first one. -/
def exUpServer : List TAct :=
  [.measurer (.start 5), .rxDeadline none, .measurer (.newTicker true), .deadline none, .measurer .assign, .stamp 7, .measurer .check, .rxCheck, .rxNext [] .binary, .rxCheck,
   .measurer (.tickHand 2007), .measurer (.measure (.ok ({}, {}))), .receive, .output none none, .rxNext [] .binary, .rxCheck, .rxNext [] (.broken (str "close 1005")), .rxCancel,
   .measurer .expire, .measurer .check, .measurer .exit, .closed, .finish 9000, .stopping .lookAtTicker, .stopping .cancelTicker, .stopping .drained, .received]

example : ∃ s z e, uploadWorker.Reaches exUp s ∧ (test { exTestCfg with kind := .upload }).Reaches (exUpServer ++ [.write]) z ∧ (∀ a ∈ exUpServer, testWorked a) ∧
    FromWorker (givenSizes s.log) exUpServer ∧ z.file = some e ∧ e.serverMeasurements.length = 1 := by
  obtain ⟨s, hs, hl⟩ := exUp_reach
  refine ⟨s, _, _, hs, rfl, by simp [exUpServer, testWorked], ⟨⟨2, [.broken (str "close 1005")], ?_, .inr ⟨_, rfl⟩⟩, ?_⟩, rfl, rfl⟩
  · rw [hl]; rfl
  · intro ps i h
    simp only [exUpServer, List.mem_cons, List.not_mem_nil, reduceCtorEq, TAct.rxNext.injEq, or_false, false_or] at h
    rcases h with h | h | h <;> (rw [h.1]; simp)

end Verif.Props
