import Verif.Spec.Ndt7Timing
import Verif.Props.Ndt7Sender

/-!
# C67: an ndt7 subtest ends in time
-/

namespace Verif.Props
open Verif.Go Verif.Ndt7 Verif.Spec.Ndt7Timing

namespace Ndt7Time

/-- A successful write. -/
def wrote : SendEv → Bool
  | .json _ none => true
  | .ping none => true
  | .binary _ none => true
  | _ => false

def isClose : SendEv → Bool
  | .close => true
  | _ => false

def setsDeadline : SendEv → Bool
  | .setDeadline _ => true
  | _ => false

/-- Nothing takes long after the last write: there are few things left to do. -/
structure Few (n c : Nat) (evs : List SendEv) : Prop where
  split : ∃ A B, evs = A ++ B ∧ B.length ≤ n ∧ B.countP isClose ≤ c ∧ (A = [] ∨ ∃ A' w, A = A' ++ [w] ∧ wrote w = true)
  set : ∀ x ∈ evs, setsDeadline x = false

/-- The course of a run. -/
inductive Course (n c : Nat) : List SendEv → Prop
  /-- nothing was written -/
  | failed (evs : List SendEv) (h : evs.length ≤ 4) (hw : ∀ x ∈ evs, match x with | .prepare .. => True | .setDeadline .. => True | .count .. => True | .stopMeasurer => True | _ => False) : Course n c evs
  | upload (evs : List SendEv) (h : Few n c evs) : Course n c (.setDeadline none :: evs)
  | download (k : Nat) (evs : List SendEv) (h : Few n c evs) : Course n c (.prepare k none :: .setDeadline none :: evs)

theorem Few.nil (n c : Nat) : Few n c [] := ⟨⟨[], [], rfl, by simp, by simp, .inl rfl⟩, by simp⟩

theorem Few.append {n c n' c' : Nat} {h evs : List SendEv} (hf : Few n c h) (hs : ∀ x ∈ evs, setsDeadline x = false)
    (hn : n + evs.length ≤ n') (hc : c + evs.countP isClose ≤ c') : Few n' c' (h ++ evs) := by
  obtain ⟨⟨A, B, h1, h2, h3, h4⟩, h5⟩ := hf
  refine ⟨⟨A, B ++ evs, by simp [h1], by simp; omega, by rw [List.countP_append]; omega, h4⟩, ?_⟩
  intro x hx
  rcases List.mem_append.1 hx with hx | hx
  exacts [h5 x hx, hs x hx]

theorem Few.written {n c : Nat} {h evs rest : List SendEv} {w : SendEv} (hf : ∀ x ∈ h, setsDeadline x = false) (hs : ∀ x ∈ evs ++ w :: rest, setsDeadline x = false)
    (hw : wrote w = true) (hn : rest.length ≤ n) (hc : rest.countP isClose ≤ c) : Few n c (h ++ (evs ++ w :: rest)) := by
  refine ⟨⟨h ++ evs ++ [w], rest, by simp, hn, hc, .inr ⟨h ++ evs, w, rfl, hw⟩⟩, ?_⟩
  intro x hx
  rcases List.mem_append.1 hx with hx | hx
  exacts [hf x hx, hs x hx]

/-- The courses of the runs of a download. -/
theorem course_download {params : Params} {prepare deadline : Option Err} {as : List DlAns} {evs rec res}
    (h : downloadSender params prepare deadline as = (evs, rec, res)) : (res = none → Course 1 0 evs) ∧ ∀ r, res = some r → Course 4 1 evs := by
  have := download_spec (params := params) (I := fun h _ => ∃ l, h = .prepare (2 ^ 13) none :: .setDeadline none :: l ∧ Few 1 0 l)
    (F := fun evs _ _ => Course 4 1 evs)
    (fun e => .failed _ (by simp [leave]) (by simp [leave]))
    (fun e => .failed _ (by simp [leave]) (by simp [leave]))
    ⟨[], rfl, .nil _ _⟩
    (by
      rintro h s a evs s' ⟨l, rfl, hl⟩ hs
      refine ⟨l ++ evs, rfl, ?_⟩
      cases a <;> simp only [dlStep] at hs
      all_goals repeat' split at hs
      all_goals first
        | (simp only [Prod.mk.injEq, reduceCtorEq, and_false] at hs; done)
        | (simp only [Prod.mk.injEq] at hs; obtain ⟨rfl, rfl, -⟩ := hs)
      · rename_i m _ _ _; exact Few.written (evs := [.json m none]) (rest := []) hl.set (by simp [setsDeadline]) rfl (by simp) (by simp)
      · exact Few.written (evs := []) (rest := []) hl.set (by simp [setsDeadline]) rfl (by simp) (by simp)
      · exact Few.written (evs := []) (rest := []) hl.set (by simp [setsDeadline]) rfl (by simp) (by simp)
      · exact Few.written (evs := []) (rest := [.prepare _ none]) hl.set (by simp [setsDeadline]) rfl (by simp) (by simp [isClose]))
    (by
      rintro h s a evs s' r ⟨l, rfl, hl⟩ hs
      refine .download _ (l ++ evs) ?_
      cases a <;> simp only [dlStep] at hs
      all_goals repeat' split at hs
      all_goals first
        | (simp only [Prod.mk.injEq, reduceCtorEq, and_false] at hs; done)
        | (simp only [Prod.mk.injEq, Option.some.injEq] at hs; obtain ⟨rfl, rfl, rfl⟩ := hs)
      · exact hl.append (by simp [setsDeadline, leave]) (by simp [leave]) (by simp [leave, isClose, List.countP_cons])
      · exact Few.written (evs := []) hl.set (by simp [setsDeadline, leave]) rfl (by simp [leave]) (by simp [leave, isClose, List.countP_cons])
      · rename_i m _ _ _; exact Few.written (evs := [.json m none]) hl.set (by simp [setsDeadline, leave]) rfl (by simp [leave]) (by simp [leave, isClose, List.countP_cons])
      · exact hl.append (by simp [setsDeadline, leave]) (by simp [leave]) (by simp [leave, isClose, List.countP_cons])
      · exact hl.append (by simp [setsDeadline, leave]) (by simp [leave]) (by simp [leave, isClose, List.countP_cons])
      · exact Few.written (evs := []) hl.set (by simp [setsDeadline, leave]) rfl (by simp [leave]) (by simp [leave, isClose, List.countP_cons])) h
  exact ⟨fun hr => by obtain ⟨s, -, l, rfl, hl⟩ := this.1 hr; exact .download _ _ hl, this.2⟩

/-- The courses of the runs of an upload. -/
theorem course_upload {deadline : Option Err} {as : List UlAns} {evs rec res}
    (h : uploadSender deadline as = (evs, rec, res)) : (res = none → Course 1 0 evs) ∧ ∀ r, res = some r → Course 4 1 evs := by
  have := upload_spec (I := fun h _ => ∃ l, h = .setDeadline none :: l ∧ Few 1 0 l) (F := fun evs _ _ => Course 4 1 evs)
    (fun e => .failed _ (by simp [leave]) (by simp [leave]))
    ⟨[], rfl, .nil _ _⟩
    (by
      rintro h s a evs s' ⟨l, rfl, hl⟩ hs
      refine ⟨l ++ evs, rfl, ?_⟩
      cases a <;> simp only [ulStep] at hs
      all_goals repeat' split at hs
      all_goals first
        | (simp only [Prod.mk.injEq, reduceCtorEq, and_false] at hs; done)
        | (simp only [Prod.mk.injEq] at hs; obtain ⟨rfl, rfl, -⟩ := hs)
      rename_i m _ _; exact Few.written (evs := [.json m none]) (rest := []) hl.set (by simp [setsDeadline]) rfl (by simp) (by simp))
    (by
      rintro h s a evs s' r ⟨l, rfl, hl⟩ hs
      refine .upload (l ++ evs) ?_
      cases a <;> simp only [ulStep] at hs
      all_goals repeat' split at hs
      all_goals first
        | (simp only [Prod.mk.injEq, reduceCtorEq, and_false] at hs; done)
        | (simp only [Prod.mk.injEq, Option.some.injEq] at hs; obtain ⟨rfl, rfl, rfl⟩ := hs)
      · exact hl.append (by simp [setsDeadline, leave]) (by simp [leave]) (by simp [leave, isClose, List.countP_cons])
      · exact Few.written (evs := []) hl.set (by simp [setsDeadline, leave]) rfl (by simp [leave]) (by simp [leave, isClose, List.countP_cons])
      · exact hl.append (by simp [setsDeadline, leave]) (by simp [leave]) (by simp [leave, isClose, List.countP_cons])) h
  exact ⟨fun hr => by obtain ⟨l, rfl, hl⟩ := this.1 hr; exact .upload _ hl, this.2⟩

theorem course {kind : Subtest} {evs rec res} (h : SenderRun kind evs rec res) : (res = none → Course 1 0 evs) ∧ ∀ r, res = some r → Course 4 1 evs := by
  cases h with
  | download _ _ _ _ h => exact course_download h
  | upload _ _ h => exact course_upload h

/-! ### Times -/

theorem finish_cons {α : Type} (t : Nat) (x : Timed α) (l : List (Timed α)) : finish t (x :: l) = finish x.e l := by
  cases l with
  | nil => rfl
  | cons y l =>
    unfold finish
    rw [List.getLast?_cons_cons]
    cases h : (y :: l).getLast? with
    | none => simp at h
    | some z => rfl

theorem finish_append {α : Type} (t : Nat) (a b : List (Timed α)) : finish t (a ++ b) = finish (finish t a) b := by
  induction a generalizing t with
  | nil => rfl
  | cons x a ih => rw [List.cons_append, finish_cons, finish_cons, ih]

/-- The deadline stays if it is not set. -/
theorem timing_append {δ t0 : Nat} {dl : Option Nat} {a b : List (Timed SendEv)} (hs : ∀ x ∈ a, setsDeadline x.what = false) :
    ∀ p, Timing δ t0 dl p (a ++ b) → Timing δ t0 dl p a ∧ Timing δ t0 dl (finish p a) b := by
  induction a with
  | nil => exact fun p h => ⟨trivial, h⟩
  | cons x a ih =>
    rintro p ⟨h1, h2, h3, h4, h5⟩
    have hd : nextDeadline dl x.what x.b = dl := by
      have := hs x (by simp)
      cases hx : x.what <;> rw [hx] at this <;> first | rfl | cases this
    rw [hd] at h5
    obtain ⟨h6, h7⟩ := ih (fun y hy => hs y (by simp [hy])) _ h5
    rw [finish_cons]
    refine ⟨⟨h1, h2, h3, h4, ?_⟩, h7⟩
    rw [hd]
    exact h6

/-- A few things take a little time. -/
theorem few_time {δ t0 D : Nat} {l : List (Timed SendEv)} (hs : ∀ x ∈ l, setsDeadline x.what = false) : ∀ p, Timing δ t0 (some D) p l →
    finish p l ≤ max p (max D (t0 + 10 * sec)) + l.length * (2 * δ) + (l.countP fun x => isClose x.what) * sec := by
  induction l with
  | nil => intro p _; simp [finish]
  | cons x l ih =>
    rintro p ⟨h1, h2, h3, h4, h5⟩
    have hsx := hs x (by simp)
    have hd : nextDeadline (some D) x.what x.b = some D := by
      cases hx : x.what <;> rw [hx] at hsx <;> first | rfl | cases hsx
    rw [hd] at h5
    have h6 := ih (fun y hy => hs y (by simp [hy])) _ h5
    rw [finish_cons, List.length_cons, List.countP_cons, Nat.add_mul, Nat.add_mul, Nat.one_mul]
    have hb : x.b ≤ max p (t0 + 10 * sec) + δ := by split at h2 <;> omega
    have key : x.e ≤ max p (max D (t0 + 10 * sec)) + 2 * δ + (if isClose x.what then 1 else 0) * sec := by
      cases hx : x.what with
      | setDeadline e => rw [hx] at hsx; cases hsx
      | prepare n e => rw [hx] at h4; have h4 : x.e ≤ x.b + δ := h4; simp only [isClose]; omega
      | count n e => rw [hx] at h4; have h4 : x.e ≤ x.b + δ := h4; simp only [isClose]; omega
      | stopMeasurer => rw [hx] at h4; have h4 : x.e ≤ max x.b (t0 + 10 * sec) + δ := h4; simp only [isClose]; omega
      | close => rw [hx] at h4; have h4 : x.e ≤ x.b + 1 * sec + δ := h4; simp only [isClose, if_true]; omega
      | json m e => rw [hx] at h4; have h4 := (h4 D rfl).1; simp only [isClose]; omega
      | ping e => rw [hx] at h4; have h4 := (h4 D rfl).1; simp only [isClose]; omega
      | binary m e => rw [hx] at h4; have h4 := (h4 D rfl).1; simp only [isClose]; omega
    omega

/-- Successful writes end at the deadline. -/
theorem wrote_time {δ t0 D : Nat} {l : List (Timed SendEv)} {x : Timed SendEv} (hs : ∀ y ∈ l, setsDeadline y.what = false) (hx : wrote x.what = true) {p : Nat}
    (h : Timing δ t0 (some D) p (l ++ [x])) : finish p (l ++ [x]) ≤ D + δ := by
  obtain ⟨-, h1, h2, h3, h4, -⟩ := timing_append hs p h
  rw [finish_append]
  show x.e ≤ _
  cases hw : x.what with
  | json m e => cases e with
    | none => rw [hw] at h4; have := h4 D rfl; simp at this; omega
    | some e => rw [hw] at hx; cases hx
  | ping e => cases e with
    | none => rw [hw] at h4; have := h4 D rfl; simp at this; omega
    | some e => rw [hw] at hx; cases hx
  | binary m e => cases e with
    | none => rw [hw] at h4; have := h4 D rfl; simp at this; omega
    | some e => rw [hw] at hx; cases hx
  | _ => rw [hw] at hx; cases hx

theorem Few.time {n c δ t0 D : Nat} {evs : List SendEv} (hf : Few n c evs) {l : List (Timed SendEv)} (hl : l.map Timed.what = evs) {p : Nat}
    (h : Timing δ t0 (some D) p l) (hD : t0 + 10 * sec ≤ D) (hp : p ≤ D + δ) : finish p l ≤ D + δ + n * (2 * δ) + c * sec := by
  obtain ⟨⟨A, B, h1, h2, h3, h4⟩, h5⟩ := hf
  rw [h1] at hl
  obtain ⟨lA, lB, rfl, rfl, rfl⟩ := List.map_eq_append_iff.1 hl
  have hsl : ∀ x ∈ lA ++ lB, setsDeadline x.what = false := fun x hx => h5 _ (h1 ▸ by rw [← List.map_append]; exact List.mem_map_of_mem hx)
  obtain ⟨h6, h7⟩ := timing_append (fun x hx => hsl x (List.mem_append_left _ hx)) p h
  have h8 := few_time (fun x hx => hsl x (List.mem_append_right _ hx)) _ h7
  have h9 : finish p lA ≤ D + δ := by
    rcases h4 with h4 | ⟨A', w, h4, hw⟩
    · rw [List.map_eq_nil_iff.1 h4]
      simpa [finish] using hp
    · obtain ⟨l1, l2, rfl, rfl, h10⟩ := List.map_eq_append_iff.1 h4
      obtain ⟨x, rfl, rfl⟩ := List.map_eq_singleton_iff.1 h10
      exact wrote_time (fun y hy => hsl y (by simp [hy])) hw h6
  rw [List.length_map] at h2
  rw [List.countP_map] at h3
  have h3' : lB.countP (fun x => isClose x.what) ≤ c := h3
  have h10 : lB.length * (2 * δ) ≤ n * (2 * δ) := Nat.mul_le_mul_right _ h2
  have h11 : (lB.countP fun x => isClose x.what) * sec ≤ c * sec := Nat.mul_le_mul_right _ h3'
  rw [finish_append]
  omega

/-- The time of a run. -/
theorem Course.time {n c δ t0 : Nat} {evs : List SendEv} (hc : Course n c evs) {l : List (Timed SendEv)} (hl : l.map Timed.what = evs) (h : Timing δ t0 none t0 l) :
    finish t0 l ≤ t0 + 15 * sec + 8 * δ + n * (2 * δ) + c * sec := by
  cases hc with
  | failed _ h1 hw =>
    have key : ∀ (l : List (Timed SendEv)) dl p, (∀ x ∈ l.map Timed.what, match x with | .prepare .. => True | .setDeadline .. => True | .count .. => True | .stopMeasurer => True | _ => False) →
        Timing δ t0 dl p l → finish p l ≤ max p (t0 + 10 * sec) + l.length * (2 * δ) := by
      intro l
      induction l with
      | nil => intro dl p _ _; simp [finish]
      | cons x l ih =>
        rintro dl p hw ⟨h1, h2, h3, h4, h5⟩
        have h6 := ih _ _ (fun y hy => hw y (by simp at hy ⊢; exact .inr hy)) h5
        rw [finish_cons, List.length_cons, Nat.add_mul, Nat.one_mul]
        have hx := hw x.what (by simp)
        have : x.e ≤ max p (t0 + 10 * sec) + 2 * δ := by
          cases hx' : x.what <;> rw [hx'] at hx h2 h4 <;> simp only [afterWait, Takes, if_false, Bool.false_eq_true] at h2 h4 <;> first | cases hx; done | omega
        omega
    have h2 := key l none t0 (by rw [hl]; exact hw) h
    rw [← hl, List.length_map] at h1
    have h3 : l.length * (2 * δ) ≤ 4 * (2 * δ) := Nat.mul_le_mul_right _ h1
    omega
  | upload evs hf =>
    obtain ⟨x, l, rfl, hx, rfl⟩ := List.map_eq_cons_iff.1 hl
    obtain ⟨h1, h2, h3, h4, h5⟩ := h
    rw [hx] at h2 h4 h5
    simp only [afterWait, Takes, nextDeadline, if_false, Bool.false_eq_true] at h2 h4 h5
    have := hf.time rfl h5 (by omega) (by omega)
    rw [finish_cons]
    omega
  | download k evs hf =>
    obtain ⟨x, l, rfl, hx, hl2⟩ := List.map_eq_cons_iff.1 hl
    obtain ⟨y, l, rfl, hy, rfl⟩ := List.map_eq_cons_iff.1 hl2
    obtain ⟨h1, h2, h3, h4, h5⟩ := h
    obtain ⟨g1, g2, g3, g4, g5⟩ := h5
    rw [hx] at h2 h4
    rw [hy] at g2 g4 g5
    simp only [afterWait, Takes, nextDeadline, if_false, Bool.false_eq_true] at h2 h4 g2 g4 g5
    have := hf.time rfl g5 (by omega) (by omega)
    rw [finish_cons, finish_cons]
    omega

end Ndt7Time

open Ndt7Time

/-- C67: whatever the client does, a sender returns at most 16 seconds after its start, apart from the time for scheduling: the maximum runtime of 15 seconds and the second for the
close message. As long as it has not returned, it is within the 15 seconds. -/
theorem C67_sender {kind : Subtest} {evs rec res} (h : SenderRun kind evs rec res) {δ t0 : Nat} {l : List (Timed SendEv)} (hl : l.map Timed.what = evs)
    (ht : Timing δ t0 none t0 l) : finish t0 l ≤ t0 + 16 * sec + 16 * δ ∧ (res = none → finish t0 l ≤ t0 + 15 * sec + 10 * δ) := by
  obtain ⟨h1, h2⟩ := course h
  cases res with
  | none =>
    have := (h1 rfl).time hl ht
    exact ⟨by omega, fun _ => by omega⟩
  | some r =>
    have := (h2 r rfl).time hl ht
    exact ⟨by omega, by simp⟩

/-- C67: so a subtest returns in time. `download.Do` and `upload.Do` return when the sender has returned and `recv.Done()` is closed, which is the case when the context with the
timeout of 15 seconds has ended (handler.go:93, receiver.go:106-126). -/
theorem C67_subtest {kind : Subtest} {evs rec res} (h : SenderRun kind evs rec res) {δ c0 t0 ret : Nat} {l : List (Timed SendEv)} (hl : l.map Timed.what = evs)
    (ht : Timing δ t0 none t0 l) (hc : c0 ≤ t0) (hr : ret ≤ max (finish t0 l) (c0 + 15 * sec) + δ) : ret ≤ t0 + 16 * sec + 17 * δ := by
  have := (C67_sender h hl ht).1
  omega

/-- C67: the goroutine of the receiver ends in time as well: at most `g` later than 15 seconds after the deadline was set, where `g` is the time that one message can take after the
deadline. The list `as` is of the iterations that were begun: after none of them but the last the receiver has returned. -/
theorem C67_receiver {parse : Bytes → Option Measurement} {kind : Subtest} {as : List RxAns} (hrun : (receiver parse kind none as.dropLast).2.2 = none)
    {δ g t0 : Nat} {l : List (Timed RxAns)} (hl : l.map Timed.what = as) (ht : RxTiming δ g (t0 + 15 * sec) t0 l) :
    finish t0 l ≤ t0 + 15 * sec + g + 2 * δ := by
  have hne : RxAns.expired ∉ as.dropLast := by
    have key : ∀ (bs : List RxAns) rec, (runScript (rxStep parse kind) rec bs).2.2 = none → RxAns.expired ∉ bs := by
      intro bs
      induction bs with
      | nil => simp
      | cons b bs ih =>
        intro rec h
        rw [runScript] at h
        split at h
        · cases h
        · rename_i h1
          have h2 := ih _ h
          intro hm
          rcases List.mem_cons.1 hm with rfl | hm
          · simp [rxStep] at h1
          · exact h2 hm
    exact key _ _ hrun
  have key : ∀ (l : List (Timed RxAns)) p, p ≤ t0 + 15 * sec + g → RxAns.expired ∉ (l.map Timed.what).dropLast → RxTiming δ g (t0 + 15 * sec) p l →
      finish p l ≤ t0 + 15 * sec + g + 2 * δ := by
    intro l
    induction l with
    | nil => intro p hp _ _; simp [finish]; omega
    | cons x l ih =>
      rintro p hp hn ⟨h1, h2, h3, h4, h5⟩
      rw [finish_cons]
      cases hx : x.what with
      | expired =>
        rw [hx] at h4
        cases l with
        | nil => simp [finish]; have h4 : x.e ≤ x.b + δ := h4; omega
        | cons y l => simp [List.dropLast, hx] at hn
      | next ps i =>
        rw [hx] at h4
        have h4 : x.b ≤ _ ∧ x.e ≤ _ := h4
        refine ih x.e (by omega) ?_ h5
        cases l with
        | nil => simp
        | cons y l => exact fun hm => hn (by simp only [List.map_cons, List.dropLast_cons₂]; exact List.mem_cons_of_mem _ hm)
  exact key l t0 (by omega) (hl ▸ hne) ht

/-! ## Examples -/

/-- An upload whose last measurement can only be sent at the deadline, and whose close message cannot be sent: it takes 16 seconds. -/
def slowUpload (m : Measurement) : List (Timed SendEv) :=
  [⟨.setDeadline none, 0, 0⟩, ⟨.json m none, 1 * sec, 15 * sec⟩, ⟨.ping none, 15 * sec, 15 * sec⟩, ⟨.close, 15 * sec, 16 * sec⟩,
   ⟨.count (str "upload") (str "measurer-closed"), 16 * sec, 16 * sec⟩, ⟨.stopMeasurer, 16 * sec, 16 * sec⟩]

/-- The bound is attained. -/
example (m : Measurement) : SenderRun .upload ((slowUpload m).map Timed.what) [m] (some none) ∧ Timing 0 0 none 0 (slowUpload m) ∧ finish 0 (slowUpload m) = 0 + 16 * sec + 16 * 0 := by
  refine ⟨.upload none [.measurement m none none, .closed] rfl, ?_, rfl⟩
  simp [slowUpload, Timing, Takes, nextDeadline, afterWait, sec]

/-- A download that is blocked from the first message on, until the deadline. -/
example : ∃ l, SenderRun .download (l.map Timed.what) [] (some (some (str "timeout"))) ∧ Timing 7 100 none 100 l ∧ 100 + 15 * sec ≤ finish 100 l := by
  refine ⟨[⟨.prepare (2 ^ 13) none, 101, 102⟩, ⟨.setDeadline none, 103, 104⟩, ⟨.binary (2 ^ 13) (some (str "timeout")), 104, 104 + 15 * sec⟩,
    ⟨.count (str "download") (str "write-prepared-message"), 104 + 15 * sec, 104 + 15 * sec⟩, ⟨.stopMeasurer, 104 + 15 * sec, 104 + 15 * sec⟩],
    .download ⟨false, 0⟩ none none [.bulk (some (str "timeout")) none] rfl, ?_, by simp [finish, sec]⟩
  simp [Timing, Takes, nextDeadline, afterWait, sec]

/-- A receiver that reads until the deadline. -/
example : ∃ l, RxTiming 1 0 (0 + 15 * sec) 0 l ∧ finish 0 l = 15 * sec + 2 ∧
    (receiver (fun _ => none) .upload none (l.map Timed.what).dropLast).2.2 = none ∧ (receiver (fun _ => none) .upload none (l.map Timed.what)).2.2 = some () := by
  refine ⟨[⟨.next [] .binary, 0, 5 * sec⟩, ⟨.next [] .binary, 5 * sec, 15 * sec⟩, ⟨.expired, 15 * sec + 1, 15 * sec + 2⟩], ?_, rfl, rfl, rfl⟩
  simp [RxTiming, sec]

end Verif.Props
