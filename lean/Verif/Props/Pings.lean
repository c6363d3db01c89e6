import Verif.Props.Ndt7Sender

/-!
# Pings and measurements: C113
-/

namespace Verif.Props
open Verif.Go Verif.Ndt7 Verif.Spec

/-- Neither a measurement that was sent nor a ping. -/
def Unpaired : SendEv → Prop
  | .json _ none => False
  | .ping _ => False
  | _ => True

/-- Measurements that were sent and pings come in pairs. -/
inductive Paired : List SendEv → Prop
  | nil : Paired []
  | other {x l} (hx : Unpaired x) (h : Paired l) : Paired (x :: l)
  | pair {m e l} (h : Paired l) : Paired (.json m none :: .ping e :: l)

private theorem Paired.append {a b : List SendEv} (ha : Paired a) (hb : Paired b) : Paired (a ++ b) := by
  induction ha with
  | nil => exact hb
  | other hx _ ih => exact .other hx ih
  | pair _ ih => exact .pair ih

private theorem Paired.leave (kind : Subtest) (reason : String) : Paired (leave kind reason) :=
  .other trivial (.other trivial .nil)

private theorem Paired.step_download {params : Params} {s : DlState} {a : DlAns} {evs s' r} (hs : dlStep params s a = (evs, s', r)) : Paired evs := by
  cases a <;> simp only [dlStep] at hs
  all_goals repeat' split at hs
  all_goals
    simp only [Prod.mk.injEq] at hs
    obtain ⟨rfl, -, -⟩ := hs
    repeat' first
      | exact Paired.leave _ _
      | exact Paired.nil
      | apply Paired.pair
      | exact trivial
      | apply Paired.other

private theorem Paired.step_upload {s : List Measurement} {a : UlAns} {evs s' r} (hs : ulStep s a = (evs, s', r)) : Paired evs := by
  cases a <;> simp only [ulStep] at hs
  all_goals repeat' split at hs
  all_goals
    simp only [Prod.mk.injEq] at hs
    obtain ⟨rfl, -, -⟩ := hs
    repeat' first
      | exact Paired.leave _ _
      | exact Paired.nil
      | apply Paired.pair
      | exact trivial
      | apply Paired.other

private theorem paired_run {kind : Subtest} {evs rec res} (h : SenderRun kind evs rec res) : Paired evs := by
  cases h with
  | download params prepare deadline as h =>
    have := download_spec (I := fun h _ => Paired h) (F := fun h _ _ => Paired h) (params := params)
      (fun e => .other trivial (.leave _ _)) (fun e => .other trivial (.other trivial (.leave _ _))) (.other trivial (.other trivial .nil))
      (fun _ _ _ _ _ hi hs => hi.append (.step_download hs)) (fun _ _ _ _ _ _ hi hs => hi.append (.step_download hs)) h
    cases res with
    | none => obtain ⟨s, -, hi⟩ := this.1 rfl; exact hi
    | some r => exact this.2 r rfl
  | upload deadline as h =>
    have := upload_spec (I := fun h _ => Paired h) (F := fun h _ _ => Paired h)
      (fun e => .other trivial (.leave _ _)) (.other trivial .nil)
      (fun _ _ _ _ _ hi hs => hi.append (.step_upload hs)) (fun _ _ _ _ _ _ hi hs => hi.append (.step_upload hs)) h
    cases res with
    | none => exact this.1 rfl
    | some r => exact this.2 r rfl

private theorem Paired.after {l : List SendEv} (h : Paired l) : ∀ a m b, l = a ++ .json m none :: b → ∃ e c, b = .ping e :: c := by
  induction h with
  | nil => intro a m b hl; simp at hl
  | other hx _ ih =>
    intro a m b hl
    cases a with
    | nil => simp at hl; rw [hl.1] at hx; exact hx.elim
    | cons y a => simp at hl; exact ih a m b hl.2
  | @pair m' e' l _ ih =>
    intro a m b hl
    match a with
    | [] => simp at hl; exact ⟨e', l, hl.2.symm⟩
    | [y] => simp at hl
    | y :: z :: a => simp at hl; exact ih a m b hl.2.2

private theorem Paired.before {l : List SendEv} (h : Paired l) : ∀ a e b, l = a ++ .ping e :: b → ∃ c m, a = c ++ [.json m none] := by
  induction h with
  | nil => intro a e b hl; simp at hl
  | other hx _ ih =>
    intro a e b hl
    cases a with
    | nil => simp at hl; rw [hl.1] at hx; exact hx.elim
    | cons y a =>
      simp at hl
      obtain ⟨c, m, rfl⟩ := ih a e b hl.2
      exact ⟨y :: c, m, rfl⟩
  | @pair m' e' l _ ih =>
    intro a e b hl
    match a with
    | [] => simp at hl
    | [y] => simp at hl; exact ⟨[], m', by simp [hl.1]⟩
    | y :: z :: a =>
      simp at hl
      obtain ⟨c, m, rfl⟩ := ih a e b hl.2.2
      exact ⟨y :: z :: c, m, rfl⟩

/-- C113: the next thing a sender does after a measurement it could send is to send a ping. -/
theorem C113_ping_after_measurement {kind : Subtest} {evs rec res} (h : SenderRun kind evs rec res) (a b : List SendEv) (m : Measurement)
    (he : evs = a ++ .json m none :: b) : ∃ e c, b = .ping e :: c := (paired_run h).after a m b he

/-- C113: no ping is sent at another time. -/
theorem C113_ping_only_after_measurement {kind : Subtest} {evs rec res} (h : SenderRun kind evs rec res) (a b : List SendEv) (e : Option Err)
    (he : evs = a ++ .ping e :: b) : ∃ c m, a = c ++ [.json m none] := (paired_run h).before a e b he

/-- The pings of a run. -/
def pings (evs : List SendEv) : List (Option Err) := evs.filterMap fun | .ping e => some e | _ => none

/-- C113: there are as many pings as server measurements in the result. -/
theorem C113_as_many_pings {kind : Subtest} {evs rec res} (h : SenderRun kind evs rec res) : (pings evs).length = rec.length := by
  rw [C43_recorded_as_sent h]
  have := paired_run h
  clear h
  induction this with
  | nil => rfl
  | @other x l hx _ ih =>
    have h1 : pings (x :: l) = pings l := by cases x <;> first | rfl | exact hx.elim
    have h2 : sentMeasurements (x :: l) = sentMeasurements l := by
      cases x with
      | json m e => cases e with
        | none => exact hx.elim
        | some e => rfl
      | _ => rfl
    rw [h1, h2, ih]
  | pair _ ih => simpa [pings, sentMeasurements] using ih

/-- C113: a ping that fails is the last thing sent. -/
theorem C113_failed_ping_ends {kind : Subtest} {evs rec res} (h : SenderRun kind evs rec res) (a b : List SendEv) (e : Err)
    (he : evs = a ++ .ping (some e) :: b) : b = [.count (directionText kind) (str "ping-send-ticks"), .stopMeasurer] ∧ res = some (some e) := by
  obtain ⟨early, hsh⟩ : ∃ early, Shape kind early evs res := by
    cases h with
    | download params prepare deadline as h => exact ⟨_, download_shape h⟩
    | upload deadline as h => exact ⟨_, upload_shape h⟩
  have hnq : ∀ g : Measurement → Prop, ¬ Quiet g (.ping (some e)) := by intro g hq; cases hq
  cases res with
  | none => exact absurd (hsh.running rfl _ (by rw [he]; simp)) (hnq _)
  | some r =>
    obtain ⟨body, ending, reason, h1, hb, hend⟩ := hsh.returned r rfl
    rw [← name_eq]
    rw [he, List.append_assoc, List.append_eq_append_iff] at h1
    have key : ∀ a', ending ++ [.count kind.name reason, .stopMeasurer] = a' ++ .ping (some e) :: b →
        b = [.count kind.name (str "ping-send-ticks"), .stopMeasurer] ∧ some r = some (some e) := by
      intro a' h2
      cases hend with
      | ping m e' =>
        rcases a' with _ | ⟨x, _ | ⟨y, _ | ⟨z, _ | ⟨w, a'⟩⟩⟩⟩
        · simp at h2
        · simp at h2; exact ⟨h2.2.2.symm, by rw [h2.2.1]⟩
        all_goals simp at h2
      | _ =>
        have : SendEv.ping (some e) ∈ a' ++ .ping (some e) :: b := by simp
        rw [← h2] at this
        simp at this
    rcases h1 with ⟨c, h2, h3⟩ | ⟨c, h2, h3⟩
    · cases c with
      | nil => exact key [] (by simpa using h3.symm)
      | cons x c =>
        simp at h3
        exact absurd (hb _ (by rw [h2, ← h3.1]; simp)) (hnq _)
    · exact key c h3

/-- A download with two measurements: the second ping fails. -/
example (m n : Measurement) : SenderRun .download [.prepare 8192 none, .setDeadline none, .json m none, .ping none, .binary 8192 none,
    .json n none, .ping (some (str "e")), .count (str "download") (str "ping-send-ticks"), .stopMeasurer] [m, n] (some (some (str "e"))) :=
  .download {} none none [.measurement m none none, .bulk none none, .measurement n none (some (str "e"))]
    (by simp [downloadSender, runScript, dlStep, reached, leave, maxScaledMessageSize, scalingFraction, Subtest.name])

end Verif.Props
