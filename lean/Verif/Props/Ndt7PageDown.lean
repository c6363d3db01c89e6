import Verif.Spec.Ndt7Page
import Verif.Props.Ndt7Sender
import Verif.Ndt7.Wire
import Mathlib.Tactic.Linarith

/-!
# C101: the download worker of a page
-/

namespace Verif.Props
open Verif.Go Verif.Ndt7 Verif.Web Verif.Spec

private theorem passedOn_append (a b : List Post) : passedOn (a ++ b) = passedOn a ++ passedOn b := List.filterMap_append
private theorem times_append (a b : List Post) : reportedTimes (a ++ b) = reportedTimes a ++ reportedTimes b := List.filterMap_append
private theorem got_append (a b : List DownAct) : downGot (a ++ b) = downGot a ++ downGot b := List.filterMap_append

variable {t0 : Rat} {as : List DownAct} {s : Down}

/-- C101: every text of the server is passed on to the page, in order and once. -/
theorem C101_passes_on (h : (downloadWorker t0).Reaches as s) : passedOn s.posts = textsGot as := by
  refine LTS.invariant (T := downloadWorker t0) (P := fun as s => passedOn s.posts = textsGot as) rfl ?_ h
  intro as s a s' _ hi hs
  have hg : textsGot (as ++ [a]) = textsGot as ++ textsGot [a] := by simp only [textsGot, got_append, List.filterMap_append]
  rw [hg, ← hi]
  cases a <;> simp only [downloadWorker, downStep, Option.some.injEq] at hs <;> subst hs
  · rw [passedOn_append]; rfl
  · rename_i d t
    simp only [Down.message, passedOn_append, List.append_assoc]
    congr 1
    split <;> cases d <;> rfl
  · rw [passedOn_append]; rfl
  · rw [passedOn_append]; rfl

/-- The last report, as a reading of the clock. -/
private def lastReport (start : Rat) (ps : List Post) : Rat := start + 1000 * ((reportedTimes ps).getLast?.getD 0)

private def DInv (as : List DownAct) (s : Down) : Prop :=
  ((∀ t, .open t ∉ as) → downGot as = [] → reportedTimes s.posts = []) ∧
  ∀ start, .open start ∈ as → OpensOnce as →
    s.start = start ∧ s.total = ((downGot as).map Data.size).sum ∧ s.previous = lastReport start s.posts ∧
    (reportedTimes s.posts).Pairwise (fun a b => a + 1 / 4 < b) ∧ (∀ t ∈ reportedTimes s.posts, 1 / 4 < t) ∧
    ∀ t ∈ reportedTimes s.posts, t ≤ (reportedTimes s.posts).getLast?.getD 0

private theorem opensOnce_init {a : DownAct} (h : OpensOnce (as ++ [a])) (ha : ∀ t, a ≠ .open t) : OpensOnce as := by
  obtain ⟨b, t, c, e, h1, h2⟩ := h
  rcases List.eq_nil_or_concat c with rfl | ⟨c', x, rfl⟩
  · have : a = .open t := by
      have := congrArg List.getLast? e
      simpa using this
    exact absurd this (ha t)
  · have e' : as ++ [a] = (b ++ .open t :: c') ++ [x] := by rw [e]; simp
    obtain ⟨rfl, e2⟩ := List.append_inj' e' rfl
    exact ⟨b, t, c', rfl, h1, fun t' => ⟨(h2 t').1, fun hc => (h2 t').2 (by simp [hc])⟩⟩

private theorem dinv (h : (downloadWorker t0).Reaches as s) : DInv as s := by
  refine LTS.invariant (T := downloadWorker t0) (P := DInv) ⟨fun _ _ => rfl, by simp⟩ ?_ h
  intro as s a s' _ ⟨h1, h2⟩ hs
  cases a with
  | «open» t =>
    simp only [downloadWorker, downStep, Option.some.injEq] at hs
    subst hs
    refine ⟨fun hn => absurd (by simp) (hn t), ?_⟩
    intro start hst ho
    -- nothing has happened before
    have hold : (∀ t', .open t' ∉ as) ∧ downGot as = [] := by
      obtain ⟨b, t', c, e, g1, g2⟩ := ho
      rcases List.eq_nil_or_concat c with rfl | ⟨c', x, rfl⟩
      · obtain ⟨rfl, -⟩ := List.append_inj' e rfl
        exact ⟨fun t' => (g2 t').1, g1⟩
      · have e' : as ++ [.open t] = (b ++ .open t' :: c') ++ [x] := by rw [e]; simp
        obtain ⟨-, e2⟩ := List.append_inj' e' rfl
        have : x = .open t := by simpa using e2.symm
        exact absurd (by simp [this]) (g2 t).2
    have : start = t := by
      simpa [hold.1] using hst
    subst this
    have hr := h1 hold.1 hold.2
    have hp : reportedTimes (s.posts ++ [.start start none]) = [] := by rw [times_append, hr]; rfl
    simp only [lastReport, hp]
    refine ⟨trivial, by rw [got_append, hold.2]; simp [downGot], by simp, by simp, by simp, by simp⟩
  | onmessage d t =>
    simp only [downloadWorker, downStep, Option.some.injEq] at hs
    subst hs
    refine ⟨fun _ hg => by rw [got_append] at hg; simp [downGot] at hg, ?_⟩
    intro start hst ho
    obtain ⟨k1, k2, k3, k4, k5, k6⟩ := h2 start (by simpa using hst) (opensOnce_init ho (by simp))
    have hd : reportedTimes d.passedAlong = [] := by cases d <;> rfl
    simp only [Down.message]
    refine ⟨k1, ?_, ?_⟩
    · rw [got_append, k2]; simp [downGot]
    · by_cases hm : t - s.previous > 250
      · simp only [hm, if_true, lastReport]
        have e : reportedTimes (s.posts ++ [.client ((t - s.start) / 1000) ((s.total + d.size : Nat) : Int)] ++ d.passedAlong) =
            reportedTimes s.posts ++ [(t - s.start) / 1000] := by
          rw [times_append, times_append, hd]; simp [reportedTimes]
        rw [e, k1]
        simp only [List.getLast?_concat, Option.getD_some]
        rw [k3, lastReport] at hm
        have hlast : ∀ x ∈ reportedTimes s.posts, x + 1 / 4 < (t - start) / 1000 := by
          intro x hx
          have := k6 x hx
          linarith
        have hnew : 1 / 4 < (t - start) / 1000 := by
          have h0 : 0 ≤ (reportedTimes s.posts).getLast?.getD 0 := by
            cases hl : (reportedTimes s.posts).getLast? with
            | none => simp
            | some x =>
              have := k5 x (List.mem_of_getLast? hl)
              simp only [Option.getD_some]; linarith
          linarith
        refine ⟨by ring, ?_, ?_, ?_⟩
        · refine List.pairwise_append.2 ⟨k4, by simp, ?_⟩
          intro x hx y hy
          rw [List.mem_singleton.1 hy]; exact hlast x hx
        · intro x hx
          rcases List.mem_append.1 hx with hx | hx
          · exact k5 x hx
          · rw [List.mem_singleton.1 hx]; exact hnew
        · intro x hx
          rcases List.mem_append.1 hx with hx | hx
          · have := hlast x hx; linarith
          · rw [List.mem_singleton.1 hx]
      · simp only [hm, if_false, List.append_nil, lastReport]
        rw [times_append, hd, List.append_nil]
        exact ⟨k3, k4, k5, k6⟩
  | onclose =>
    simp only [downloadWorker, downStep, Option.some.injEq] at hs
    subst hs
    have hp : reportedTimes (s.posts ++ [.complete]) = reportedTimes s.posts := by rw [times_append]; simp [reportedTimes]
    have hgg : downGot (as ++ [.onclose]) = downGot as := by rw [got_append]; simp [downGot]
    simp only [DInv, hp, lastReport, hgg]
    exact ⟨fun hn hg => h1 (fun t ht => hn t (by simp [ht])) hg, fun start hst ho => h2 start (by simpa using hst) (opensOnce_init ho (by simp))⟩
  | onerror =>
    simp only [downloadWorker, downStep, Option.some.injEq] at hs
    subst hs
    have hp : reportedTimes (s.posts ++ [.error]) = reportedTimes s.posts := by rw [times_append]; simp [reportedTimes]
    have hgg : downGot (as ++ [.onerror]) = downGot as := by rw [got_append]; simp [downGot]
    simp only [DInv, hp, lastReport, hgg]
    exact ⟨fun hn hg => h1 (fun t ht => hn t (by simp [ht])) hg, fun start hst ho => h2 start (by simpa using hst) (opensOnce_init ho (by simp))⟩

/-- C101: when a message arrives, a measurement is made exactly if the last one, or else the start, is more than 250 ms ago; it counts the bytes of all messages so far, this one included, and the time since the start. -/
theorem C101_measures (h : (downloadWorker t0).Reaches as s) (ho : OpensOnce as) {start : Rat} (hst : .open start ∈ as) (d : Data) (t : Rat) {s' : Down} (hs : downStep s (.onmessage d t) = some s') :
    ∃ ps, s'.posts = s.posts ++ ps ∧ reportedBytes ps = (if t - (start + 1000 * ((reportedTimes s.posts).getLast?.getD 0)) > 250 then [((((downGot as).map dataBytes).sum + dataBytes d : Nat) : Int)] else []) ∧
      reportedTimes ps = if t - (start + 1000 * ((reportedTimes s.posts).getLast?.getD 0)) > 250 then [(t - start) / 1000] else [] := by
  have hb : dataBytes = Data.size := funext fun d => by cases d <;> rfl
  rw [hb]
  obtain ⟨k1, k2, k3, -⟩ := (dinv h).2 start hst ho
  simp only [downStep, Option.some.injEq] at hs
  subst hs
  simp only [Down.message]
  rw [k3, lastReport, k2, k1, List.append_assoc]
  refine ⟨_, rfl, ?_, ?_⟩ <;> split <;> cases d <;> simp [reportedBytes, reportedTimes, Data.passedAlong]

/-- C101: two measurements are more than a quarter of a second apart, and so are the start and the first of them. -/
theorem C101_spacing (h : (downloadWorker t0).Reaches as s) (ho : OpensOnce as) : (reportedTimes s.posts).Pairwise (fun a b => a + 1 / 4 < b) ∧ ∀ t ∈ reportedTimes s.posts, 1 / 4 < t := by
  obtain ⟨b, t, c, e, -⟩ := id ho
  obtain ⟨-, -, -, k4, k5, -⟩ := (dinv h).2 t (by rw [e]; simp) ho
  exact ⟨k4, k5⟩

/-- C101: the page is told of the start when the connection opens, of every error and of the end; of nothing else but measurements. -/
theorem C101_told (h : (downloadWorker t0).Reaches as s) : notices s.posts = downTold as := by
  refine LTS.invariant (T := downloadWorker t0) (P := fun as s => notices s.posts = downTold as) rfl ?_ h
  intro as s a s' hre hi hs
  have ha : downTold (as ++ [a]) = downTold as ++ downTold [a] := List.filterMap_append
  have hn : ∀ a b, notices (a ++ b) = notices a ++ notices b := fun a b => List.filter_append ..
  rw [ha, ← hi]
  cases a with
  | onmessage d t =>
    simp only [downloadWorker, downStep, Option.some.injEq] at hs
    subst hs
    simp only [Down.message, hn]
    split <;> cases d <;> simp [notices, downTold, Data.passedAlong]
  | _ =>
    simp only [downloadWorker, downStep, Option.some.injEq] at hs
    subst hs
    simp only [hn]
    rfl

/-! ## And the server -/

/-- What the browser makes of the messages that the server sent: JSON texts as the encoding gives them, with their number of UTF-16 code units, and the bulk messages. -/
inductive FromSender (K : Layout) (units : Bytes → Nat) : List SendEv → List Data → Prop
  | nil : FromSender K units [] []
  | text {m : Measurement} {b : Bytes} {es : List SendEv} {ds : List Data} : encodeMeasurement K m = some b → FromSender K units es ds → FromSender K units (.json m none :: es) (.text b (units b) :: ds)
  | blob {n : Nat} {es : List SendEv} {ds : List Data} : FromSender K units es ds → FromSender K units (.binary n none :: es) (.blob n :: ds)
  | other {e : SendEv} {es : List SendEv} {ds : List Data} : (∀ m, e ≠ .json m none) → (∀ n, e ≠ .binary n none) → FromSender K units es ds → FromSender K units (e :: es) ds

private theorem fromSender_texts {K : Layout} {units : Bytes → Nat} {es : List SendEv} {ds : List Data} (h : FromSender K units es ds) :
    List.Forall₂ (fun m b => encodeMeasurement K m = some b) (sentMeasurements es) (ds.filterMap fun | .text s _ => some s | .blob _ => none) := by
  induction h with
  | nil => exact .nil
  | text h1 _ ih => exact .cons h1 ih
  | blob _ ih => exact ih
  | @other e es ds h1 h2 _ ih =>
    have : sentMeasurements (e :: es) = sentMeasurements es := by
      unfold sentMeasurements
      rw [List.filterMap_cons_none]
      cases e with
      | json m x => cases x with
        | none => exact absurd rfl (h1 m)
        | some x => rfl
      | _ => rfl
    rw [this]; exact ih

/-- C101: if the messages that arrived are the first ones that the server sent, the page gets the server's measurements from the first one on, in order, each as the JSON text that the server made of it. -/
theorem C101_server {K : Layout} {units : Bytes → Nat} (h : (downloadWorker t0).Reaches as s) {sent rest : List SendEv} (hf : FromSender K units sent (downGot as)) :
    ∃ ms, ms <+: sentMeasurements (sent ++ rest) ∧ List.Forall₂ (fun m b => encodeMeasurement K m = some b) ms (passedOn s.posts) := by
  refine ⟨sentMeasurements sent, ⟨sentMeasurements rest, by simp [sentMeasurements]⟩, ?_⟩
  rw [C101_passes_on h]
  exact fromSender_texts hf

/-! ## Example -/

/-- A download with a measurement of the server in it. -/
def exDown : List DownAct := [.open 10, .onmessage (.blob 8192) 20, .onmessage (.text (str "{}\n") 3) 261, .onmessage (.blob 8192) 300, .onclose]

theorem exDown_reach : ∃ s, (downloadWorker 0).Reaches exDown s ∧ s.posts = [.start 10 none, .client (251/1000) 8195, .server (str "{}\n"), .complete] := by
  have h : ((downloadWorker 0).runFrom (downloadWorker 0).init exDown).map (·.posts) = some [.start 10 none, .client (251/1000) 8195, .server (str "{}\n"), .complete] := by decide +kernel
  obtain ⟨s, hs, hl⟩ := Option.map_eq_some_iff.1 h
  exact ⟨s, hs, hl⟩

theorem exDown_once : OpensOnce exDown := ⟨[], 10, _, rfl, rfl, by simp⟩

end Verif.Props
