import Verif.Ndt7.Sender
import Verif.Spec.Ndt7Names
import Mathlib.Tactic.Ring

/-!
# The ndt7 senders: C42, C43, C44, C45, C46
-/

namespace Verif.Props
open Verif.Go Verif.Ndt7 Verif.Spec

/-- The runs of the senders, as far as they got: the direction, what was done, what is in the archival data, and the error returned
if the sender returned. -/
inductive SenderRun : Subtest → List SendEv → List Measurement → Option (Option Err) → Prop
  | download (params : Params) (prepare deadline : Option Err) (as : List DlAns) {evs rec res}
      (h : downloadSender params prepare deadline as = (evs, rec, res)) : SenderRun .download evs rec res
  | upload (deadline : Option Err) (as : List UlAns) {evs rec res}
      (h : uploadSender deadline as = (evs, rec, res)) : SenderRun .upload evs rec res

/-- To prove something of all runs: it holds after the set-up and is kept by the iterations. -/
theorem download_spec {params : Params} {I : List SendEv → DlState → Prop} {F : List SendEv → List Measurement → Option Err → Prop}
    (hp : ∀ e, F (.prepare (2 ^ 13) (some e) :: leave .download "make-prepared-message") [] (some e))
    (hd : ∀ e, F (.prepare (2 ^ 13) none :: .setDeadline (some e) :: leave .download "set-write-deadline") [] (some e))
    (h0 : I [.prepare (2 ^ 13) none, .setDeadline none] { size := 2 ^ 13, prepared := 2 ^ 13, totalSent := 0, recorded := [] })
    (hnext : ∀ h s a evs s', I h s → dlStep params s a = (evs, s', none) → I (h ++ evs) s')
    (hend : ∀ h s a evs s' r, I h s → dlStep params s a = (evs, s', some r) → F (h ++ evs) s'.recorded r)
    {prepare deadline : Option Err} {as : List DlAns} {evs rec res} (h : downloadSender params prepare deadline as = (evs, rec, res)) :
    (res = none → ∃ s : DlState, s.recorded = rec ∧ I evs s) ∧ ∀ r, res = some r → F evs rec r := by
  unfold downloadSender at h
  cases prepare with
  | some e =>
    simp only [Prod.mk.injEq] at h
    obtain ⟨rfl, rfl, rfl⟩ := h
    exact ⟨by simp, fun r hr => by cases hr; exact hp _⟩
  | none =>
    cases deadline with
    | some e =>
      simp only [Prod.mk.injEq] at h
      obtain ⟨rfl, rfl, rfl⟩ := h
      exact ⟨by simp, fun r hr => by cases hr; exact hd _⟩
    | none =>
      simp only [Prod.mk.injEq] at h
      obtain ⟨rfl, rfl, rfl⟩ := h
      have := runScript_spec (F := fun h s r => F h s.recorded r) hnext hend as _ _ h0 (o := _) rfl
      exact ⟨fun hr => ⟨_, rfl, by simpa using this.1 hr⟩, fun r hr => by simpa using this.2 r hr⟩

theorem upload_spec {I : List SendEv → List Measurement → Prop} {F : List SendEv → List Measurement → Option Err → Prop}
    (hd : ∀ e, F (.setDeadline (some e) :: leave .upload "set-write-deadline") [] (some e))
    (h0 : I [.setDeadline none] [])
    (hnext : ∀ h s a evs s', I h s → ulStep s a = (evs, s', none) → I (h ++ evs) s')
    (hend : ∀ h s a evs s' r, I h s → ulStep s a = (evs, s', some r) → F (h ++ evs) s' r)
    {deadline : Option Err} {as : List UlAns} {evs rec res} (h : uploadSender deadline as = (evs, rec, res)) :
    (res = none → I evs rec) ∧ ∀ r, res = some r → F evs rec r := by
  unfold uploadSender at h
  cases deadline with
  | some e =>
    simp only [Prod.mk.injEq] at h
    obtain ⟨rfl, rfl, rfl⟩ := h
    exact ⟨by simp, fun r hr => by cases hr; exact hd _⟩
  | none =>
    simp only [Prod.mk.injEq] at h
    obtain ⟨rfl, rfl, rfl⟩ := h
    have := runScript_spec (F := F) hnext hend as _ _ h0 (o := _) rfl
    exact ⟨fun hr => by simpa using this.1 hr, fun r hr => by simpa using this.2 r hr⟩

/-! ## C42: the sizes of the bulk messages -/

/-- The bytes of the binary messages sent successfully. -/
def sentBytes (evs : List SendEv) : Nat := (evs.map fun | .binary n none => n | _ => 0).sum

/-- The sizes of the binary messages. -/
def binarySizes (evs : List SendEv) : List Nat := evs.filterMap fun | .binary n _ => some n | _ => none

/-- Is `n` an acceptable size after `before`. -/
structure SizeOk (before : List SendEv) (n : Nat) : Prop where
  /-- a power of two between `2^13` and `2^20` -/
  power : ∃ k, 13 ≤ k ∧ k ≤ 20 ∧ n = 2 ^ k
  /-- the first one has `2^13` bytes -/
  first : binarySizes before = [] → n = 2 ^ 13
  /-- sizes are kept, or doubled once at least 16 times the current size has been sent -/
  next : ∀ last, (binarySizes before).getLast? = some last → n = last ∨ (n = 2 * last ∧ 16 * last ≤ sentBytes before)
  /-- and they are doubled then -/
  grown : n < 2 ^ 20 → sentBytes before < 16 * n

/-- All binary messages have acceptable sizes. -/
def SizesOk (evs : List SendEv) : Prop := ∀ before n e after, evs = before ++ .binary n e :: after → SizeOk before n

private theorem sizesOk_snoc_binary {h : List SendEv} {n : Nat} {e : Option Err} (h1 : SizesOk h) (h2 : SizeOk h n) :
    SizesOk (h ++ [.binary n e]) := by
  intro before n' e' after heq
  rcases List.eq_nil_or_concat after with rfl | ⟨after', x, rfl⟩
  · have := List.append_inj' heq rfl
    obtain ⟨rfl, h3⟩ := this
    simp at h3
    rw [← h3.1]
    exact h2
  · rw [List.concat_eq_append, ← List.cons_append, ← List.append_assoc] at heq
    exact h1 _ _ _ _ (List.append_inj' heq rfl).1

private theorem sizesOk_append {h evs : List SendEv} (h1 : SizesOk h) (h2 : ∀ n e, .binary n e ∉ evs) : SizesOk (h ++ evs) := by
  intro before n e after heq
  rw [List.append_eq_append_iff] at heq
  rcases heq with ⟨a, rfl, h4⟩ | ⟨c, rfl, h4⟩
  · exact absurd (h4 ▸ by simp) (h2 n e)
  · cases c with
    | nil => simp at h4; exact absurd (h4 ▸ by simp) (h2 n e)
    | cons x c => simp at h4; exact h1 before n e c (by rw [h4.1])

/-- What is known between two iterations. -/
structure DlInv (h : List SendEv) (s : DlState) : Prop where
  ok : SizesOk h
  next : SizeOk h s.size
  prepared : s.prepared = s.size
  total : s.totalSent = sentBytes h

private theorem sentBytes_append (a b : List SendEv) : sentBytes (a ++ b) = sentBytes a + sentBytes b := by simp [sentBytes]
private theorem binarySizes_append (a b : List SendEv) : binarySizes (a ++ b) = binarySizes a ++ binarySizes b := by simp [binarySizes]

private theorem sizeOk_append {h evs : List SendEv} {n : Nat} (h1 : SizeOk h n) (h2 : ∀ n e, .binary n e ∉ evs) : SizeOk (h ++ evs) n := by
  have e1 : binarySizes evs = [] := by
    rw [binarySizes, List.filterMap_eq_nil_iff]
    intro x hx
    cases x <;> first | rfl | exact absurd hx (h2 _ _)
  have e2 : sentBytes evs = 0 := by
    rw [sentBytes, List.sum_eq_zero_iff_forall_eq_nat]
    intro y hy
    obtain ⟨x, hx, rfl⟩ := List.mem_map.1 hy
    cases x <;> first | rfl | exact absurd hx (h2 _ _)
  obtain ⟨g1, g2, g3, g4⟩ := h1
  constructor
  · exact g1
  · rw [binarySizes_append, e1, List.append_nil]; exact g2
  · rw [binarySizes_append, sentBytes_append, e1, e2]; simpa using g3
  · rw [sentBytes_append, e2]; simpa using g4

private theorem dl_inv {params : Params} (h : List SendEv) (s : DlState) (a : DlAns) (evs : List SendEv) (s' : DlState) (o : Option (Option Err))
    (hi : DlInv h s) (hs : dlStep params s a = (evs, s', o)) : SizesOk (h ++ evs) ∧ (o = none → DlInv (h ++ evs) s') := by
  obtain ⟨i1, i2, i3, i4⟩ := hi
  cases a with
  | closed =>
    simp only [dlStep, Prod.mk.injEq] at hs
    obtain ⟨rfl, rfl, rfl⟩ := hs
    exact ⟨sizesOk_append i1 (by simp [leave]), by simp⟩
  | measurement m json ping =>
    simp only [dlStep] at hs
    repeat' split at hs
    all_goals
      simp only [Prod.mk.injEq] at hs
      obtain ⟨rfl, rfl, rfl⟩ := hs
      refine ⟨sizesOk_append i1 (by simp [leave]), ?_⟩
    · simp
    · simp
    · simp
    · intro _
      exact ⟨sizesOk_append i1 (by simp), sizeOk_append i2 (by simp), i3, by rw [i4]; simp [sentBytes]⟩
  | bulk write prepare =>
    have key : SizesOk (h ++ [.binary s.prepared none]) := sizesOk_snoc_binary i1 (i3 ▸ i2)
    have hsent : sentBytes (h ++ [.binary s.size none]) = sentBytes h + s.size := by simp [sentBytes]
    have hlast : (binarySizes (h ++ [.binary s.size none])).getLast? = some s.size := by simp [binarySizes]
    obtain ⟨k, k1, k2, k3⟩ := i2.power
    simp only [dlStep] at hs
    split at hs
    · rename_i e
      simp only [Prod.mk.injEq] at hs
      obtain ⟨rfl, rfl, rfl⟩ := hs
      refine ⟨?_, by simp⟩
      have := sizesOk_append (evs := leave .download "write-prepared-message")
        (sizesOk_snoc_binary i1 (n := s.prepared) (i3 ▸ i2) (e := some e)) (by simp [leave])
      simpa using this
    · simp only [maxScaledMessageSize, scalingFraction, ge_iff_le, gt_iff_lt, i4, i3] at hs
      rw [i3] at key
      split at hs
      · rename_i hb
        simp only [Prod.mk.injEq] at hs
        obtain ⟨rfl, rfl, rfl⟩ := hs
        refine ⟨key, fun _ => ⟨key, ⟨⟨k, k1, k2, k3⟩, ?_, ?_, ?_⟩, rfl, hsent.symm⟩⟩
        · simp [binarySizes]
        · intro last hl; rw [hlast] at hl; simp at hl; exact .inl hl
        · intro hlt; exact absurd hlt (by simpa using hb)
      · rename_i hb
        split at hs
        · rename_i hc
          simp only [Prod.mk.injEq] at hs
          obtain ⟨rfl, rfl, rfl⟩ := hs
          refine ⟨key, fun _ => ⟨key, ⟨⟨k, k1, k2, k3⟩, ?_, ?_, ?_⟩, rfl, hsent.symm⟩⟩
          · simp [binarySizes]
          · intro last hl; rw [hlast] at hl; simp at hl; exact .inl hl
          · intro hlt; rw [hsent]; dsimp only; omega
        · rename_i hc
          have hgrow : 16 * s.size ≤ sentBytes h + s.size := by omega
          split at hs
          · simp only [Prod.mk.injEq] at hs
            obtain ⟨rfl, rfl, rfl⟩ := hs
            refine ⟨?_, by simp⟩
            have := sizesOk_append (evs := .prepare (s.size * 2) (some ‹_›) :: leave .download "make-prepared-message") key (by simp [leave])
            simpa using this
          · simp only [Prod.mk.injEq] at hs
            obtain ⟨rfl, rfl, rfl⟩ := hs
            have key2 : SizesOk (h ++ [.binary s.size none, .prepare (s.size * 2) none]) := by
              have := sizesOk_append (evs := [.prepare (s.size * 2) none]) key (by simp)
              simpa using this
            refine ⟨key2, fun _ => ⟨key2, ⟨⟨k + 1, by omega, ?_, by simp only [k3]; ring⟩, ?_, ?_, ?_⟩, rfl, ?_⟩⟩
            · by_contra hk
              have : k = 20 := by omega
              subst this
              exact hb (by rw [k3])
            · simp [binarySizes]
            · intro last hl
              simp [binarySizes] at hl
              subst hl
              refine .inr ⟨by ring, ?_⟩
              simp [sentBytes] at hgrow ⊢
              omega
            · intro _
              have := i2.grown (by omega)
              simp [sentBytes] at this ⊢
              omega
            · simp [sentBytes]

/-- C42: every binary message has an acceptable size. -/
theorem C42_sizes {params : Params} {prepare deadline : Option Err} {as : List DlAns} {evs rec res}
    (h : downloadSender params prepare deadline as = (evs, rec, res)) : SizesOk evs := by
  have := download_spec (I := DlInv) (F := fun evs _ _ => SizesOk evs) (params := params)
    (fun e => sizesOk_append (h := []) (fun _ _ _ _ h => by simp at h) (by simp [leave]))
    (fun e => sizesOk_append (h := []) (fun _ _ _ _ h => by simp at h) (by simp [leave]))
    ⟨sizesOk_append (h := []) (fun _ _ _ _ h => by simp at h) (by simp),
     ⟨⟨13, by omega, by omega, rfl⟩, fun _ => rfl, by simp [binarySizes], by simp [sentBytes]⟩, rfl, rfl⟩
    (fun h s a evs s' hi hs => (dl_inv h s a evs s' none hi hs).2 rfl)
    (fun h s a evs s' r hi hs => (dl_inv h s a evs s' (some r) hi hs).1) h
  cases res with
  | none => obtain ⟨s, -, hi⟩ := this.1 rfl; exact hi.ok
  | some r => exact this.2 r rfl

/-- While the size can still grow, less than 16 times the biggest size has been sent: the 64-bit counter cannot overflow before it is
read for the last time. -/
theorem download_sent_small {h : List SendEv} {s : DlState} (hi : DlInv h s) (hs : s.size < 2 ^ 20) : s.totalSent < 2 ^ 24 := by
  have := hi.next.grown hs
  rw [hi.total]
  omega

/-- A download that sends enough to double the size, twice. -/
example : ∃ rec, downloadSender {} none none (List.replicate 30 (.bulk none none)) =
      (.prepare 8192 none :: .setDeadline none :: ((List.replicate 16 (.binary 8192 none)) ++ [.prepare 16384 none] ++
        (List.replicate 8 (.binary 16384 none)) ++ [.prepare 32768 none] ++ (List.replicate 6 (.binary 32768 none))), rec, none) := ⟨_, rfl⟩

/-! ## C43: the measurements recorded -/

/-- The measurements successfully written to the client. -/
def sentMeasurements (evs : List SendEv) : List Measurement := evs.filterMap fun | .json m none => some m | _ => none

private theorem sentM_append (a b : List SendEv) : sentMeasurements (a ++ b) = sentMeasurements a ++ sentMeasurements b := by
  simp [sentMeasurements]

/-- C43: the archival data hold exactly the measurements sent, in order, at every point between iterations and at every return. -/
theorem C43_recorded_as_sent {kind : Subtest} {evs rec res} (h : SenderRun kind evs rec res) : rec = sentMeasurements evs := by
  cases h with
  | download params prepare deadline as h =>
    have := download_spec (I := fun h s => s.recorded = sentMeasurements h) (F := fun h r _ => r = sentMeasurements h) (params := params)
      (fun e => rfl) (fun e => rfl) rfl
      (by
        intro h s a evs s' hi hs
        rw [sentM_append, ← hi]
        cases a <;> simp only [dlStep] at hs
        all_goals repeat' split at hs
        all_goals first
          | (simp only [Prod.mk.injEq, reduceCtorEq, and_false] at hs; done)
          | (simp only [Prod.mk.injEq] at hs; obtain ⟨rfl, rfl, -⟩ := hs; simp [sentMeasurements]))
      (by
        intro h s a evs s' r hi hs
        rw [sentM_append, ← hi]
        cases a <;> simp only [dlStep] at hs
        all_goals repeat' split at hs
        all_goals first
          | (simp only [Prod.mk.injEq, reduceCtorEq, and_false] at hs; done)
          | (simp only [Prod.mk.injEq] at hs; obtain ⟨rfl, rfl, -⟩ := hs; simp [sentMeasurements, leave])) h
    cases res with
    | none => obtain ⟨s, rfl, hi⟩ := this.1 rfl; exact hi
    | some r => exact this.2 r rfl
  | upload deadline as h =>
    have := upload_spec (I := fun h s => s = sentMeasurements h) (F := fun h r _ => r = sentMeasurements h)
      (fun e => rfl) rfl
      (by
        intro h s a evs s' hi hs
        rw [sentM_append, ← hi]
        cases a <;> simp only [ulStep] at hs
        all_goals repeat' split at hs
        all_goals first
          | (simp only [Prod.mk.injEq, reduceCtorEq, and_false] at hs; done)
          | (simp only [Prod.mk.injEq] at hs; obtain ⟨rfl, rfl, -⟩ := hs; simp [sentMeasurements]))
      (by
        intro h s a evs s' r hi hs
        rw [sentM_append, ← hi]
        cases a <;> simp only [ulStep] at hs
        all_goals repeat' split at hs
        all_goals first
          | (simp only [Prod.mk.injEq, reduceCtorEq, and_false] at hs; done)
          | (simp only [Prod.mk.injEq] at hs; obtain ⟨rfl, rfl, -⟩ := hs; simp [sentMeasurements, leave])) h
    cases res with
    | none => exact this.1 rfl
    | some r => exact this.2 r rfl

/-- An upload with a measurement sent and one that fails. -/
example (m n : Measurement) : SenderRun .upload [.setDeadline none, .json m none, .ping none, .json n (some (str "e")),
    .count (str "upload") (str "write-json"), .stopMeasurer] [m] (some (some (str "e"))) :=
  .upload none [.measurement m none none, .measurement n (some (str "e")) none] rfl

/-! ## The shape of all runs -/

/-- What happens while a sender goes on. -/
inductive Quiet (goesOn : Measurement → Prop) : SendEv → Prop
  | prepare (n : Nat) : Quiet goesOn (.prepare n none)
  | setDeadline : Quiet goesOn (.setDeadline none)
  | json (m : Measurement) (h : goesOn m) : Quiet goesOn (.json m none)
  | ping : Quiet goesOn (.ping none)
  | binary (n : Nat) : Quiet goesOn (.binary n none)

/-- The ways to end. The first list is what is done, the text the reason counted, the last argument the error returned. -/
inductive Ending (early : Measurement → Prop) : List SendEv → Bytes → Option Err → Prop
  | prepare (n : Nat) (e : Err) : Ending early [.prepare n (some e)] (str "make-prepared-message") (some e)
  | setDeadline (e : Err) : Ending early [.setDeadline (some e)] (str "set-write-deadline") (some e)
  | json (m : Measurement) (e : Err) : Ending early [.json m (some e)] (str "write-json") (some e)
  | ping (m : Measurement) (e : Err) : Ending early [.json m none, .ping (some e)] (str "ping-send-ticks") (some e)
  | binary (n : Nat) (e : Err) : Ending early [.binary n (some e)] (str "write-prepared-message") (some e)
  | early (m : Measurement) (h : early m) : Ending early [.json m none, .ping none, .close] (str "measurer-closed-early") none
  | closed : Ending early [.close] (str "measurer-closed") none

/-- A run consists of quiet events, and an ending if the sender returned. -/
structure Shape (kind : Subtest) (early : Measurement → Prop) (evs : List SendEv) (res : Option (Option Err)) : Prop where
  running : res = none → ∀ x ∈ evs, Quiet (fun m => ¬ early m) x
  returned : ∀ r, res = some r → ∃ body ending reason, evs = body ++ ending ++ [.count kind.name reason, .stopMeasurer] ∧
    (∀ x ∈ body, Quiet (fun m => ¬ early m) x) ∧ Ending early ending reason r

/-- The measurements that end a download with these parameters: early exit is requested, there are TCP statistics, and the acknowledged
bytes reach the limit. -/
def ReachesLimit (params : Params) (m : Measurement) : Prop :=
  params.isEarlyExit = true ∧ ∃ t, m.tcp = some t ∧ params.maxBytes ≤ t.info.bytesAcked

private theorem reached_iff {params : Params} {m : Measurement} : reached params m = true ↔ ReachesLimit params m := by
  unfold reached ReachesLimit
  cases m.tcp <;> simp

theorem download_shape {params : Params} {prepare deadline : Option Err} {as : List DlAns} {evs rec res}
    (h : downloadSender params prepare deadline as = (evs, rec, res)) : Shape .download (ReachesLimit params) evs res := by
  have := download_spec (params := params) (I := fun h _ => ∀ x ∈ h, Quiet (fun m => ¬ ReachesLimit params m) x)
    (F := fun evs _ r => ∃ body ending reason, evs = body ++ ending ++ [.count (Subtest.download).name reason, .stopMeasurer] ∧
      (∀ x ∈ body, Quiet (fun m => ¬ ReachesLimit params m) x) ∧ Ending (ReachesLimit params) ending reason r)
    (fun e => ⟨[], _, _, rfl, by simp, .prepare _ e⟩)
    (fun e => ⟨[.prepare (2 ^ 13) none], _, _, rfl, by simpa using .prepare _, .setDeadline e⟩)
    (by intro x hx; simp at hx; rcases hx with rfl | rfl; exacts [.prepare _, .setDeadline])
    (by
      intro h s a evs s' hi hs x hx
      rcases List.mem_append.1 hx with hx | hx
      · exact hi x hx
      · cases a <;> simp only [dlStep] at hs
        all_goals repeat' split at hs
        all_goals first
          | (simp only [Prod.mk.injEq, reduceCtorEq, and_false] at hs; done)
          | (simp only [Prod.mk.injEq] at hs; obtain ⟨rfl, rfl, -⟩ := hs)
        all_goals simp at hx
        all_goals first
          | (rename ¬ reached _ _ = true => hr; rcases hx with rfl | rfl; exacts [.json _ (fun h => hr (reached_iff.2 h)), .ping])
          | (subst hx; exact .binary _)
          | (rcases hx with rfl | rfl; exacts [.binary _, .prepare _]))
    (by
      intro h s a evs s' r hi hs
      cases a <;> simp only [dlStep] at hs
      all_goals repeat' split at hs
      all_goals first
        | (simp only [Prod.mk.injEq, reduceCtorEq, and_false] at hs; done)
        | (simp only [Prod.mk.injEq, Option.some.injEq] at hs; obtain ⟨rfl, rfl, rfl⟩ := hs)
      · rename_i m p1 p2 e; exact ⟨h, [.json m (some e)], _, by simp [leave], hi, .json m e⟩
      · rename_i m p1 p2 e; exact ⟨h, [.json m none, .ping (some e)], _, by simp [leave], hi, .ping m e⟩
      · rename_i m _ _ hr; exact ⟨h, [.json m none, .ping none, .close], _, by simp [leave], hi, .early m (reached_iff.1 hr)⟩
      · exact ⟨h, _, _, by simp [leave], hi, .closed⟩
      · rename_i e; exact ⟨h, [.binary s.prepared (some e)], _, by simp [leave], hi, .binary _ e⟩
      · rename_i e
        refine ⟨h ++ [.binary s.prepared none], [.prepare (s.size * 2) (some e)], _, by simp [leave], ?_, .prepare _ e⟩
        intro x hx
        rcases List.mem_append.1 hx with hx | hx
        · exact hi x hx
        · simp at hx; subst hx; exact .binary _) h
  exact ⟨fun hr => by obtain ⟨s, -, hi⟩ := this.1 hr; exact hi, this.2⟩

theorem upload_shape {deadline : Option Err} {as : List UlAns} {evs rec res}
    (h : uploadSender deadline as = (evs, rec, res)) : Shape .upload (fun _ => False) evs res := by
  have := upload_spec (I := fun h _ => ∀ x ∈ h, Quiet (fun _ => ¬ False) x)
    (F := fun evs _ r => ∃ body ending reason, evs = body ++ ending ++ [.count (Subtest.upload).name reason, .stopMeasurer] ∧
      (∀ x ∈ body, Quiet (fun _ => ¬ False) x) ∧ Ending (fun _ => False) ending reason r)
    (fun e => ⟨[], _, _, rfl, by simp, .setDeadline e⟩)
    (by intro x hx; simp at hx; subst hx; exact .setDeadline)
    (by
      intro h s a evs s' hi hs x hx
      rcases List.mem_append.1 hx with hx | hx
      · exact hi x hx
      · cases a <;> simp only [ulStep] at hs
        all_goals repeat' split at hs
        all_goals first
          | (simp only [Prod.mk.injEq, reduceCtorEq, and_false] at hs; done)
          | (simp only [Prod.mk.injEq] at hs; obtain ⟨rfl, rfl, -⟩ := hs)
        all_goals simp at hx
        rcases hx with rfl | rfl; exacts [.json _ (fun h => h), .ping])
    (by
      intro h s a evs s' r hi hs
      cases a <;> simp only [ulStep] at hs
      all_goals repeat' split at hs
      all_goals first
        | (simp only [Prod.mk.injEq, reduceCtorEq, and_false] at hs; done)
        | (simp only [Prod.mk.injEq, Option.some.injEq] at hs; obtain ⟨rfl, rfl, rfl⟩ := hs)
      · rename_i m p1 p2 e; exact ⟨h, [.json m (some e)], _, by simp [leave], hi, .json m e⟩
      · rename_i m p1 p2 e; exact ⟨h, [.json m none, .ping (some e)], _, by simp [leave], hi, .ping m e⟩
      · exact ⟨h, _, _, by simp [leave], hi, .closed⟩) h
  exact ⟨this.1, this.2⟩

/-! ## C44: early exit -/

section
variable {params : Params} {prepare deadline : Option Err} {as : List DlAns} {evs : List SendEv} {rec : List Measurement}
  {res : Option (Option Err)}

private theorem split_after_quiet {p : Measurement → Prop} {body rest before after : List SendEv} {x : SendEv}
    (hb : ∀ y ∈ body, Quiet p y) (hx : ¬ Quiet p x) (h : body ++ rest = before ++ x :: after) :
    ∃ c, before = body ++ c ∧ rest = c ++ x :: after := by
  rw [List.append_eq_append_iff] at h
  rcases h with ⟨a, h1, h2⟩ | ⟨c, h1, h2⟩
  · exact ⟨a, h1, h2⟩
  · cases c with
    | nil => exact ⟨[], by simpa using h1.symm, by simpa using h2.symm⟩
    | cons y c =>
      simp at h2
      exact absurd (hb x (h1 ▸ by simp [h2.1])) hx

/-- C44, partial: once a measurement that reaches the limit was sent, the sender only sends the ping, the close message, and returns
successfully - unless the ping fails, in which case it returns that error. In particular that measurement is the last one. -/
theorem C44_ends_at_limit_partial (h : downloadSender params prepare deadline as = (evs, rec, res)) {before after : List SendEv} {m : Measurement}
    (hs : evs = before ++ .json m none :: after) (hm : ReachesLimit params m) :
    (after = [.ping none, .close, .count (str "download") (str "measurer-closed-early"), .stopMeasurer] ∧ res = some none) ∨
    ∃ e, after = [.ping (some e), .count (str "download") (str "ping-send-ticks"), .stopMeasurer] ∧ res = some (some e) := by
  have hsh := download_shape h
  have hnq : ¬ Quiet (fun m => ¬ ReachesLimit params m) (.json m none) := by
    intro hq; cases hq with | json _ h => exact h hm
  cases hr : res with
  | none => exact absurd (hsh.running hr _ (hs ▸ by simp)) hnq
  | some r =>
    obtain ⟨body, ending, reason, rfl, hb, he⟩ := hsh.returned r hr
    rw [List.append_assoc] at hs
    obtain ⟨c, -, h2⟩ := split_after_quiet hb hnq hs
    have hmem : SendEv.json m none ∈ c ++ SendEv.json m none :: after := by simp
    cases he with
    | ping m' e =>
      cases c with
      | nil => simp at h2; exact .inr ⟨e, h2.2.symm, rfl⟩
      | cons y c =>
        simp at h2
        have hmem : SendEv.json m none ∈ c ++ SendEv.json m none :: after := by simp
        rw [← h2.2] at hmem; simp at hmem
    | early m' h' =>
      cases c with
      | nil => simp at h2; exact .inl ⟨h2.2.symm, rfl⟩
      | cons y c =>
        simp at h2
        have hmem : SendEv.json m none ∈ c ++ SendEv.json m none :: after := by simp
        rw [← h2.2] at hmem; simp at hmem
    | json m' e => rw [← h2] at hmem; simp at hmem
    | prepare n e => rw [← h2] at hmem; simp at hmem
    | setDeadline e => rw [← h2] at hmem; simp at hmem
    | binary n e => rw [← h2] at hmem; simp at hmem
    | closed => rw [← h2] at hmem; simp at hmem

/-- C44: the download ends successfully only because a sent measurement reached the limit, or because the measurer ended. -/
theorem C44_only_at_limit (h : downloadSender params prepare deadline as = (evs, rec, res)) (hr : res = some none) :
    (.count (str "download") (str "measurer-closed") ∈ evs) ∨
    (.count (str "download") (str "measurer-closed-early") ∈ evs ∧ ∃ m, rec.getLast? = some m ∧ ReachesLimit params m) := by
  have hrec := C43_recorded_as_sent (.download _ _ _ _ h)
  obtain ⟨body, ending, reason, rfl, hb, he⟩ := (download_shape h).returned none hr
  cases he with
  | early m hm => exact .inr ⟨by simp [Subtest.name], m, by rw [hrec]; simp [sentMeasurements], hm⟩
  | closed => exact .inl (by simp [Subtest.name])

/-- C44: "closed early" is counted only after a measurement that reached the limit, and never without early exit. -/
theorem C44_early_iff_limit (h : downloadSender params prepare deadline as = (evs, rec, res)) :
    .count (str "download") (str "measurer-closed-early") ∈ evs → params.isEarlyExit = true ∧
      ∃ m t, rec.getLast? = some m ∧ m.tcp = some t ∧ params.maxBytes ≤ t.info.bytesAcked := by
  intro hc
  have hrec := C43_recorded_as_sent (.download _ _ _ _ h)
  cases hr : res with
  | none => exact absurd ((download_shape h).running hr _ hc) (by intro hq; cases hq)
  | some r =>
    obtain ⟨body, ending, reason, rfl, hb, he⟩ := (download_shape h).returned r hr
    have hnb : SendEv.count (str "download") (str "measurer-closed-early") ∉ body := fun hm => by cases hb _ hm
    cases he with
    | early m hm =>
      obtain ⟨h1, t, h2, h3⟩ := hm
      exact ⟨h1, m, t, by rw [hrec]; simp [sentMeasurements], h2, h3⟩
    | _ => simp [Subtest.name, hnb] at hc; exact absurd hc (by decide)

end

/-- A measurement with this many bytes acknowledged. -/
def acked (n : Int) : Measurement := { tcp := some { info := { bytesAcked := n }, elapsed := 1 } }

/-- A download that ends early at its second measurement. -/
theorem exEarly : downloadSender ⟨true, 250000000⟩ none none [.bulk none none, .measurement (acked 249999999) none none, .bulk none none,
      .measurement (acked 250000000) none none, .bulk none none] =
    ([.prepare 8192 none, .setDeadline none, .binary 8192 none, .json (acked 249999999) none, .ping none, .binary 8192 none,
      .json (acked 250000000) none, .ping none, .close, .count (str "download") (str "measurer-closed-early"), .stopMeasurer],
     [acked 249999999, acked 250000000], some none) := rfl

/-- C44 is violated when the ping after the measurement that reaches the limit cannot be sent: the download ends there, but with an
error. -/
theorem C44_ends_at_limit_false : ¬ ∀ params prepare deadline as evs rec res, downloadSender params prepare deadline as = (evs, rec, res) →
    ∀ m, .json m none ∈ evs → ReachesLimit params m → res = some none := by
  intro H
  have := H ⟨true, 250000000⟩ none none [.measurement (acked 250000000) none (some (str "e"))] _ _ _ rfl (acked 250000000)
    (by simp [runScript, dlStep]) ⟨rfl, _, rfl, le_refl _⟩
  simp [runScript, dlStep] at this

/-! ## C45: one exit reason, closing exactly on success -/

section
variable {kind : Subtest} {evs : List SendEv} {rec : List Measurement} {res : Option (Option Err)}

private theorem shape (h : SenderRun kind evs rec res) : ∃ early, Shape kind early evs res := by
  cases h with
  | download params prepare deadline as h => exact ⟨_, download_shape h⟩
  | upload deadline as h => exact ⟨_, upload_shape h⟩

/-- The exit reasons counted. -/
def exitReasons (evs : List SendEv) : List (Bytes × Bytes) := evs.filterMap fun | .count d r => some (d, r) | _ => none

private theorem exitReasons_quiet {p : Measurement → Prop} {evs : List SendEv} (h : ∀ x ∈ evs, Quiet p x) : exitReasons evs = [] := by
  rw [exitReasons, List.filterMap_eq_nil_iff]
  intro x hx
  cases h x hx <;> rfl

private theorem exitReasons_append (a b : List SendEv) : exitReasons (a ++ b) = exitReasons a ++ exitReasons b := by simp [exitReasons]

/-- C45: a sender that returned has counted exactly one reason, under its own direction; one that has not, none. -/
theorem C45_one_reason (h : SenderRun kind evs rec res) :
    (res = none → exitReasons evs = []) ∧ (res ≠ none → ∃ reason, exitReasons evs = [(directionText kind, reason)]) := by
  rw [← name_eq]
  obtain ⟨early, hs⟩ := shape h
  refine ⟨fun hr => exitReasons_quiet (hs.running hr), fun hr => ?_⟩
  obtain ⟨r, hr⟩ := Option.ne_none_iff_exists'.1 hr
  obtain ⟨body, ending, reason, rfl, hb, he⟩ := hs.returned r hr
  refine ⟨reason, ?_⟩
  rw [exitReasons_append, exitReasons_append, exitReasons_quiet hb]
  cases he <;> simp [exitReasons]

/-- C45: the reason counted is that of the last thing done. -/
theorem C45_reason_exact (h : SenderRun kind evs rec res) {r : Option Err} (hr : res = some r) :
    ∃ before last reason, evs = before ++ [last, .count (directionText kind) reason, .stopMeasurer] ∧
      match last with
      | .prepare _ e => reason = str "make-prepared-message" ∧ r = e ∧ e ≠ none
      | .setDeadline e => reason = str "set-write-deadline" ∧ r = e ∧ e ≠ none
      | .json _ e => reason = str "write-json" ∧ r = e ∧ e ≠ none
      | .ping e => reason = str "ping-send-ticks" ∧ r = e ∧ e ≠ none
      | .binary _ e => reason = str "write-prepared-message" ∧ r = e ∧ e ≠ none
      | .close => (reason = str "measurer-closed" ∨ reason = str "measurer-closed-early") ∧ r = none
      | _ => False := by
  rw [← name_eq]
  obtain ⟨early, hs⟩ := shape h
  obtain ⟨body, ending, reason, rfl, hb, he⟩ := hs.returned r hr
  cases he with
  | prepare n e => exact ⟨body, .prepare n (some e), _, by simp, rfl, rfl, by simp⟩
  | setDeadline e => exact ⟨body, .setDeadline (some e), _, by simp, rfl, rfl, by simp⟩
  | json m e => exact ⟨body, .json m (some e), _, by simp, rfl, rfl, by simp⟩
  | ping m e => exact ⟨body ++ [.json m none], .ping (some e), _, by simp, rfl, rfl, by simp⟩
  | binary n e => exact ⟨body, .binary n (some e), _, by simp, rfl, rfl, by simp⟩
  | early m h => exact ⟨body ++ [.json m none, .ping none], .close, _, by simp, .inr rfl, rfl⟩
  | closed => exact ⟨body, .close, _, by simp, .inl rfl, rfl⟩

/-- C45: the closing handshake is started exactly if the sender returns success. -/
theorem C45_closes_iff_success (h : SenderRun kind evs rec res) : .close ∈ evs ↔ res = some none := by
  obtain ⟨early, hs⟩ := shape h
  have hnq : ∀ {p : Measurement → Prop}, ¬ Quiet p .close := by intro p hq; cases hq
  cases hr : res with
  | none => exact ⟨fun hc => absurd (hs.running hr _ hc) hnq, by simp⟩
  | some r =>
    obtain ⟨body, ending, reason, rfl, hb, he⟩ := hs.returned r hr
    have hnb : SendEv.close ∉ body := fun hm => hnq (hb _ hm)
    cases he <;> simp [hnb]

/-- C45: nothing is sent after the close message. -/
theorem C45_nothing_after_close (h : SenderRun kind evs rec res) {before after : List SendEv} (hs : evs = before ++ .close :: after) :
    ∃ reason, after = [.count (directionText kind) reason, .stopMeasurer] := by
  rw [← name_eq]
  obtain ⟨early, hsh⟩ := shape h
  have hnq : ∀ {p : Measurement → Prop}, ¬ Quiet p .close := by intro p hq; cases hq
  cases hr : res with
  | none => exact absurd (hsh.running hr _ (hs ▸ by simp)) hnq
  | some r =>
    obtain ⟨body, ending, reason, rfl, hb, he⟩ := hsh.returned r hr
    rw [List.append_assoc] at hs
    obtain ⟨c, -, h2⟩ := split_after_quiet hb hnq hs
    have hmem : SendEv.close ∈ c ++ SendEv.close :: after := by simp
    cases he with
    | closed =>
      cases c with
      | nil => simp at h2; exact ⟨_, h2.symm⟩
      | cons y c =>
        simp at h2
        have hmem : SendEv.close ∈ c ++ SendEv.close :: after := by simp
        rw [← h2.2] at hmem; simp at hmem
    | early m h' =>
      match c with
      | [] => simp at h2
      | [_] => simp at h2
      | [_, _] => simp at h2; exact ⟨_, h2.2.2.symm⟩
      | _ :: _ :: z :: c =>
        simp at h2
        have hmem : SendEv.close ∈ c ++ SendEv.close :: after := by simp
        rw [← h2.2.2.2] at hmem; simp at hmem
    | prepare n e => rw [← h2] at hmem; simp at hmem
    | setDeadline e => rw [← h2] at hmem; simp at hmem
    | json m e => rw [← h2] at hmem; simp at hmem
    | ping m e => rw [← h2] at hmem; simp at hmem
    | binary n e => rw [← h2] at hmem; simp at hmem

/-- C45 with the early exit above, and with a failing write. -/
example : SenderRun .download [.prepare 8192 none, .setDeadline none, .binary 8192 (some (str "e")),
    .count (str "download") (str "write-prepared-message"), .stopMeasurer] [] (some (some (str "e"))) :=
  .download {} none none [.bulk (some (str "e")) none] rfl

/-! ## C46: no bulk data in uploads; pings follow measurements -/

/-- C46: an upload sender never prepares or sends a binary message. -/
theorem C46_upload_no_binary (h : SenderRun .upload evs rec res) : ∀ n e, .binary n e ∉ evs ∧ .prepare n e ∉ evs := by
  cases h with
  | upload deadline as h =>
    have := upload_spec (I := fun h _ => ∀ n e, .binary n e ∉ h ∧ .prepare n e ∉ h) (F := fun h _ _ => ∀ n e, .binary n e ∉ h ∧ .prepare n e ∉ h)
      (by simp [leave]) (by simp)
      (by
        intro h s a evs s' hi hs n e
        cases a <;> simp only [ulStep] at hs
        all_goals repeat' split at hs
        all_goals (simp only [Prod.mk.injEq] at hs; obtain ⟨rfl, rfl, -⟩ := hs; simp [leave, hi n e]))
      (by
        intro h s a evs s' r hi hs n e
        cases a <;> simp only [ulStep] at hs
        all_goals repeat' split at hs
        all_goals (simp only [Prod.mk.injEq] at hs; obtain ⟨rfl, rfl, -⟩ := hs; simp [leave, hi n e])) h
    cases res with
    | none => exact this.1 rfl
    | some r => exact this.2 r rfl

/-- Every ping directly follows a measurement that was sent. -/
def PingsFollow (evs : List SendEv) : Prop := ∀ before e after, evs = before ++ .ping e :: after → ∃ before' m, before = before' ++ [.json m none]

private theorem pingsFollow_append {a b : List SendEv} (ha : PingsFollow a) (hb : PingsFollow b) : PingsFollow (a ++ b) := by
  intro before e after h
  rw [List.append_eq_append_iff] at h
  rcases h with ⟨c, rfl, h2⟩ | ⟨c, h1, h2⟩
  · obtain ⟨x, m, rfl⟩ := hb _ _ _ h2
    exact ⟨a ++ x, m, by simp⟩
  · cases c with
    | nil =>
      obtain ⟨x, m, hx⟩ := hb [] e after (by simpa using h2.symm)
      simp at hx
    | cons y c =>
      simp at h2
      exact ha before e c (by rw [h1, h2.1])

private theorem pingsFollow_none {evs : List SendEv} (h : ∀ e, .ping e ∉ evs) : PingsFollow evs :=
  fun before e after heq => absurd (heq ▸ by simp) (h e)

private theorem pingsFollow_pair (m : Measurement) (e : Option Err) : PingsFollow [.json m none, .ping e] := by
  intro before e' after h
  match before with
  | [] => simp at h
  | [x] => simp at h; exact ⟨[], m, by simp [h.1]⟩
  | x :: y :: z => simp at h

private theorem pingsFollow_measurement (m : Measurement) (e : Option Err) {rest : List SendEv} (h : ∀ e, .ping e ∉ rest) :
    PingsFollow (.json m none :: .ping e :: rest) :=
  pingsFollow_append (a := [.json m none, .ping e]) (pingsFollow_pair m e) (pingsFollow_none h)

/-- C46: each ping directly follows its own measurement, in either direction. -/
theorem C46_pings_follow_measurements (h : SenderRun kind evs rec res) : PingsFollow evs := by
  cases h with
  | download params prepare deadline as h =>
    have := download_spec (params := params) (I := fun h _ => PingsFollow h) (F := fun h _ _ => PingsFollow h)
      (fun e => pingsFollow_none (by simp [leave])) (fun e => pingsFollow_none (by simp [leave])) (pingsFollow_none (by simp))
      (by
        intro h s a evs s' hi hs
        refine pingsFollow_append hi ?_
        cases a <;> simp only [dlStep] at hs
        all_goals repeat' split at hs
        all_goals (simp only [Prod.mk.injEq] at hs; obtain ⟨rfl, rfl, -⟩ := hs)
        all_goals first
          | (refine pingsFollow_measurement _ _ ?_; simp [leave]; done)
          | (refine pingsFollow_none ?_; simp [leave]; done))
      (by
        intro h s a evs s' r hi hs
        refine pingsFollow_append hi ?_
        cases a <;> simp only [dlStep] at hs
        all_goals repeat' split at hs
        all_goals (simp only [Prod.mk.injEq] at hs; obtain ⟨rfl, rfl, -⟩ := hs)
        all_goals first
          | (refine pingsFollow_measurement _ _ ?_; simp [leave]; done)
          | (refine pingsFollow_none ?_; simp [leave]; done)) h
    cases res with
    | none => obtain ⟨s, -, hi⟩ := this.1 rfl; exact hi
    | some r => exact this.2 r rfl
  | upload deadline as h =>
    have := upload_spec (I := fun h _ => PingsFollow h) (F := fun h _ _ => PingsFollow h)
      (fun e => pingsFollow_none (by simp [leave])) (pingsFollow_none (by simp))
      (by
        intro h s a evs s' hi hs
        refine pingsFollow_append hi ?_
        cases a <;> simp only [ulStep] at hs
        all_goals repeat' split at hs
        all_goals (simp only [Prod.mk.injEq] at hs; obtain ⟨rfl, rfl, -⟩ := hs)
        all_goals first
          | (refine pingsFollow_measurement _ _ ?_; simp [leave]; done)
          | (refine pingsFollow_none ?_; simp [leave]; done))
      (by
        intro h s a evs s' r hi hs
        refine pingsFollow_append hi ?_
        cases a <;> simp only [ulStep] at hs
        all_goals repeat' split at hs
        all_goals (simp only [Prod.mk.injEq] at hs; obtain ⟨rfl, rfl, -⟩ := hs)
        all_goals first
          | (refine pingsFollow_measurement _ _ ?_; simp [leave]; done)
          | (refine pingsFollow_none ?_; simp [leave]; done)) h
    cases res with
    | none => exact this.1 rfl
    | some r => exact this.2 r rfl

/-- The pings sent. -/
def pingCount (evs : List SendEv) : Nat := (evs.filter fun | .ping _ => true | _ => false).length

/-- If every ping directly follows a measurement, there are no more pings than measurements. -/
private theorem pings_le : ∀ (n : Nat) (evs : List SendEv), evs.length ≤ n → PingsFollow evs → pingCount evs ≤ (sentMeasurements evs).length := by
  intro n
  induction n with
  | zero => intro evs hl _; have : evs = [] := by simpa using hl
            subst this; simp [pingCount]
  | succ n ih =>
    intro evs hl h
    rcases List.eq_nil_or_concat evs with rfl | ⟨init, x, rfl⟩
    · simp [pingCount]
    · rw [List.concat_eq_append] at h hl ⊢
      have hinit : PingsFollow init := fun b e a heq => h b e (a ++ [x]) (by rw [heq]; simp)
      have key := ih init (by simp at hl; omega) hinit
      by_cases hp : ∃ e, x = .ping e
      · obtain ⟨e, rfl⟩ := hp
        obtain ⟨init', m, rfl⟩ := h init e [] rfl
        have hinit' : PingsFollow init' := fun b e a heq => hinit b e (a ++ [.json m none]) (by rw [heq]; simp)
        have := ih init' (by simp at hl; omega) hinit'
        simp [pingCount, sentMeasurements] at this ⊢
        omega
      · have h1 : pingCount (init ++ [x]) = pingCount init := by
          cases x <;> simp [pingCount] at hp ⊢
        have h2 : (sentMeasurements init).length ≤ (sentMeasurements (init ++ [x])).length := by
          rw [sentM_append]; simp
        omega

/-- C46: there are never more pings than measurements, at any point of the run. -/
theorem C46_pings_not_more_frequent (h : SenderRun kind evs rec res) {before after : List SendEv} (hs : evs = before ++ after) :
    pingCount before ≤ (sentMeasurements before).length :=
  pings_le _ _ (le_refl _) fun b e a heq => C46_pings_follow_measurements h b e (a ++ after) (by rw [hs, heq]; simp)

end

end Verif.Props
