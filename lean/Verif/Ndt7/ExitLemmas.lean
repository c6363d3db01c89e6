import Verif.Ndt7.WireLemmas
import Verif.Ndt7.HandlerLemmas

/-! # When a request ends the server -/

namespace Verif.Ndt7
open Verif.Go Verif.Spec
open Verif.Ndt5 (NameValue)

section
variable (K : Layout) (h : Server) (kind : Subtest) (req : Request) (params : Params) (uuid : Bytes)

theorem diskInOrder_append {a b : List Ev} (hd : DiskInOrder K (a ++ b)) : DiskInOrder K a ∧ DiskInOrder K b :=
  ⟨⟨fun d x hx => hd.mkdir d x (by simp [hx]), fun d x hx => hd.create d x (by simp [hx]), fun p c r x hx => hd.write p c r x (by simp [hx]),
    fun d x hx => hd.flush d x (by simp [hx]), fun d x hx => hd.close d x (by simp [hx])⟩,
   ⟨fun d x hx => hd.mkdir d x (by simp [hx]), fun d x hx => hd.create d x (by simp [hx]), fun p c r x hx => hd.write p c r x (by simp [hx]),
    fun d x hx => hd.flush d x (by simp [hx]), fun d x hx => hd.close d x (by simp [hx])⟩⟩

theorem diskInOrder_cons {a : Ev} {b : List Ev} (hd : DiskInOrder K (a :: b)) : DiskInOrder K b := (diskInOrder_append (a := [a]) K hd).2

theorem writeResult_exit (s : Result) : wp (writeResult h uuid kind) s (fun e _ _ => DiskInOrder K e → (NoExit e ↔ (encodeResult K s).isSome = true)) := by
  refine wp_opaque fun Q hQ => ?_
  wp_paths [writeResult, newFile, File.writeResult, File.close, must]
  all_goals refine hQ _ _ _ fun hd => ?_
  all_goals clear hQ
  all_goals
    obtain ⟨d1, d2, d3, d4, d5⟩ := hd
    simp at d1 d2 d4 d5
  all_goals simp
  all_goals
    obtain ⟨x, hx, hi⟩ := d3 _ _ _ _ (.tail _ (.tail _ (.tail _ (.head _))))
    cases hx <;> simp at hi <;> exact hi

theorem writeResult_writes (s : Result) : wp (writeResult h uuid kind) s (fun e _ _ => ∀ p c r a, .call (.write p c r) a ∈ e → r = s) := by
  refine wp_opaque fun Q hQ => ?_
  wp_paths [writeResult, newFile, File.writeResult, File.close, must]
  all_goals refine hQ _ _ _ fun p c r a hm => ?_
  all_goals clear hQ
  all_goals simp at hm
  all_goals exact hm.1.2.2

theorem wr_facts (s : Result) {e : List Ev} {o : Outcome Unit} {s' : Result} (hw : Exec (writeResult h uuid kind) s e o s') :
    ∃ r, r = s ∧ Spec.subtests e = [] ∧ (DiskInOrder K e → (NoExit e ↔ (encodeResult K r).isSome = true)) ∧ ∀ p c r' a, .call (.write p c r') a ∈ e → r' = r :=
  ⟨s, rfl, (wp_iff.1 (writeResult_spec _ _ _ _) _ _ _ hw).2.1.subtests, wp_iff.1 (writeResult_exit K h kind uuid s) _ _ _ hw,
    wp_iff.1 (writeResult_writes h kind uuid s) _ _ _ hw⟩

/-- The result that a request tries to write. -/
structure Attempt (e : List Ev) (r : Result) : Prop where
  clocks : .clock r.startTime ∈ e ∧ .clock r.endTime ∈ e
  server : ∃ o : Option TcpAddr, .call .localAddr (.ok o) ∈ e ∧ r.serverPort = (o.getD noAddr).port
  client : ∃ o : Option TcpAddr, .call .remoteAddr (.ok o) ∈ e ∧ r.clientPort = (o.getD noAddr).port
  data : ∃ d, under kind r = some d ∧ under (other kind) r = none ∧ ((Spec.subtests e = [] ∧ d.startTime = 0 ∧ d.endTime = 0 ∧ d.serverMeasurements = [] ∧ d.clientMeasurements = []) ∨
    ∃ k p x, Spec.subtests e = [(k, p, x)] ∧ d.startTime = x.startTime ∧ d.endTime = x.endTime ∧ d.serverMeasurements = x.serverMeasurements ∧
      d.clientMeasurements = x.clientMeasurements)
  exit : DiskInOrder K e → (NoExit e ↔ (encodeResult K r).isSome = true)
  writes : ∀ p c r' a, .call (.write p c r') a ∈ e → r' = r

set_option maxHeartbeats 4000000 in
theorem measureAndSave_exit (md : List NameValue) (hmd : appendClientMetadata [] req.query2 = .ok md) (s : Result) :
    wp (measureAndSave h kind req params uuid) s (fun e _ _ => SetupOk e → ∃ r, Attempt K kind e r) := by
  refine wp_opaque fun Q hQ => ?_
  cases kind
  all_goals
    wp_paths [measureAndSave, runSubtest, setupResult, hmd, wp_writeResult]
  all_goals refine hQ _ _ _ fun hs => ?_
  all_goals clear hQ
  all_goals
    first
      | (simp [atSetup] at hs; done)
      | skip
  all_goals clear hs
  all_goals
    rename Exec _ _ _ _ _ => hw
    obtain ⟨r, hr, g1, g2, g3⟩ := wr_facts K _ _ _ _ hw
    clear hw
  all_goals
    refine ⟨r, ?_, ?_, ?_, ?_, fun hd => ?_, fun p c r' a hm => g3 p c r' a (by simpa using hm)⟩
    · subst hr; constructor <;> simp
    · subst hr; exact ⟨_, .tail _ (.tail _ (.head _)), rfl⟩
    · subst hr; exact ⟨_, .tail _ (.head _), rfl⟩
    · subst hr
      refine ⟨_, rfl, rfl, ?_⟩
      simp only [subtests_emit, subtests_call, subtests_clock, subtests_append, subtests_nil, g1, List.append_nil]
      first
        | exact .inl ⟨trivial, by trivial, by trivial, by trivial, by trivial⟩
        | exact .inr ⟨_, _, _, rfl, rfl, rfl, rfl, rfl⟩
    · rw [← g2 ⟨fun d x hx => hd.mkdir d x (by simp [hx]), fun d x hx => hd.create d x (by simp [hx]), fun p c r x hx => hd.write p c r x (by simp [hx]),
           fun d x hx => hd.flush d x (by simp [hx]), fun d x hx => hd.close d x (by simp [hx])⟩]
      simp

theorem Attempt.extend {K : Layout} {kind : Subtest} {e pre post : List Ev} {r : Result} (ha : Attempt K kind e r) (h1 : Spec.subtests pre = []) (h2 : NoExit pre)
    (h3 : Spec.subtests post = []) (h4 : NoExit post) (h5 : ∀ p c r' a, .call (.write p c r') a ∉ pre) (h6 : ∀ p c r' a, .call (.write p c r') a ∉ post) :
    Attempt K kind (pre ++ (e ++ post)) r := by
  obtain ⟨a, ⟨o1, b1, b2⟩, ⟨o2, c1, c2⟩, d, x, w⟩ := ha
  refine ⟨by simp [a], ⟨o1, by simp [b1], b2⟩, ⟨o2, by simp [c1], c2⟩, ?_, ?_, fun p c r' a hm => w p c r' a (by simpa [h5, h6] using hm)⟩
  · simpa only [subtests_append, h1, h3, List.nil_append, List.append_nil] using d
  · intro hd
    rw [noExit_append, noExit_append, x (diskInOrder_append K (diskInOrder_append K hd).2).1]
    simp [h2, h4]

theorem runMeasurement_exit (md : List NameValue) (hmd : appendClientMetadata [] req.query2 = .ok md) (s : Result)
    (hq : ∀ msg, validateEarlyExit req.query ≠ .panic msg) :
    wp (runMeasurement h kind req) s (fun e _ _ => (Spec.subtests e = [] ∧ NoExit e ∧ ∀ p c r' a, .call (.write p c r') a ∉ e) ∨ (SetupOk e → ∃ r, Attempt K kind e r)) := by
  refine wp_opaque fun Q hQ => ?_
  cases hv : validateEarlyExit req.query with
  | panic msg => exact absurd hv (hq msg)
  | ok v =>
    cases v with
    | error e =>
      wp_paths [runMeasurement, hv, warnAndClose]
      exact hQ _ _ _ (.inl (by simp))
    | ok p =>
      wp_paths [runMeasurement, hv, warnAndClose, setupConn, wp_measureAndSave]
      all_goals refine hQ _ _ _ ?_
      all_goals
        first
          | (refine .inl ?_; simp; done)
          | (rename Exec _ _ _ _ _ => hw
             refine .inr fun hs => ?_
             obtain ⟨r, hr⟩ := wp_iff.1 (measureAndSave_exit K h kind req _ _ md hmd _) _ _ _ hw (by simpa using hs)
             exact ⟨r, hr.extend (pre := [_, _, _]) (post := [_]) (by simp) (by simp) (by simp) (by simp) (by simp) (by simp)⟩)
end

end Verif.Ndt7
