import Verif.Ndt7.HandlerLemmas
import Verif.Spec.Ndt7Files

/-! # The file operations of an ndt7 request -/

namespace Verif.Ndt7
open Verif.Go Verif.Spec
open Verif.Ndt5 (NameValue)

set_option linter.unusedSimpArgs false

/-- `time.Format` in UTC. -/
def calendar : Lib where
  dateDir := formatDay
  stamp := formatStamp

/-- Does the call change the file system. -/
def isFileCall : Call → Bool
  | .openExcl _ => true
  | .write _ _ _ => true
  | .gzipClose _ => true
  | _ => false

/-- Does the event change the file system. -/
def isFileOp : Ev → Bool
  | .call q _ => isFileCall q
  | _ => false

/-- The file operations among events. -/
def fileOps (evs : List Ev) : List Ev := evs.filter isFileOp

@[simp] theorem fileOps_nil : fileOps [] = [] := rfl
@[simp] theorem fileOps_append (a b : List Ev) : fileOps (a ++ b) = fileOps a ++ fileOps b := List.filter_append ..
@[simp] theorem fileOps_emit (o : Note) (e : List Ev) : fileOps (.emit o :: e) = fileOps e := rfl
@[simp] theorem fileOps_clock (t : Int) (e : List Ev) : fileOps (.clock t :: e) = fileOps e := rfl
@[simp] theorem fileOps_call (q : Call) (r : Outcome q.Answer) (e : List Ev) :
    fileOps (.call q r :: e) = if isFileCall q then .call q r :: fileOps e else fileOps e := by
  simp only [fileOps, List.filter_cons, isFileOp]
  rfl

theorem mem_fileOps {e : Ev} {evs : List Ev} : e ∈ fileOps evs ↔ e ∈ evs ∧ isFileOp e = true := List.mem_filter

/-- The possible sequences of file operations on a file `n` up to some point. -/
inductive FileOps (n : Bytes) (c : Bool) : List Ev → Prop
  | nil : FileOps n c []
  | opened (x : Outcome (Option Err)) : FileOps n c [.call (.openExcl n) x]
  | wrote (r : Result) (x : Outcome (Option Err)) : FileOps n c [.call (.openExcl n) (.ok none), .call (.write n c r) x]
  | closed (r : Result) (y : Outcome (Option Err)) : c = true →
      FileOps n c [.call (.openExcl n) (.ok none), .call (.write n c r) (.ok none), .call (.gzipClose n) y]

theorem FileOps.of_prefix {n : Bytes} {c : Bool} {a b : List Ev} (h : FileOps n c b) (hp : a <+: b) : FileOps n c a := by
  cases h with
  | nil => rw [List.prefix_nil.1 hp]; exact .nil
  | opened x =>
    rcases a with _ | ⟨a1, a⟩
    · exact .nil
    · simp at hp; obtain ⟨rfl, rfl⟩ := hp; exact .opened x
  | wrote r x =>
    rcases a with _ | ⟨a1, _ | ⟨a2, a⟩⟩
    · exact .nil
    · simp [List.cons_prefix_cons] at hp; subst hp; exact .opened _
    · simp [List.cons_prefix_cons] at hp; obtain ⟨rfl, rfl, rfl⟩ := hp; exact .wrote r x
  | closed r y hc =>
    rcases a with _ | ⟨a1, _ | ⟨a2, _ | ⟨a3, a⟩⟩⟩
    · exact .nil
    · simp [List.cons_prefix_cons] at hp; subst hp; exact .opened _
    · simp [List.cons_prefix_cons] at hp; obtain ⟨rfl, rfl⟩ := hp; exact .wrote r _
    · simp [List.cons_prefix_cons] at hp; obtain ⟨rfl, rfl, rfl, rfl⟩ := hp; exact .closed r y hc

section
variable (h : Server) (kind : Subtest) (req : Request) (params : Params) (uuid : Bytes)

/-- What is known of the file operations of an execution. -/
structure Filed (uuid : Bytes) (e : List Ev) (t : Int) : Prop where
  clock : fileOps e ≠ [] → .clock t ∈ e
  ops : FileOps (resultName h.lib h.dataDir kind.name uuid h.compress t) h.compress (fileOps e)
  close : ∀ p x, .call (.fileClose p) x ∈ e → p = resultName h.lib h.dataDir kind.name uuid h.compress t ∧ fileOps e ≠ []

/-- A result was written, and if there is a compressor it was closed. -/
def Written (e : List Ev) : Prop := ∃ p r, .call (.write p h.compress r) (.ok none) ∈ e ∧ (h.compress = true → ∃ y, .call (.gzipClose p) (.ok y) ∈ e)

theorem writeResult_files (s : Result) : wp (writeResult h uuid kind) s (fun e o s' => s' = s ∧
    (∀ t u, .emit (.flowDeleted t u) ∉ e) ∧ (o = .ok () → Written h e) ∧ ∃ t, Filed h kind uuid e t) := by
  refine wp_opaque fun Q hQ => ?_
  wp_paths [writeResult, newFile, File.writeResult, File.close, must]
  all_goals refine hQ _ _ _ ⟨rfl, by simp, ?_, ?_⟩
  all_goals clear hQ
  all_goals first
    | (intro ho; cases ho; done)
    | (intro _
       rename Int => t
       refine ⟨resultName h.lib h.dataDir kind.name uuid h.compress t, s, by simp, fun hc => ?_⟩
       first
         | exact absurd hc (by assumption)
         | (apply Exists.intro; simp; exact rfl))
    | (rename Int => t
       refine ⟨t, ⟨?_, ?_, ?_⟩⟩
       · intro _; exact List.mem_cons_self
       · simp [isFileCall]
         first
           | exact .nil
           | exact .opened _
           | exact .wrote _ _
           | exact .closed _ _ (by assumption)
       · simp [isFileCall, *])

/-- The file operations of an execution, and what comes when they are over. -/
structure Stored (e : List Ev) (t : Int) : Prop where
  filed : Filed h kind uuid e t
  order : ∃ a b, e = a ++ b ∧ (∀ t u, .emit (.flowDeleted t u) ∉ a) ∧ fileOps b = [] ∧ ∀ t u, .emit (.flowDeleted t u) ∈ b → Written h a

theorem Filed.of_silent {e : List Ev} (h1 : fileOps e = []) (h2 : ∀ p x, .call (.fileClose p) x ∉ e) (t : Int) : Filed h kind uuid e t :=
  ⟨fun h' => absurd h1 h', by rw [h1]; exact .nil, fun p x hx => absurd hx (h2 p x)⟩

theorem Written.append {e : List Ev} (hw : Written h e) (e' : List Ev) : Written h (e' ++ e) := by
  obtain ⟨p, r, h1, h2⟩ := hw
  refine ⟨p, r, List.mem_append_right _ h1, fun hc => ?_⟩
  obtain ⟨y, hy⟩ := h2 hc
  exact ⟨y, List.mem_append_right _ hy⟩

/-- Events before that have nothing to do with files. -/
theorem Stored.after {e : List Ev} {t : Int} (hs : Stored h kind uuid e t) {x : List Ev} (hx : fileOps x = [])
    (hx' : ∀ p y, .call (.fileClose p) y ∉ x) (hd : ∀ t u, .emit (.flowDeleted t u) ∉ x) : Stored h kind uuid (x ++ e) t := by
  obtain ⟨⟨h1, h2, h3⟩, a, b, rfl, h4, h5, h6⟩ := hs
  have hops : fileOps (x ++ (a ++ b)) = fileOps (a ++ b) := by rw [fileOps_append x, hx]; rfl
  refine ⟨⟨?_, ?_, ?_⟩, x ++ a, b, (List.append_assoc ..).symm, ?_, h5, fun t u hu => (h6 t u hu).append h x⟩
  · intro h'
    rw [hops] at h'
    exact List.mem_append_right _ (h1 h')
  · rw [hops]; exact h2
  · intro p y hy
    rw [hops]
    rcases List.mem_append.1 hy with hy | hy
    · exact absurd hy (hx' p y)
    · exact h3 p y hy
  · intro t u hu
    rcases List.mem_append.1 hu with hu | hu
    · exact hd t u hu
    · exact h4 t u hu

/-- Events after that have nothing to do with files. -/
theorem Stored.before {e : List Ev} {t : Int} (hs : Stored h kind uuid e t) {x : List Ev} (hx : fileOps x = [])
    (hx' : ∀ p y, .call (.fileClose p) y ∉ x) (hd : ∀ t u, .emit (.flowDeleted t u) ∉ x) : Stored h kind uuid (e ++ x) t := by
  obtain ⟨⟨h1, h2, h3⟩, a, b, rfl, h4, h5, h6⟩ := hs
  have hops : fileOps (a ++ b ++ x) = fileOps (a ++ b) := by rw [fileOps_append (a ++ b), hx, List.append_nil]
  refine ⟨⟨?_, ?_, ?_⟩, a, b ++ x, List.append_assoc .., h4, by rw [fileOps_append, h5, hx]; rfl, ?_⟩
  · intro h'
    rw [hops] at h'
    exact List.mem_append_left _ (h1 h')
  · rw [hops]; exact h2
  · intro p y hy
    rw [hops]
    rcases List.mem_append.1 hy with hy | hy
    · exact h3 p y hy
    · exact absurd hy (hx' p y)
  · intro t u hu
    rcases List.mem_append.1 hu with hu | hu
    · exact h6 t u hu
    · exact absurd hu (hd t u)

theorem Stored.silent {e : List Ev} (h1 : fileOps e = []) (h2 : ∀ p x, .call (.fileClose p) x ∉ e)
    (h3 : ∀ t u, .emit (.flowDeleted t u) ∉ e) (t : Int) : Stored h kind uuid e t :=
  ⟨.of_silent _ _ _ h1 h2 t, e, [], (List.append_nil _).symm, h3, rfl, fun _ _ hx => by cases hx⟩

/-- The end of the deferred function. -/
theorem Stored.deleted {e : List Ev} {t : Int} (hf : Filed h kind uuid e t) (hd : ∀ t u, .emit (.flowDeleted t u) ∉ e) (hw : Written h e)
    (t' : Int) (u' : Bytes) : Stored h kind uuid (e ++ [.emit (.flowDeleted t' u')]) t := by
  have hops : fileOps (e ++ [.emit (.flowDeleted t' u')]) = fileOps e := by simp
  refine ⟨⟨?_, ?_, ?_⟩, e, _, rfl, hd, rfl, fun _ _ _ => hw⟩
  · intro h'
    rw [hops] at h'
    exact List.mem_append_left _ (hf.clock h')
  · rw [hops]; exact hf.ops
  · intro p y hy
    rw [hops]
    rcases List.mem_append.1 hy with hy | hy
    · exact hf.close p y hy
    · simp at hy

theorem Stored.notDeleted {e : List Ev} {t : Int} (hf : Filed h kind uuid e t) (hd : ∀ t u, .emit (.flowDeleted t u) ∉ e) : Stored h kind uuid e t :=
  ⟨hf, e, [], (List.append_nil _).symm, hd, rfl, fun _ _ hx => by cases hx⟩

theorem Stored.cons_emit {e : List Ev} {t : Int} (o : Note) (hs : Stored h kind uuid e t) (ho : ∀ t u, o ≠ .flowDeleted t u) :
    Stored h kind uuid (.emit o :: e) t :=
  hs.after (x := [.emit o]) h kind uuid (by simp) (by simp) (by
    intro t u hu
    simp only [List.mem_singleton, Event.emit.injEq] at hu
    exact ho t u hu.symm)

theorem Stored.cons_clock {e : List Ev} {t : Int} (c : Int) (hs : Stored h kind uuid e t) : Stored h kind uuid (.clock c :: e) t :=
  hs.after (x := [.clock c]) h kind uuid (by simp) (by simp) (by simp)

theorem Stored.cons_call {e : List Ev} {t : Int} (q : Call) (r : Outcome q.Answer) (hs : Stored h kind uuid e t) (h1 : isFileCall q = false)
    (h2 : ∀ p, q ≠ .fileClose p) : Stored h kind uuid (.call q r :: e) t :=
  hs.after (x := [.call q r]) h kind uuid (by simp [h1]) (by
    intro p y hy
    simp only [List.mem_singleton, Event.call.injEq] at hy
    exact h2 p hy.1.symm) (by simp)

theorem measureAndSave_files (s : Result) : wp (measureAndSave h kind req params uuid) s (fun e _ _ => ∃ t, Stored h kind uuid e t) := by
  refine wp_opaque fun Q hQ => ?_
  cases hmd : appendClientMetadata [] req.query2 with
  | panic msg =>
    wp_paths [measureAndSave, hmd]
    exact hQ _ _ _ ⟨0, .silent _ _ _ (by simp) (by simp) (by simp) 0⟩
  | ok md =>
    cases kind
    all_goals
      wp_paths [measureAndSave, runSubtest, setupResult, hmd, wp_writeResult]
    all_goals refine hQ _ _ _ ?_
    all_goals clear hQ
    all_goals first
      | (rename Exec _ _ _ _ _ => hw
         obtain ⟨rfl, hdel, hok, t, hf⟩ := wp_iff.1 (writeResult_files _ _ _ _) _ _ _ hw
         clear hw
         refine ⟨t, ?_⟩
         repeat' first
           | refine Stored.cons_clock _ _ _ _ ?_
           | refine Stored.cons_emit _ _ _ _ ?_ (by intro _ _ hx; cases hx)
           | refine Stored.cons_call _ _ _ _ _ ?_ rfl (by intro _ hx; cases hx)
           | exact Stored.deleted _ _ _ hf hdel (hok rfl) _ _
           | exact Stored.notDeleted _ _ _ hf hdel)
      | exact ⟨0, .silent _ _ _ (by simp [isFileCall]) (by simp) (by simp) 0⟩

/-- All executions of a request: either it has no file operations, or they are about the file of its UUID. -/
theorem runMeasurement_files (s : Result) : wp (runMeasurement h kind req) s (fun e _ _ =>
    (∀ t, Stored h kind [] e t) ∧ fileOps e = [] ∧ (∀ p x, .call (.fileClose p) x ∉ e) ∧ (∀ t u, .emit (.flowDeleted t u) ∉ e) ∨
      ∃ uuid t, .call .uuid (.ok (.ok uuid)) ∈ e ∧ Stored h kind uuid e t) := by
  refine wp_opaque fun Q hQ => ?_
  wp_paths [runMeasurement, setupConn, warnAndClose, wp_measureAndSave]
  all_goals refine hQ _ _ _ ?_
  all_goals clear hQ
  all_goals first
    | (rename Exec _ _ _ _ _ => hw
       obtain ⟨t, hf⟩ := wp_iff.1 (measureAndSave_files _ _ _ _ _ _) _ _ _ hw
       clear hw
       rename Bytes => u
       refine .inr ⟨u, t, ?m, ?s⟩
       case s =>
         refine Stored.cons_call _ _ _ _ _ ?_ rfl (by intro _ hx; cases hx)
         refine Stored.cons_emit _ _ _ _ ?_ (by intro _ _ hx; cases hx)
         refine Stored.cons_call _ _ _ _ _ ?_ rfl (by intro _ hx; cases hx)
         refine Stored.before _ _ _ hf rfl (by simp) (by simp)
       case m => simp)
    | (refine .inl ⟨fun t => .silent _ _ _ ?_ ?_ ?_ t, ?_, ?_, ?_⟩ <;> simp [isFileCall])

end
end Verif.Ndt7
