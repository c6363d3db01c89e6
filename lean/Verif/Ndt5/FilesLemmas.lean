import Verif.Ndt5.WholeRecord
import Verif.Spec.Ndt5Files

/-! # The file operations of a control connection -/

namespace Verif.Ndt5
open Verif.Go Verif.Spec

set_option maxRecDepth 20000
set_option linter.unusedSimpArgs false

/-- Does the call change the file system. -/
def isDiskCall : Call → Bool
  | .create _ => true
  | .tempFile _ => true
  | .write _ _ => true
  | _ => false

/-- Does the event change the file system. -/
def isDiskOp : Ev → Bool
  | .call q _ => isDiskCall q
  | _ => false

/-- The file operations among events. -/
def diskOps (evs : List Ev) : List Ev := evs.filter isDiskOp

theorem mem_diskOps {e : Ev} {evs : List Ev} : e ∈ diskOps evs ↔ e ∈ evs ∧ isDiskOp e = true := List.mem_filter
theorem diskOps_append (a b : List Ev) : diskOps (a ++ b) = diskOps a ++ diskOps b := List.filter_append ..

/-- The possible sequences of file operations up to some point, for a record with UUID `u` and time `t`, directory `d` and file name `n`. -/
inductive DiskOps (d n u : Bytes) (t : Int) : List Ev → Prop
  | nil : DiskOps d n u t []
  | create (x : Outcome (Option Err)) : u ≠ badUUID → DiskOps d n u t [.call (.create n) x]
  | temp (x : Outcome (Except Err Bytes)) : u = badUUID → DiskOps d n u t [.call (.tempFile d) x]
  | wrote (r : Record) (x : Outcome (Option Err)) : u ≠ badUUID → r.uuid = u → r.startTime = t →
      DiskOps d n u t [.call (.create n) (.ok none), .call (.write n r) x]
  | wroteTemp (p : Bytes) (r : Record) (x : Outcome (Option Err)) : u = badUUID → r.uuid = u → r.startTime = t →
      DiskOps d n u t [.call (.tempFile d) (.ok (.ok p)), .call (.write p r) x]

theorem DiskOps.of_prefix {d n u : Bytes} {t : Int} {a b : List Ev} (h : DiskOps d n u t b) (hp : a <+: b) : DiskOps d n u t a := by
  cases h with
  | nil => rw [List.prefix_nil.1 hp]; exact .nil
  | create x hu =>
    rcases a with _ | ⟨a1, a⟩
    · exact .nil
    · simp at hp; obtain ⟨rfl, rfl⟩ := hp; exact .create x hu
  | temp x hu =>
    rcases a with _ | ⟨a1, a⟩
    · exact .nil
    · simp at hp; obtain ⟨rfl, rfl⟩ := hp; exact .temp x hu
  | wrote r x hu h1 h2 =>
    rcases a with _ | ⟨a1, _ | ⟨a2, a⟩⟩
    · exact .nil
    · simp [List.cons_prefix_cons] at hp; subst hp; exact .create _ hu
    · simp [List.cons_prefix_cons] at hp; obtain ⟨rfl, rfl, rfl⟩ := hp; exact .wrote r x hu h1 h2
  | wroteTemp p r x hu h1 h2 =>
    rcases a with _ | ⟨a1, _ | ⟨a2, a⟩⟩
    · exact .nil
    · simp [List.cons_prefix_cons] at hp; subst hp; exact .temp _ hu
    · simp [List.cons_prefix_cons] at hp; obtain ⟨rfl, rfl, rfl⟩ := hp; exact .wroteTemp p r x hu h1 h2

/-- The directory used for time `t`. -/
def dirOf (cfg : Cfg) (t : Int) : Bytes := pathJoin [cfg.dataDir, cfg.lib.dateDir t]

theorem finish_files (cfg : Cfg) (s : Ctl) : wp (finishRecord cfg) s (fun e _ _ =>
    DiskOps (dirOf cfg s.record.startTime) (pathJoin [dirOf cfg s.record.startTime, s.record.uuid ++ str ".json"]) s.record.uuid s.record.startTime (diskOps e)) := by
  refine wp_opaque fun Q hQ => ?_
  wp_paths [finishRecord, saveData, uuidToFile]
  all_goals refine hQ _ _ _ ?_
  all_goals clear hQ
  all_goals simp [diskOps, isDiskOp, isDiskCall, List.filter_cons, dirOf]
  all_goals first
    | exact .nil
    | exact .create _ (by assumption)
    | exact .temp _ (by assumption)
    | exact .wrote _ _ (by assumption) rfl rfl
    | exact .wroteTemp _ _ _ (by assumption) rfl rfl

theorem diskOps_eq_nil {e : List Ev} (h : ∀ x ∈ e, isDiskOp x = false) : diskOps e = [] := by
  unfold diskOps
  rw [List.filter_eq_nil_iff]
  intro x hx
  simp [h x hx]

theorem isDiskOp_inner {x : Ev} (h : inner x = true) : isDiskOp x = false := by
  cases x with
  | call q r => cases q <;> first | rfl | (simp [inner, ofDisk] at h; done)
  | _ => rfl

/-- All executions of a control connection: the file operations come after the UUID and the start time are known. -/
theorem control_files {cfg : Cfg} {s s' : Unit} {evs : List Ev} {out : Outcome Unit} (h : Exec (HandleControlChannel cfg) s evs out s') :
    diskOps evs = [] ∨ ∃ u t a b, evs = a ++ b ∧ .call (.uuid .control) (.ok u) ∈ a ∧ .clock t ∈ a ∧ diskOps a = [] ∧
      DiskOps (dirOf cfg t) (pathJoin [dirOf cfg t, u ++ str ".json"]) u t (diskOps b) := by
  obtain ⟨rfl, t0, t1, e, o, hc, rfl⟩ := control_parts h
  have hend : diskOps (endNotes cfg o ++ [.clock t1, .emit (.duration cfg.label (t1 - t0)), .emit (.activeTests cfg.label (-1))]) = [] := by
    cases o <;> rfl
  cases hc with
  | addrs msg r => left; simp only [diskOps_append, hend]; rfl
  | uuid a t msg r => left; simp only [diskOps_append, hend]; rfl
  | run a t u eS eF oS oF r s s' hS hF =>
    right
    have h1 := wp_iff.1 (session_parts cfg _) _ _ _ hS
    have h2 := wp_iff.1 (finish_files cfg _) _ _ _ hF
    have h3 := wp_iff.1 (finish_spec cfg _) _ _ _ hF
    have hl := h1.left (pre := []) (post := []) (by simp) (by simp) rfl rfl rfl rfl
    obtain ⟨mp, c, d, l, hsame⟩ := hl.same
    have hu : s.record.uuid = u := by rw [hsame]; rfl
    have ht : s.record.startTime = t := by rw [hsame]; rfl
    rw [hu, ht] at h2
    refine ⟨u, t, [.emit (.activeTests cfg.label 1), .clock t0] ++ ([.call (.addrs .control) (.ok a), .clock t, .call (.uuid .control) (.ok u)] ++ eS),
      eF ++ ([.call (.close .control) r] ++ (endNotes cfg (after (after oS oF) r) ++
        [.clock t1, .emit (.duration cfg.label (t1 - t0)), .emit (.activeTests cfg.label (-1))])), by simp, by simp, by simp, ?_, ?_⟩
    · rw [diskOps_append, diskOps_append, diskOps_eq_nil fun x hx => isDiskOp_inner (h1.inner x hx)]
      rfl
    · rw [diskOps_append, diskOps_append, hend]
      have : diskOps [.call (.close .control) r] = [] := rfl
      rw [this, List.append_nil, List.append_nil]
      exact h2

end Verif.Ndt5
