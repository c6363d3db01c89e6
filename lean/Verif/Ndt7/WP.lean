import Verif.Ndt7.Handler

/-! # Rules for ndt7 programs -/

namespace Verif.Ndt7
open Verif.Go

section
variable {σ α β : Type}

/-- All answers of a call: either the environment answers or the call panics. -/
theorem wp_ask (q : Call) (s : σ) (P : List Ev → Outcome q.Answer → σ → Prop) :
    wp (M.call (S := sig) q) s P ↔ (∀ a, P [.call q (.ok a)] (.ok a) s) ∧ ∀ msg, P [.call q (.panic msg)] (.panic msg) s := by
  rw [wp_call]
  constructor
  · intro h; exact ⟨fun a => h (.ok a), fun m => h (.panic m)⟩
  · rintro ⟨h1, h2⟩ (a | m)
    · exact h1 a
    · exact h2 m

theorem wp_note (o : Note) (s : σ) (P : List Ev → Outcome Unit → σ → Prop) :
    wp (note o) s P ↔ P [.emit o] (.ok ()) s := Iff.rfl

theorem wp_upgrade  (s : σ) (P : List Ev → Outcome (Option Err) → σ → Prop) :
    wp (Ask.upgrade ) s P ↔ (∀ a : Option Err, P [.call Call.upgrade (.ok a)] (.ok a) s) ∧
      ∀ msg, P [.call Call.upgrade (.panic msg)] (.panic msg) s := wp_ask _ _ _

theorem wp_uuid  (s : σ) (P : List Ev → Outcome (Except Err Bytes) → σ → Prop) :
    wp (Ask.uuid ) s P ↔ (∀ a : Except Err Bytes, P [.call Call.uuid (.ok a)] (.ok a) s) ∧
      ∀ msg, P [.call Call.uuid (.panic msg)] (.panic msg) s := wp_ask _ _ _

theorem wp_remoteAddr  (s : σ) (P : List Ev → Outcome (Option TcpAddr) → σ → Prop) :
    wp (Ask.remoteAddr ) s P ↔ (∀ a : Option TcpAddr, P [.call Call.remoteAddr (.ok a)] (.ok a) s) ∧
      ∀ msg, P [.call Call.remoteAddr (.panic msg)] (.panic msg) s := wp_ask _ _ _

theorem wp_localAddr  (s : σ) (P : List Ev → Outcome (Option TcpAddr) → σ → Prop) :
    wp (Ask.localAddr ) s P ↔ (∀ a : Option TcpAddr, P [.call Call.localAddr (.ok a)] (.ok a) s) ∧
      ∀ msg, P [.call Call.localAddr (.panic msg)] (.panic msg) s := wp_ask _ _ _

theorem wp_subtest (k : Subtest) (p : Option Params) (s : σ) (P : List Ev → Outcome (SubtestEnd) → σ → Prop) :
    wp (Ask.subtest k p) s P ↔ (∀ a : SubtestEnd, P [.call (Call.subtest k p) (.ok a)] (.ok a) s) ∧
      ∀ msg, P [.call (Call.subtest k p) (.panic msg)] (.panic msg) s := wp_ask _ _ _

theorem wp_localText  (s : σ) (P : List Ev → Outcome (Bytes) → σ → Prop) :
    wp (Ask.localText ) s P ↔ (∀ a : Bytes, P [.call Call.localText (.ok a)] (.ok a) s) ∧
      ∀ msg, P [.call Call.localText (.panic msg)] (.panic msg) s := wp_ask _ _ _

theorem wp_isMonitoring  (s : σ) (P : List Ev → Outcome (Bool) → σ → Prop) :
    wp (Ask.isMonitoring ) s P ↔ (∀ a : Bool, P [.call Call.isMonitoring (.ok a)] (.ok a) s) ∧
      ∀ msg, P [.call Call.isMonitoring (.panic msg)] (.panic msg) s := wp_ask _ _ _

theorem wp_mkdirAll (d : Bytes) (s : σ) (P : List Ev → Outcome (Option Err) → σ → Prop) :
    wp (Ask.mkdirAll d) s P ↔ (∀ a : Option Err, P [.call (Call.mkdirAll d) (.ok a)] (.ok a) s) ∧
      ∀ msg, P [.call (Call.mkdirAll d) (.panic msg)] (.panic msg) s := wp_ask _ _ _

theorem wp_openExcl (p : Bytes) (s : σ) (P : List Ev → Outcome (Option Err) → σ → Prop) :
    wp (Ask.openExcl p) s P ↔ (∀ a : Option Err, P [.call (Call.openExcl p) (.ok a)] (.ok a) s) ∧
      ∀ msg, P [.call (Call.openExcl p) (.panic msg)] (.panic msg) s := wp_ask _ _ _

theorem wp_write (p : Bytes) (c : Bool) (r : Result) (s : σ) (P : List Ev → Outcome (Option Err) → σ → Prop) :
    wp (Ask.write p c r) s P ↔ (∀ a : Option Err, P [.call (Call.write p c r) (.ok a)] (.ok a) s) ∧
      ∀ msg, P [.call (Call.write p c r) (.panic msg)] (.panic msg) s := wp_ask _ _ _

theorem wp_gzipClose (p : Bytes) (s : σ) (P : List Ev → Outcome (Option Err) → σ → Prop) :
    wp (Ask.gzipClose p) s P ↔ (∀ a : Option Err, P [.call (Call.gzipClose p) (.ok a)] (.ok a) s) ∧
      ∀ msg, P [.call (Call.gzipClose p) (.panic msg)] (.panic msg) s := wp_ask _ _ _

theorem wp_fileClose (p : Bytes) (s : σ) (P : List Ev → Outcome (Option Err) → σ → Prop) :
    wp (Ask.fileClose p) s P ↔ (∀ a : Option Err, P [.call (Call.fileClose p) (.ok a)] (.ok a) s) ∧
      ∀ msg, P [.call (Call.fileClose p) (.panic msg)] (.panic msg) s := wp_ask _ _ _

end

/-- To prove a property of all executions by path enumeration the property is hidden behind a variable. -/
theorem wp_opaque {σ α : Type} {m : P σ α} {s : σ} {Post : List Ev → Outcome α → σ → Prop}
    (h : ∀ Q : List Ev → Outcome α → σ → Prop, (∀ e o s', Post e o s' → Q e o s') → wp m s Q) : wp m s Post :=
  h Post fun _ _ _ h => h

/-- Symbolic execution: unfold the given definitions and rewrite with the rules for `wp`. -/
macro "wps" "[" ls:Lean.Parser.Tactic.simpLemma,* "]" : tactic => `(tactic|
  simp only [wp_bind, wp_note, wp_pure, wp_now, wp_get, wp_modify, wp_defer, wp_ite, wp_panic, wp_recovering, wp_withState,
    wp_upgrade, wp_uuid, wp_remoteAddr, wp_localAddr, wp_subtest, wp_localText, wp_isMonitoring, wp_mkdirAll, wp_openExcl, wp_write, wp_gzipClose, wp_fileClose, ↓reduceIte,
    Bool.false_eq_true, false_implies, not_false_eq_true, true_implies, implies_true, and_true,
    true_and, not_true_eq_false, List.append_nil, List.nil_append, List.cons_append, List.append_assoc, $ls,*])

/-- All paths of a program without loops. The postcondition has to be opaque. -/
syntax "wp_paths" "[" Lean.Parser.Tactic.simpLemma,* "]" : tactic
macro_rules
  | `(tactic| wp_paths [$ls,*]) => `(tactic|
    all_goals try (first
      | wps [$ls,*]; wp_paths [$ls,*]
      | intro _; wp_paths [$ls,*]
      | refine And.intro ?_ ?_ <;> wp_paths [$ls,*]
      | split <;> wp_paths [$ls,*]))

end Verif.Ndt7
