import Verif.Ndt5.World
import Verif.Spec.Session

/-! # Rules for ndt5 programs -/

namespace Verif.Ndt5
open Verif.Go Verif.Spec

section
variable {σ α β : Type}

/-- All answers of a call: either the environment answers or the call panics. -/
theorem wp_ask (q : Call) (s : σ) (P : List Ev → Outcome q.Answer → σ → Prop) :
    wp (M.call (S := sig) q) s P ↔ (∀ a, P [.call q (.ok a)] (.ok a) s) ∧ ∀ msg, P [.call q (.panic msg)] (.panic msg) s := by
  rw [wp_call]
  constructor
  · intro h; exact ⟨fun a => h (.ok a), fun m => h (.panic m)⟩
  · rintro ⟨h1, h2⟩ (a | m)
    · exact h1 a
    · exact h2 m

theorem wp_note (o : Note) (s : σ) (P : List Ev → Outcome Unit → σ → Prop) :
    wp (note o) s P ↔ P [.emit o] (.ok ()) s := Iff.rfl

theorem wp_send (f : Bytes) (s : σ) (P : List Ev → Outcome (Option Err) → σ → Prop) :
    wp (Ask.send f) s P ↔ (∀ a : Option Err, P [.call (Call.send f) (.ok a)] (.ok a) s) ∧
      ∀ msg, P [.call (Call.send f) (.panic msg)] (.panic msg) s := wp_ask _ _ _

theorem wp_recv  (s : σ) (P : List Ev → Outcome (Except Err Bytes) → σ → Prop) :
    wp (Ask.recv ) s P ↔ (∀ a : Except Err Bytes, P [.call Call.recv (.ok a)] (.ok a) s) ∧
      ∀ msg, P [.call Call.recv (.panic msg)] (.panic msg) s := wp_ask _ _ _

theorem wp_addrs (c : ConnId) (s : σ) (P : List Ev → Outcome (Addrs) → σ → Prop) :
    wp (Ask.addrs c) s P ↔ (∀ a : Addrs, P [.call (Call.addrs c) (.ok a)] (.ok a) s) ∧
      ∀ msg, P [.call (Call.addrs c) (.panic msg)] (.panic msg) s := wp_ask _ _ _

theorem wp_uuid (c : ConnId) (s : σ) (P : List Ev → Outcome (Bytes) → σ → Prop) :
    wp (Ask.uuid c) s P ↔ (∀ a : Bytes, P [.call (Call.uuid c) (.ok a)] (.ok a) s) ∧
      ∀ msg, P [.call (Call.uuid c) (.panic msg)] (.panic msg) s := wp_ask _ _ _

theorem wp_close (c : ConnId) (s : σ) (P : List Ev → Outcome (Unit) → σ → Prop) :
    wp (Ask.close c) s P ↔ (∀ a : Unit, P [.call (Call.close c) (.ok a)] (.ok a) s) ∧
      ∀ msg, P [.call (Call.close c) (.panic msg)] (.panic msg) s := wp_ask _ _ _

theorem wp_listen (d : Dir) (s : σ) (P : List Ev → Outcome (Except Err Nat) → σ → Prop) :
    wp (Ask.listen d) s P ↔ (∀ a : Except Err Nat, P [.call (Call.listen d) (.ok a)] (.ok a) s) ∧
      ∀ msg, P [.call (Call.listen d) (.panic msg)] (.panic msg) s := wp_ask _ _ _

theorem wp_accept (d : Dir) (s : σ) (P : List Ev → Outcome (Bool × Option Err) → σ → Prop) :
    wp (Ask.accept d) s P ↔ (∀ e, P [.call (Call.accept d) (.ok (true, e))] (.ok (true, e)) s) ∧
      (∀ e, P [.call (Call.accept d) (.ok (false, e))] (.ok (false, e)) s) ∧
      ∀ msg, P [.call (Call.accept d) (.panic msg)] (.panic msg) s := by
  unfold Ask.accept
  rw [wp_ask]
  constructor
  · rintro ⟨h1, h2⟩; exact ⟨fun e => h1 (true, e), fun e => h1 (false, e), h2⟩
  · rintro ⟨h1, h2, h3⟩
    refine ⟨?_, h3⟩
    rintro ⟨b, e⟩
    cases b
    · exact h2 e
    · exact h1 e

theorem wp_startMeasuring (d : Dir) (s : σ) (P : List Ev → Outcome (Unit) → σ → Prop) :
    wp (Ask.startMeasuring d) s P ↔ (∀ a : Unit, P [.call (Call.startMeasuring d) (.ok a)] (.ok a) s) ∧
      ∀ msg, P [.call (Call.startMeasuring d) (.panic msg)] (.panic msg) s := wp_ask _ _ _

theorem wp_stopMeasuring (d : Dir) (s : σ) (P : List Ev → Outcome (Except Err Metrics) → σ → Prop) :
    wp (Ask.stopMeasuring d) s P ↔ (∀ a : Except Err Metrics, P [.call (Call.stopMeasuring d) (.ok a)] (.ok a) s) ∧
      ∀ msg, P [.call (Call.stopMeasuring d) (.panic msg)] (.panic msg) s := wp_ask _ _ _

theorem wp_fill (b : Bytes) (s : σ) (P : List Ev → Outcome (Unit) → σ → Prop) :
    wp (Ask.fill b) s P ↔ (∀ a : Unit, P [.call (Call.fill b) (.ok a)] (.ok a) s) ∧
      ∀ msg, P [.call (Call.fill b) (.panic msg)] (.panic msg) s := wp_ask _ _ _

theorem wp_drain  (s : σ) (P : List Ev → Outcome (Option Err) → σ → Prop) :
    wp (Ask.drain ) s P ↔ (∀ a : Option Err, P [.call Call.drain (.ok a)] (.ok a) s) ∧
      ∀ msg, P [.call Call.drain (.panic msg)] (.panic msg) s := wp_ask _ _ _

theorem wp_ctxErr  (s : σ) (P : List Ev → Outcome (Option Err) → σ → Prop) :
    wp (Ask.ctxErr ) s P ↔ (∀ a : Option Err, P [.call Call.ctxErr (.ok a)] (.ok a) s) ∧
      ∀ msg, P [.call Call.ctxErr (.panic msg)] (.panic msg) s := wp_ask _ _ _

theorem wp_mkdirAll (d : Bytes) (s : σ) (P : List Ev → Outcome (Option Err) → σ → Prop) :
    wp (Ask.mkdirAll d) s P ↔ (∀ a : Option Err, P [.call (Call.mkdirAll d) (.ok a)] (.ok a) s) ∧
      ∀ msg, P [.call (Call.mkdirAll d) (.panic msg)] (.panic msg) s := wp_ask _ _ _

theorem wp_create (p : Bytes) (s : σ) (P : List Ev → Outcome (Option Err) → σ → Prop) :
    wp (Ask.create p) s P ↔ (∀ a : Option Err, P [.call (Call.create p) (.ok a)] (.ok a) s) ∧
      ∀ msg, P [.call (Call.create p) (.panic msg)] (.panic msg) s := wp_ask _ _ _

theorem wp_tempFile (d : Bytes) (s : σ) (P : List Ev → Outcome (Except Err Bytes) → σ → Prop) :
    wp (Ask.tempFile d) s P ↔ (∀ a : Except Err Bytes, P [.call (Call.tempFile d) (.ok a)] (.ok a) s) ∧
      ∀ msg, P [.call (Call.tempFile d) (.panic msg)] (.panic msg) s := wp_ask _ _ _

theorem wp_write (p : Bytes) (r : Record) (s : σ) (P : List Ev → Outcome (Option Err) → σ → Prop) :
    wp (Ask.write p r) s P ↔ (∀ a : Option Err, P [.call (Call.write p r) (.ok a)] (.ok a) s) ∧
      ∀ msg, P [.call (Call.write p r) (.panic msg)] (.panic msg) s := wp_ask _ _ _

theorem wp_closeFile (p : Bytes) (s : σ) (P : List Ev → Outcome (Unit) → σ → Prop) :
    wp (Ask.closeFile p) s P ↔ (∀ a : Unit, P [.call (Call.closeFile p) (.ok a)] (.ok a) s) ∧
      ∀ msg, P [.call (Call.closeFile p) (.panic msg)] (.panic msg) s := wp_ask _ _ _

end

/-- Every event of every execution satisfies `Q`. -/
def Foot {σ α : Type} (Q : Ev → Prop) (m : P σ α) : Prop := ∀ s, wp m s (fun e _ _ => ∀ x ∈ e, Q x)

section
variable {σ α β : Type} {Q : Ev → Prop}

theorem foot_pure (a : α) : Foot Q (pure a : P σ α) := fun s => by rw [wp_pure]; simp

theorem foot_panic (msg : Bytes) : Foot Q (M.panic msg : P σ α) := fun s => by rw [wp_panic]; simp

theorem foot_get : Foot Q (M.get : P σ σ) := fun s => by rw [wp_get]; simp

theorem foot_modify (f : σ → σ) : Foot Q (M.modify f : P σ Unit) := fun s => by rw [wp_modify]; simp

theorem foot_bind {x : P σ α} {f : α → P σ β} (hx : Foot Q x) (hf : ∀ a, Foot Q (f a)) : Foot Q (x >>= f) := by
  intro s
  rw [wp_bind]
  refine wp_mono (hx s) ?_
  intro e o s' he
  cases o with
  | ok a =>
    refine wp_mono (hf a s') ?_
    intro e' o' s'' he' x hx
    rcases List.mem_append.1 hx with h | h
    · exact he x h
    · exact he' x h
  | panic msg => exact he

theorem foot_defer {c : P σ Unit} {x : P σ α} (hc : Foot Q c) (hx : Foot Q x) : Foot Q (M.defer c x) := by
  intro s
  rw [wp_defer]
  refine wp_mono (hx s) ?_
  intro e o s' he
  refine wp_mono (hc s') ?_
  intro e' o' s'' he'
  have : ∀ x ∈ e ++ e', Q x := by
    intro x hx
    rcases List.mem_append.1 hx with h | h
    · exact he x h
    · exact he' x h
  cases o' <;> exact this

theorem foot_note {o : Note} (h : Q (.emit o)) : Foot Q (note o : P σ Unit) := fun s => by
  rw [wp_note]; simpa using h

theorem foot_now (h : ∀ t, Q (.clock t)) : Foot Q (M.now : P σ Int) := fun s => by
  rw [wp_now]; intro t; simpa using h t

theorem foot_call {q : Call} (h : ∀ r, Q (.call q r)) : Foot Q (M.call (S := sig) q : P σ q.Answer) := fun s => by
  rw [wp_call]; intro r; simpa using h r

theorem foot_ite {c : Prop} [Decidable c] {x y : P σ α} (hx : c → Foot Q x) (hy : ¬ c → Foot Q y) :
    Foot Q (if c then x else y) := by
  by_cases h : c
  · simpa [h] using hx h
  · simpa [h] using hy h

end



/-- Make the postcondition opaque before symbolic execution. -/
theorem wp_opaque {σ α : Type} {m : P σ α} {s : σ} {Post : List Ev → Outcome α → σ → Prop}
    (h : ∀ Q : List Ev → Outcome α → σ → Prop, (∀ e o s', Post e o s' → Q e o s') → wp m s Q) : wp m s Post :=
  h Post fun _ _ _ h => h

/-- Symbolic execution: unfold the given definitions and rewrite with the rules for `wp`. -/
macro "wps" "[" ls:Lean.Parser.Tactic.simpLemma,* "]" : tactic => `(tactic|
  simp only [wp_bind, wp_note, wp_pure, wp_now, wp_get, wp_modify, wp_defer, wp_ite, wp_panic, wp_recovering, wp_withState,
    wp_send, wp_recv, wp_addrs, wp_uuid, wp_close, wp_listen, wp_accept, wp_startMeasuring, wp_stopMeasuring, wp_fill, wp_drain,
    wp_ctxErr, wp_mkdirAll, wp_create, wp_tempFile, wp_write, wp_closeFile, sendMsg, countError, sendS2CResults, receiveMsg,
    startServer, serveOnce, ↓reduceIte, Bool.false_eq_true, false_implies, not_false_eq_true, true_implies, implies_true, and_true,
    true_and, not_true_eq_false, List.append_nil, List.nil_append, List.cons_append, List.append_assoc, $ls,*])

/-- All paths of a program without loops. The postcondition has to be opaque. -/
syntax "wp_paths" "[" Lean.Parser.Tactic.simpLemma,* "]" : tactic
macro_rules
  | `(tactic| wp_paths [$ls,*]) => `(tactic|
    all_goals try (first
      | wps [$ls,*]; wp_paths [$ls,*]
      | intro _; wp_paths [$ls,*]
      | refine And.intro ?_ ?_ <;> wp_paths [$ls,*]
      | split <;> wp_paths [$ls,*]))

end Verif.Ndt5
