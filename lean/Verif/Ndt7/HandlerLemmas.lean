import Verif.Ndt7.WP
import Verif.Spec.Ndt7

/-! # All executions of an ndt7 request -/

namespace Verif.Ndt7
open Verif.Go Verif.Spec
open Verif.Ndt5 (NameValue)

set_option linter.unusedSimpArgs false

/-! ## Observations of one more event -/

@[simp] theorem statuses_nil : Spec.statuses [] = [] := rfl
@[simp] theorem statuses_append (a b : List Ev) : Spec.statuses (a ++ b) = Spec.statuses a ++ Spec.statuses b := List.filterMap_append ..
@[simp] theorem statuses_clock (t : Int) (e : List Ev) : Spec.statuses (.clock t :: e) = Spec.statuses e := rfl
@[simp] theorem testResults_nil : Spec.testResults [] = [] := rfl
@[simp] theorem testResults_append (a b : List Ev) : Spec.testResults (a ++ b) = Spec.testResults a ++ Spec.testResults b := List.filterMap_append ..
@[simp] theorem testResults_clock (t : Int) (e : List Ev) : Spec.testResults (.clock t :: e) = Spec.testResults e := rfl
@[simp] theorem rates_nil : Spec.rates [] = [] := rfl
@[simp] theorem rates_append (a b : List Ev) : Spec.rates (a ++ b) = Spec.rates a ++ Spec.rates b := List.filterMap_append ..
@[simp] theorem rates_clock (t : Int) (e : List Ev) : Spec.rates (.clock t :: e) = Spec.rates e := rfl
@[simp] theorem responses_nil : Spec.responses [] = [] := rfl
@[simp] theorem responses_append (a b : List Ev) : Spec.responses (a ++ b) = Spec.responses a ++ Spec.responses b := List.filterMap_append ..
@[simp] theorem responses_clock (t : Int) (e : List Ev) : Spec.responses (.clock t :: e) = Spec.responses e := rfl
@[simp] theorem subtests_nil : Spec.subtests [] = [] := rfl
@[simp] theorem subtests_append (a b : List Ev) : Spec.subtests (a ++ b) = Spec.subtests a ++ Spec.subtests b := List.filterMap_append ..
@[simp] theorem subtests_clock (t : Int) (e : List Ev) : Spec.subtests (.clock t :: e) = Spec.subtests e := rfl
@[simp] theorem marks_nil : Spec.marks [] = [] := rfl
@[simp] theorem marks_append (a b : List Ev) : Spec.marks (a ++ b) = Spec.marks a ++ Spec.marks b := List.filterMap_append ..
@[simp] theorem marks_clock (t : Int) (e : List Ev) : Spec.marks (.clock t :: e) = Spec.marks e := rfl
@[simp] theorem statuses_call (q : Call) (r : Outcome q.Answer) (e : List Ev) : Spec.statuses (.call q r :: e) = Spec.statuses e := rfl
@[simp] theorem statuses_emit (o : Note) (e : List Ev) : Spec.statuses (.emit o :: e) = (match o with
    | .connection k st => [(k, st)]
    | _ => []) ++ Spec.statuses e := by cases o <;> rfl
@[simp] theorem testResults_call (q : Call) (r : Outcome q.Answer) (e : List Ev) : Spec.testResults (.call q r :: e) = Spec.testResults e := rfl
@[simp] theorem testResults_emit (o : Note) (e : List Ev) : Spec.testResults (.emit o :: e) = (match o with
    | .testResult p k r => [(p, k, r)]
    | _ => []) ++ Spec.testResults e := by cases o <;> rfl
@[simp] theorem rates_call (q : Call) (r : Outcome q.Answer) (e : List Ev) : Spec.rates (.call q r :: e) = Spec.rates e := rfl
@[simp] theorem rates_emit (o : Note) (e : List Ev) : Spec.rates (.emit o :: e) = (match o with
    | .testRate p k _ r => [(p, k, r)]
    | _ => []) ++ Spec.rates e := by cases o <;> rfl
@[simp] theorem responses_call (q : Call) (r : Outcome q.Answer) (e : List Ev) : Spec.responses (.call q r :: e) = Spec.responses e := rfl
@[simp] theorem responses_emit (o : Note) (e : List Ev) : Spec.responses (.emit o :: e) = (match o with
    | .respond n => [n]
    | _ => []) ++ Spec.responses e := by cases o <;> rfl
@[simp] theorem subtests_emit (o : Note) (e : List Ev) : Spec.subtests (.emit o :: e) = Spec.subtests e := rfl
@[simp] theorem subtests_call (q : Call) (r : Outcome q.Answer) (e : List Ev) : Spec.subtests (.call q r :: e) = (match q, r with
    | .subtest k p, .ok x => [(k, p, x)]
    | _, _ => []) ++ Spec.subtests e := by cases q <;> cases r <;> rfl
@[simp] theorem marks_emit (o : Note) (e : List Ev) : Spec.marks (.emit o :: e) = (match o with
    | .flowCreated t u id => [.created t u id]
    | .flowDeleted t u => [.deleted t u]
    | _ => []) ++ Spec.marks e := by cases o <;> rfl
@[simp] theorem marks_call (q : Call) (r : Outcome q.Answer) (e : List Ev) : Spec.marks (.call q r :: e) = (match q, r with
    | .openExcl p, .ok none => [.opened p]
    | .write p _ r, .ok none => [.wrote p r]
    | _, _ => []) ++ Spec.marks e := by
  cases q <;> rcases r with (_ | _) | _ <;> rfl

@[simp] theorem upgrades_append (a b : List Ev) : Upgrades (a ++ b) ↔ Upgrades a ∨ Upgrades b := by
  simp only [Upgrades, List.mem_append, exists_or]
@[simp] theorem upgrades_nil : ¬ Upgrades [] := by simp [Upgrades]
@[simp] theorem upgrades_emit (o : Note) (e : List Ev) : Upgrades (.emit o :: e) ↔ Upgrades e := by simp [Upgrades]
@[simp] theorem upgrades_clock (t : Int) (e : List Ev) : Upgrades (.clock t :: e) ↔ Upgrades e := by simp [Upgrades]
@[simp] theorem upgrades_call (q : Call) (r : Outcome q.Answer) (e : List Ev) : Upgrades (.call q r :: e) ↔ q = .upgrade ∨ Upgrades e := by
  simp only [Upgrades, List.mem_cons]
  constructor
  · rintro ⟨x, hx | hx⟩
    · cases hx; exact .inl rfl
    · exact .inr ⟨x, hx⟩
  · rintro (rfl | ⟨x, hx⟩)
    · exact ⟨r, .inl rfl⟩
    · exact ⟨x, .inr hx⟩

@[simp] theorem setupOk_nil : SetupOk [] := by simp [SetupOk]
@[simp] theorem setupOk_append (a b : List Ev) : SetupOk (a ++ b) ↔ SetupOk a ∧ SetupOk b := by
  unfold SetupOk
  constructor
  · intro h
    exact ⟨fun q m hm => h q m (List.mem_append_left _ hm), fun q m hm => h q m (List.mem_append_right _ hm)⟩
  · rintro ⟨h1, h2⟩ q m hm
    rcases List.mem_append.1 hm with hm | hm
    · exact h1 q m hm
    · exact h2 q m hm
@[simp] theorem setupOk_emit (o : Note) (e : List Ev) : SetupOk (.emit o :: e) ↔ SetupOk e := by simp [SetupOk]
@[simp] theorem setupOk_clock (t : Int) (e : List Ev) : SetupOk (.clock t :: e) ↔ SetupOk e := by simp [SetupOk]
theorem setupOk_ok (q : Call) (a : q.Answer) (e : List Ev) : SetupOk (.call q (.ok a) :: e) ↔ SetupOk e := by
  simp only [SetupOk, List.mem_cons]
  constructor
  · intro h q m hm; exact h q m (.inr hm)
  · rintro h q m (hm | hm)
    · cases hm
    · exact h q m hm
theorem setupOk_panic (q : Call) (msg : Bytes) (e : List Ev) : SetupOk (.call q (.panic msg) :: e) ↔ atSetup q = false ∧ SetupOk e := by
  simp only [SetupOk, List.mem_cons]
  constructor
  · intro h; exact ⟨h q msg (.inl rfl), fun q m hm => h q m (.inr hm)⟩
  · rintro ⟨h1, h⟩ q m (hm | hm)
    · cases hm; exact h1
    · exact h q m hm

@[simp] theorem setupOk_call (q : Call) (r : Outcome q.Answer) (e : List Ev) : SetupOk (.call q r :: e) ↔ (match r with
    | .ok _ => True
    | .panic _ => atSetup q = false) ∧ SetupOk e := by
  cases r
  · simpa using setupOk_ok ..
  · exact setupOk_panic ..

@[simp] theorem evalOk_nil : EvalOk [] := by simp [EvalOk]
@[simp] theorem evalOk_append (a b : List Ev) : EvalOk (a ++ b) ↔ EvalOk a ∧ EvalOk b := by
  unfold EvalOk
  constructor
  · intro h
    exact ⟨fun q m hm => h q m (List.mem_append_left _ hm), fun q m hm => h q m (List.mem_append_right _ hm)⟩
  · rintro ⟨h1, h2⟩ q m hm
    rcases List.mem_append.1 hm with hm | hm
    · exact h1 q m hm
    · exact h2 q m hm
@[simp] theorem evalOk_emit (o : Note) (e : List Ev) : EvalOk (.emit o :: e) ↔ EvalOk e := by simp [EvalOk]
@[simp] theorem evalOk_clock (t : Int) (e : List Ev) : EvalOk (.clock t :: e) ↔ EvalOk e := by simp [EvalOk]
theorem evalOk_ok (q : Call) (a : q.Answer) (e : List Ev) : EvalOk (.call q (.ok a) :: e) ↔ EvalOk e := by
  simp only [EvalOk, List.mem_cons]
  constructor
  · intro h q m hm; exact h q m (.inr hm)
  · rintro h q m (hm | hm)
    · cases hm
    · exact h q m hm
theorem evalOk_panic (q : Call) (msg : Bytes) (e : List Ev) : EvalOk (.call q (.panic msg) :: e) ↔ atSetup q = true ∧ EvalOk e := by
  simp only [EvalOk, List.mem_cons]
  constructor
  · intro h; exact ⟨h q msg (.inl rfl), fun q m hm => h q m (.inr hm)⟩
  · rintro ⟨h1, h⟩ q m (hm | hm)
    · cases hm; exact h1
    · exact h q m hm

@[simp] theorem evalOk_call (q : Call) (r : Outcome q.Answer) (e : List Ev) : EvalOk (.call q r :: e) ↔ (match r with
    | .ok _ => True
    | .panic _ => atSetup q = true) ∧ EvalOk e := by
  cases r
  · simpa using evalOk_ok ..
  · exact evalOk_panic ..

@[simp] theorem noExit_append (a b : List Ev) : NoExit (a ++ b) ↔ NoExit a ∧ NoExit b := by
  simp [NoExit, not_or, forall_and]
@[simp] theorem noExit_nil : NoExit [] := by simp [NoExit]
@[simp] theorem noExit_call (q : Call) (r : Outcome q.Answer) (e : List Ev) : NoExit (.call q r :: e) ↔ NoExit e := by simp [NoExit]
@[simp] theorem noExit_clock (t : Int) (e : List Ev) : NoExit (.clock t :: e) ↔ NoExit e := by simp [NoExit]
@[simp] theorem noExit_emit (o : Note) (e : List Ev) : NoExit (.emit o :: e) ↔ (∀ m, o ≠ .exit m) ∧ NoExit e := by
  simp only [NoExit, List.mem_cons, not_or, forall_and]
  constructor
  · rintro ⟨h1, h2⟩; exact ⟨fun m hm => h1 m (by rw [hm]), h2⟩
  · rintro ⟨h1, h2⟩; exact ⟨fun m hm => h1 m (by cases hm; rfl), h2⟩

section
variable (h : Server) (kind : Subtest) (req : Request) (params : Params) (uuid : Bytes)

/-- What does not happen while the result is written. -/
structure Silent (e : List Ev) : Prop where
  statuses : statuses e = []
  testResults : testResults e = []
  rates : rates e = []
  subtests : subtests e = []
  responses : responses e = []
  upgrades : ¬ Upgrades e
  asked : ∀ k p r, .call (.subtest k p) r ∉ e

theorem wp_writeResult (s : Result) (P : List Ev → Outcome Unit → Result → Prop) :
    wp (writeResult h uuid kind) s P ↔ ∀ e o s', Exec (writeResult h uuid kind) s e o s' → P e o s' := wp_iff

theorem writeResult_spec (s : Result) : wp (writeResult h uuid kind) s (fun e o s' => s' = s ∧ Silent e ∧
    (SetupOk e → NoExit e → o = .ok () ∧ ∃ t, marks e =
      [.opened (resultName h.lib h.dataDir kind.name uuid h.compress t), .wrote (resultName h.lib h.dataDir kind.name uuid h.compress t) s])) := by
  refine wp_opaque fun Q hQ => ?_
  wp_paths [writeResult, newFile, File.writeResult, File.close, must]
  all_goals refine hQ _ _ _ ⟨rfl, ?_, ?_⟩
  all_goals clear hQ
  all_goals first
    | (constructor <;> simp [atSetup]; done)
    | (simp [atSetup]; done)
    | (intro _ _; exact ⟨rfl, _, rfl⟩)

/-- The rate of a subtest. -/
def subtestRate (kind : Subtest) (m : List Measurement) : F64 :=
  match kind with
  | .download => downRate m
  | .upload => upRate m

/-- What is known about an execution that reaches the point where a result is guaranteed. -/
structure Measured (md : List NameValue) (e : List Ev) : Prop where
  statuses : Spec.statuses e = [(kind.name, str "result")]
  responses : Spec.responses e = []
  upgrades : ¬ Upgrades e
  subtests : Spec.subtests e = [] ∨ ∃ x, Spec.subtests e = [(kind, (match kind with
    | .download => some params
    | .upload => none), x)]
  asked : ∀ k p r, .call (.subtest k p) r ∈ e → k = kind ∧ p = (match kind with
    | .download => some params
    | .upload => none)
  file : SetupOk e → NoExit e → ∃ t0 t1 tf id r d,
    marks e = [.created t0 uuid id, .opened (resultName h.lib h.dataDir kind.name uuid h.compress tf),
      .wrote (resultName h.lib h.dataDir kind.name uuid h.compress tf) r, .deleted t1 uuid] ∧
    under kind r = some d ∧ under (other kind) r = none ∧ d.uuid = uuid ∧ d.clientMetadata = md ∧ d.serverMetadata = h.serverMetadata ∧
    r.startTime = t0 ∧ r.endTime = t1 ∧ r.version = h.version ∧ r.gitShortCommit = h.gitShortCommit ∧
    id.srcIP = r.serverIP ∧ id.dstIP = r.clientIP ∧ id.sPort = UInt16.ofInt r.serverPort ∧ id.dPort = UInt16.ofInt r.clientPort ∧
    ∀ x ∈ Spec.subtests e, d.serverMeasurements = x.2.2.serverMeasurements ∧ d.clientMeasurements = x.2.2.clientMeasurements ∧
      d.startTime = x.2.2.startTime ∧ d.endTime = x.2.2.endTime
  counted : EvalOk e → ∀ x ∈ Spec.subtests e, x.2.2.crash = none → ∃ addr, .call .localText (.ok addr) ∈ e ∧
    testResults e = [(ndt7Label addr, kind.name, resultLabel x.2.2.err (subtestRate kind x.2.2.serverMeasurements))] ∧
    rates e = if F64.lt (.fin 0) (subtestRate kind x.2.2.serverMeasurements) then
      [(ndt7Label addr, kind.name, subtestRate kind x.2.2.serverMeasurements)] else []
  atMostOnce : (testResults e).length ≤ 1

set_option maxHeartbeats 4000000 in
theorem measureAndSave_spec (md : List NameValue) (hmd : appendClientMetadata [] req.query2 = .ok md) (s : Result) :
    wp (measureAndSave h kind req params uuid) s (fun e _ _ => Measured h kind params uuid md e) := by
  refine wp_opaque fun Q hQ => ?_
  cases kind
  all_goals
    wp_paths [measureAndSave, runSubtest, setupResult, hmd, wp_writeResult]
  all_goals refine hQ _ _ _ ?_
  all_goals clear hQ
  all_goals
    try
      rename Exec _ _ _ _ _ => hw
      obtain ⟨rfl, hsil, hfile⟩ := wp_iff.1 (writeResult_spec _ _ _ _) _ _ _ hw
      clear hw
      obtain ⟨g1, g2, g3, g4, g5, g6, g7⟩ := hsil
  all_goals constructor
  all_goals try first
    | (simp [g1, g2, g3, g4, g5, g6]; done)
    | (simp [g7]; done)
    | (simp +contextual [g7]; done)
    | (simp [atSetup]; done)
  all_goals first
    | (intro hs x hx hc
       simp [g4, atSetup] at hs hx
       subst hx
       first
         | (simp_all; done)
         | (apply Exists.intro
            refine And.intro ?h0 (And.intro ?h1 ?h2)
            case h1 =>
              simp [g2]
              exact ⟨rfl, rfl⟩
            case h0 => simp
            case h2 => simp_all [subtestRate]))
    | skip
  all_goals
    (intro hs hx
     simp [atSetup] at hs hx
     obtain ⟨ho, tf, hm⟩ := hfile hs hx
     first
       | (cases ho; done)
       | (apply Exists.intro
          apply Exists.intro
          apply Exists.intro tf
          apply Exists.intro
          apply Exists.intro
          apply Exists.intro
          refine And.intro ?h1 (And.intro ?h2 ?h3)
          case h1 =>
            simp only [marks_emit, marks_call, marks_clock, marks_append, marks_nil, hm, List.nil_append, List.cons_append, List.append_nil]
            exact rfl
          case h2 => exact rfl
          case h3 => exact ⟨rfl, rfl, rfl, rfl, rfl, rfl, rfl, rfl, rfl, rfl, rfl, rfl, by simp [g4]⟩))

theorem wp_measureAndSave (s : Result) (P : List Ev → Outcome Unit → Result → Prop) :
    wp (measureAndSave h kind req params uuid) s P ↔ ∀ e o s', Exec (measureAndSave h kind req params uuid) s e o s' → P e o s' := wp_iff

/-- The ways in which a request can go. -/
inductive Handled (md : List NameValue) : List Ev → Prop
  | refused (e : Err) (hv : validateEarlyExit req.query = .ok (.error e)) : Handled md [.emit (.respond 400)]
  | wrongProtocol (p : Params) (hv : validateEarlyExit req.query = .ok (.ok p)) (hp : req.protocol ≠ subprotocol) :
      Handled md [.emit (.respond 400), .emit (.connection kind.name (str "websocket-error"))]
  | upgradeCrash (p : Params) (hv : validateEarlyExit req.query = .ok (.ok p)) (hp : req.protocol = subprotocol) (msg : Bytes) :
      Handled md [.call .upgrade (.panic msg)]
  | upgradeFailed (p : Params) (hv : validateEarlyExit req.query = .ok (.ok p)) (hp : req.protocol = subprotocol) (e : Err) :
      Handled md [.call .upgrade (.ok (some e)), .emit (.connection kind.name (str "websocket-error"))]
  | uuidCrash (p : Params) (hv : validateEarlyExit req.query = .ok (.ok p)) (hp : req.protocol = subprotocol) (msg : Bytes) :
      Handled md [.call .upgrade (.ok none), .emit .startCloser, .call .uuid (.panic msg), .emit .cancel]
  | uuidFailed (p : Params) (hv : validateEarlyExit req.query = .ok (.ok p)) (hp : req.protocol = subprotocol) (e : Err) :
      Handled md [.call .upgrade (.ok none), .emit .startCloser, .call .uuid (.ok (.error e)),
        .emit (.connection kind.name (str "uuid-error")), .emit .cancel]
  | measured (p : Params) (hv : validateEarlyExit req.query = .ok (.ok p)) (hp : req.protocol = subprotocol) (uuid : Bytes) (e : List Ev)
      (hm : Measured h kind p uuid md e) :
      Handled md (.call .upgrade (.ok none) :: .emit .startCloser :: .call .uuid (.ok (.ok uuid)) :: (e ++ [.emit .cancel]))

theorem runMeasurement_spec (md : List NameValue) (hmd : appendClientMetadata [] req.query2 = .ok md) (s : Result)
    (hq : ∀ msg, validateEarlyExit req.query ≠ .panic msg) :
    wp (runMeasurement h kind req) s (fun e _ _ => Handled h kind req md e) := by
  refine wp_opaque fun Q hQ => ?_
  cases hv : validateEarlyExit req.query with
  | panic msg => exact absurd hv (hq msg)
  | ok v =>
    cases v with
    | error e =>
      wp_paths [runMeasurement, hv, warnAndClose]
      exact hQ _ _ _ (.refused e hv)
    | ok p =>
      by_cases hp : req.protocol = subprotocol
      · wp_paths [runMeasurement, hv, setupConn, hp, wp_measureAndSave]
        all_goals refine hQ _ _ _ ?_
        all_goals clear hQ
        all_goals try
          rename Call.upgrade.Answer => a
          cases a
        all_goals first
          | (rename subprotocol ≠ subprotocol => hf; exact absurd rfl hf)
          | (rename _ = false => hf; simp at hf; done)
          | (rename ¬ _ = false => hf; simp at hf; done)
          | (rename _ = true => hf; simp at hf; done)
          | exact .upgradeCrash p hv hp _
          | exact .upgradeFailed p hv hp _
          | exact .uuidCrash p hv hp _
          | exact .uuidFailed p hv hp _
          | (rename Exec _ _ _ _ _ => hw
             exact .measured p hv hp _ _ (wp_iff.1 (measureAndSave_spec h kind req p _ md hmd _) _ _ _ hw))
      · wp_paths [runMeasurement, hv, setupConn, hp, warnAndClose]
        all_goals first
          | exact hQ _ _ _ (.wrongProtocol p hv hp)
          | (rename ¬ req.protocol ≠ subprotocol => hf; exact absurd hp hf)

end
end Verif.Ndt7
