import Verif.Ndt5.SuiteParts

/-! # The control channel, put together from its parts -/

namespace Verif.Ndt5
open Verif.Go Verif.Spec

set_option maxRecDepth 20000
set_option linter.unusedSimpArgs false

/-- The record when the session starts. -/
def firstRecord (cfg : Cfg) (a : Addrs) (t : Int) (u : Bytes) : Record :=
  { gitShortCommit := cfg.gitShortCommit, version := cfg.version, startTime := t, uuid := u, protocol := cfg.kind.name,
    serverMetadata := cfg.metadata, serverIP := a.serverIP, serverPort := a.serverPort, clientIP := a.clientIP, clientPort := a.clientPort }

/-- The first panic wins unless a later cleanup panics. -/
def after {α β : Type} (o : Outcome α) : Outcome β → Outcome α
  | .ok _ => o
  | .panic msg => .panic msg

/-- The counters at the end of a control channel. -/
def endNotes (cfg : Cfg) : Outcome Unit → List Ev
  | .ok _ => [.emit (.controlCount cfg.label (str "okay"))]
  | .panic msg => [.emit (.panicCount cfg.label (panicMsgToErrType msg)), .emit (.controlCount cfg.label (str "panic"))]

theorem wp_session (cfg : Cfg) (s : Ctl) (P : List Ev → Outcome Unit → Ctl → Prop) :
    wp (session cfg) s P ↔ ∀ e o s', Exec (session cfg) s e o s' → P e o s' := wp_iff

theorem wp_finishRecord (cfg : Cfg) (s : Ctl) (P : List Ev → Outcome Unit → Ctl → Prop) :
    wp (finishRecord cfg) s P ↔ ∀ e o s', Exec (finishRecord cfg) s e o s' → P e o s' := wp_iff

/-- The executions of `handleControlChannel`. -/
inductive Channel (cfg : Cfg) : List Ev → Outcome Unit → Prop
  | addrs (msg : Bytes) (r : Outcome Unit) :
      Channel cfg [.call (.addrs .control) (.panic msg), .call (.close .control) r] (after (.panic msg) r)
  | uuid (a : Addrs) (t : Int) (msg : Bytes) (r : Outcome Unit) :
      Channel cfg [.call (.addrs .control) (.ok a), .clock t, .call (.uuid .control) (.panic msg), .call (.close .control) r]
        (after (.panic msg) r)
  | run (a : Addrs) (t : Int) (u : Bytes) (eS eF : List Ev) (oS oF r : Outcome Unit) (s s' : Ctl) :
      Exec (session cfg) { record := firstRecord cfg a t u } eS oS s → Exec (finishRecord cfg) s eF oF s' →
      Channel cfg ([.call (.addrs .control) (.ok a), .clock t, .call (.uuid .control) (.ok u)] ++ (eS ++ (eF ++ [.call (.close .control) r])))
        (after (after oS oF) r)

theorem channel_parts (cfg : Cfg) : wp (handleControlChannel cfg) {} (fun e o _ => Channel cfg e o) := by
  refine wp_opaque fun Q hQ => ?_
  wp_paths [handleControlChannel, wp_session, wp_finishRecord]
  all_goals refine hQ _ _ _ ?_
  all_goals clear hQ
  all_goals first
    | exact Channel.addrs _ (.ok ())
    | exact Channel.addrs _ (.panic _)
    | exact Channel.uuid _ _ _ (.ok ())
    | exact Channel.uuid _ _ _ (.panic _)
    | skip
  all_goals
    have hS := ‹Exec (session _) _ _ _ _›
    have hF := ‹Exec (finishRecord _) _ _ _ _›
    first
    | exact Channel.run _ _ _ _ _ _ _ (.ok ()) _ _ hS hF
    | exact Channel.run _ _ _ _ _ _ _ (.panic _) _ _ hS hF

theorem control_parts {cfg : Cfg} {s s' : Unit} {evs : List Ev} {out : Outcome Unit} (h : Exec (HandleControlChannel cfg) s evs out s') :
    out = .ok () ∧ ∃ t0 t1 e o, Channel cfg e o ∧
      evs = [.emit (.activeTests cfg.label 1), .clock t0] ++ (e ++ (endNotes cfg o ++
        [.clock t1, .emit (.duration cfg.label (t1 - t0)), .emit (.activeTests cfg.label (-1))])) := by
  refine (wp_iff (P := fun evs out _ => out = .ok () ∧ ∃ t0 t1 e o, Channel cfg e o ∧
      evs = [.emit (.activeTests cfg.label 1), .clock t0] ++ (e ++ (endNotes cfg o ++
        [.clock t1, .emit (.duration cfg.label (t1 - t0)), .emit (.activeTests cfg.label (-1))])))).1 ?_ _ _ _ h
  unfold HandleControlChannel
  wps []
  intro t0
  refine wp_mono (channel_parts cfg) ?_
  intro e o _ hc
  cases o with
  | ok a =>
    simp only [countControl]
    wps []
    intro t1
    refine ⟨t0, t1, e, _, hc, ?_⟩
    simp [endNotes]
  | panic msg =>
    simp only [countControl]
    wps []
    intro t1
    refine ⟨t0, t1, e, _, hc, ?_⟩
    simp [endNotes]

end Verif.Ndt5
