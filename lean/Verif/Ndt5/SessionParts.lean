import Verif.Ndt5.ControlParts
import Verif.Props.Login

/-! # The session, put together from its parts -/

namespace Verif.Ndt5
open Verif.Go Verif.Spec

set_option maxRecDepth 20000
set_option linter.unusedSimpArgs false

/-- The counters of a request. -/
def requestNotes (cfg : Cfg) (n : Int) : List Ev :=
  (if requested n 0 then [.emit (.requested cfg.label (str "mid"))] else []) ++
  ((if requested n 1 then [.emit (.requested cfg.label (str "c2s"))] else []) ++
  ((if requested n 2 then [.emit (.requested cfg.label (str "s2c"))] else []) ++
  ((if requested n 3 then [.emit (.requested cfg.label (str "sfw"))] else []) ++
  ((if requested n 5 then [.emit (.requested cfg.label (str "meta"))] else []) ++
  [.emit (.suite cfg.label (join [45] (suites n)))]))))

/-- No login can be read off what was received. -/
def NoLogin (kind : Kind) (r : Except Err Bytes) : Prop := ∀ frame m n, r = .ok frame → ¬ LoggedIn kind frame m n

/-- The executions of a session. -/
inductive Sess (cfg : Cfg) (s : Ctl) : List Ev → Outcome Unit → Ctl → Prop
  | crashed (msg : Bytes) : Sess cfg s [.call .recv (.panic msg)] (.panic msg) s
  | nilLogin (r : Except Err Bytes) (enc : Encoding) : NoLogin cfg.kind r → cfg.kind ≠ .plain →
      (∃ frame doc, r = .ok frame ∧ IsFrame frame 11 doc ∧ IsJson doc .null) →
      Sess cfg s [.call .recv (.ok r)] (.panic nilDeref) { s with encoding := enc }
  | refused (r : Except Err Bytes) (x : Err) (enc : Encoding) : NoLogin cfg.kind r →
      Sess cfg s [.call .recv (.ok r), .emit (.testError cfg.label (str "control") (str "LoginCeremony"))]
        (.panic (panicText (str "Login - error reading JSON message") s.record.uuid x)) { s with encoding := enc }
  | noStatus (frame : Bytes) (m : Messager) (n : Int) : LoggedIn cfg.kind frame m n → requested n 4 = false →
      Sess cfg s [.call .recv (.ok (.ok frame)), .emit (.testError cfg.label (str "control") (str "TestStatus"))]
        (.ok ()) { s with encoding := m.encoding }
  | run (frame : Bytes) (m : Messager) (n : Int) (e : List Ev) (o : Outcome Unit) (s' : Ctl) : LoggedIn cfg.kind frame m n →
      requested n 4 = true → Exec (runSuite cfg n m) { s with encoding := m.encoding } e o s' →
      Sess cfg s (.call .recv (.ok (.ok frame)) :: (requestNotes cfg n ++ e)) o s'

theorem plainLogin_error {frame : Bytes} {m : Messager} {n : Int} {x : Err} (h : (plainLogin (.ok frame)).2 = .error x) :
    ¬ LoggedIn .plain frame m n := by
  rintro (⟨-, h', -⟩ | ⟨h', -⟩)
  · rw [(Props.C09_plain_login_iff frame n).2 (.inl h')] at h; cases h
  · rw [(Props.C09_plain_login_iff frame n).2 (.inr h')] at h; cases h

theorem plainLogin_ok {r : Except Err Bytes} {n : Int} (h : (plainLogin r).2 = .ok n) :
    ∃ frame m, r = .ok frame ∧ LoggedIn .plain frame m n ∧ (plainLogin r).1 = m.encoding := by
  obtain ⟨t, payload, frame, rfl, hf, hc⟩ := Props.C08_encoding_fixed r n h
  rcases hc with ⟨rfl, h1, -⟩ | ⟨rfl, h1, -⟩
  · refine ⟨frame, .tlv, rfl, ?_, h1⟩
    rcases (Props.C09_plain_login_iff frame n).1 h with h' | ⟨doc, kvs, tests, ⟨hi, lo, h', -⟩, -⟩
    · exact .inl ⟨rfl, h', rfl⟩
    · obtain ⟨a, b, hf', -⟩ := hf
      rw [h'] at hf'; simp at hf'
  · refine ⟨frame, .json, rfl, ?_, h1⟩
    rcases (Props.C09_plain_login_iff frame n).1 h with ⟨b, ⟨hi, lo, h', -⟩, -⟩ | h'
    · obtain ⟨a, c, hf', -⟩ := hf
      rw [h'] at hf'; simp at hf'
    · exact .inr ⟨h', rfl⟩

theorem wsLogin_no {k : Kind} (hk : k ≠ .plain) {r : Except Err Bytes} (h : ∀ n, wsLogin r ≠ .ok (.ok n)) : NoLogin k r := by
  rintro frame m n rfl (⟨h', -⟩ | ⟨h', -⟩)
  · exact hk h'
  · exact h n ((Props.C10_ws_login_iff frame n).2 h')

theorem wp_countRequests (cfg : Cfg) (n : Int) (s : Ctl) (P : List Ev → Outcome Unit → Ctl → Prop) :
    wp (countRequests cfg n) s P ↔ P (requestNotes cfg n) (.ok ()) s := by
  unfold countRequests countRequested requestNotes
  simp only [hasBit_mid, hasBit_c2s, hasBit_s2c, hasBit_sfw, hasBit_meta]
  cases requested n 0 <;> cases requested n 1 <;> cases requested n 2 <;> cases requested n 3 <;> cases requested n 5 <;> first | (wps []; done) | (wps []; rfl)

theorem messager_encoding (m : Messager) : m.encoding.messager = some m := by cases m <;> rfl

theorem session_parts (cfg : Cfg) (s : Ctl) : wp (session cfg) s (fun e o s' => Sess cfg s e o s') := by
  unfold session login
  rw [wp_bind, wp_bind, wp_recv]
  refine ⟨?_, fun msg => Sess.crashed msg⟩
  intro r
  have hrun : ∀ (frame : Bytes) (m : Messager) (n : Int), LoggedIn cfg.kind frame m n →
      wp (if hasBit n bitStatus then do
          countRequests cfg n
          let c ← M.get
          match c.encoding.messager with
          | none => M.panic nilDeref
          | some m => runSuite cfg n m
        else countError cfg (str "control") (str "TestStatus")) { s with encoding := m.encoding }
        (fun e' o' s'' => Sess cfg s ([.call .recv (.ok (.ok frame))] ++ e') o' s'') := by
    intro frame m n hl
    rw [hasBit_status, wp_ite]
    constructor
    · intro h
      rw [wp_bind, wp_countRequests]
      simp only
      rw [wp_bind, wp_get]
      simp only [messager_encoding]
      rw [wp_iff]
      intro e o s' he
      exact Sess.run frame m n e o s' hl h he
    · intro h
      wps []
      exact Sess.noStatus frame m n hl (by simpa using h)
  cases hk : cfg.kind with
  | plain =>
    wps []
    cases hr : (plainLogin r).2 with
    | error x =>
      simp only
      unfold panicOnError
      wps []
      refine Sess.refused r x _ ?_
      rintro frame m n rfl
      rw [hk]; exact plainLogin_error hr
    | ok n =>
      simp only
      obtain ⟨frame, m, rfl, hl, he⟩ := plainLogin_ok hr
      rw [he]
      exact hrun frame m n (by rw [hk]; exact hl)
  | ws =>
    wps []
    cases hr : wsLogin r with
    | panic msg =>
      simp only
      wps []
      obtain ⟨frame, rfl⟩ : ∃ frame, r = .ok frame := by
        cases r with
        | error x => simp [wsLogin, receiveJSON, readTLV] at hr
        | ok frame => exact ⟨frame, rfl⟩
      have hm : msg = nilDeref := by
        unfold wsLogin at hr
        split at hr <;> first | (injection hr with hr; exact hr.symm) | (injection hr; done)
      subst hm
      refine Sess.nilLogin _ _ (wsLogin_no (by simp [hk]) (by simp [hr])) (by simp [hk]) ?_
      obtain ⟨doc, h1, h2⟩ := (Props.C10_ws_login_crash_iff frame).1 ⟨_, hr⟩
      exact ⟨frame, doc, rfl, h1, h2⟩
    | ok a =>
      cases a with
      | error x =>
        simp only
        unfold panicOnError
        wps []
        exact Sess.refused r x _ (wsLogin_no (by simp [hk]) (by simp [hr]))
      | ok n =>
        obtain ⟨frame, rfl⟩ : ∃ frame, r = .ok frame := by
          cases r with
          | error x => simp [wsLogin, receiveJSON, readTLV] at hr
          | ok frame => exact ⟨frame, rfl⟩
        simp only
        rw [wp_pure]
        exact hrun frame .json n (.inr ⟨(Props.C10_ws_login_iff frame n).1 hr, rfl⟩)
  | wss =>
    wps []
    cases hr : wsLogin r with
    | panic msg =>
      simp only
      wps []
      obtain ⟨frame, rfl⟩ : ∃ frame, r = .ok frame := by
        cases r with
        | error x => simp [wsLogin, receiveJSON, readTLV] at hr
        | ok frame => exact ⟨frame, rfl⟩
      have hm : msg = nilDeref := by
        unfold wsLogin at hr
        split at hr <;> first | (injection hr with hr; exact hr.symm) | (injection hr; done)
      subst hm
      refine Sess.nilLogin _ _ (wsLogin_no (by simp [hk]) (by simp [hr])) (by simp [hk]) ?_
      obtain ⟨doc, h1, h2⟩ := (Props.C10_ws_login_crash_iff frame).1 ⟨_, hr⟩
      exact ⟨frame, doc, rfl, h1, h2⟩
    | ok a =>
      cases a with
      | error x =>
        simp only
        unfold panicOnError
        wps []
        exact Sess.refused r x _ (wsLogin_no (by simp [hk]) (by simp [hr]))
      | ok n =>
        obtain ⟨frame, rfl⟩ : ∃ frame, r = .ok frame := by
          cases r with
          | error x => simp [wsLogin, receiveJSON, readTLV] at hr
          | ok frame => exact ⟨frame, rfl⟩
        simp only
        rw [wp_pure]
        exact hrun frame .json n (.inr ⟨(Props.C10_ws_login_iff frame n).1 hr, rfl⟩)

end Verif.Ndt5
