import Verif.Ndt5.WholeRecord
import Verif.Props.Session

/-!
# The archival record of a control connection (C16)
-/

namespace Verif.Props
open Verif.Go Verif.Ndt5 Verif.Spec

set_option maxRecDepth 20000

section
variable {cfg : Cfg} {evs : List Ev} {out : Outcome Unit}

/-- C16, the part that holds: if the connection got as far as having a UUID and no file operation failed, there is a record `r` telling what
happened. If all its rates are numbers, it is the only record written, it is written before the connection is closed, and its file
is named after the UUID and the day, under the data directory (unless the UUID is the placeholder, when the name is chosen by the
system). If one of the rates is not a number, nothing is written.
Missing for the full property: that last case, file system failures (which are only logged), and crashes before the record exists. -/
theorem C16_record_written_partial (h : Exec (HandleControlChannel cfg) () evs out ()) (hu : ∃ u, .call (.uuid .control) (.ok u) ∈ evs)
    (hd : DiskWorks evs) : ∃ r, Archived cfg evs r ∧ (¬ FiniteRates r → written evs = []) ∧
      (FiniteRates r → ∃ path, written evs = [(path, r)] ∧
        (r.uuid ≠ badUUID → path = pathJoin [pathJoin [cfg.dataDir, cfg.lib.dateDir r.startTime], r.uuid ++ str ".json"]) ∧
        ∃ before after, evs = before ++ after ∧ written before = [(path, r)] ∧ count closesControl before = 0 ∧ count closesControl after = 1) := by
  obtain ⟨A, B, r, rfl, h1, -, h2, h3, h4, -, h5⟩ := (whole h).2.archive hu
  obtain ⟨path, h6, h7⟩ := h5 hd
  have hw : written (A ++ B) = written A := by rw [written_append, h4, List.append_nil]
  refine ⟨r, h3, fun hn => ?_, fun hf => ⟨path, ?_, h7, A, B, rfl, ?_, h1, h2⟩⟩
  · rw [hw, h6, if_neg]
    rwa [encodable_iff]
  · rw [hw, h6, if_pos ((encodable_iff r).2 hf)]
  · rw [h6, if_pos ((encodable_iff r).2 hf)]

/-- C16: at most one record is written for a connection, in all cases. -/
theorem C16_at_most_one (h : Exec (HandleControlChannel cfg) () evs out ()) : (written evs).length ≤ 1 := by
  have hw := (whole h).2
  by_cases hu : ∃ u, .call (.uuid .control) (.ok u) ∈ evs
  · obtain ⟨A, B, r, rfl, -, -, -, -, h4, h5, -⟩ := hw.archive hu
    rw [written_append, h4, List.append_nil]; exact h5
  · cases hw with
    | early mid t0 t1 o h1 h2 =>
      rw [written_append, written_append, h2]
      cases o <;> exact Nat.zero_le 1
    | run t0 t t1 a u => exact absurd ⟨u, by simp [preEvents]⟩ hu

end

/-- An environment in which everything works, for a client that logs in for a download and then says that it measured NaN. -/
def nanEnv (h : List Ev) : (q : Call) → Outcome q.Answer
  | .recv => .ok (.ok (if h.length < 10 then [2, 0, 1, 20] else Messager.tlv.frame MsgType.testMsg (str "NaN")))
  | .addrs _ => .ok ⟨str "192.0.2.1", 3001, str "198.51.100.7", 4000⟩
  | .uuid _ => .ok (str "u")
  | .listen _ => .ok (.ok 40000)
  | .accept _ => .ok (true, none)
  | .stopMeasuring _ => .ok (.ok { tcpInfo := { bytesAcked := 1000000 } })
  | .tempFile _ => .ok (.ok (str "temp"))
  | .send _ => .ok none
  | .close _ => .ok ()
  | .startMeasuring _ => .ok ()
  | .fill _ => .ok ()
  | .drain => .ok none
  | .ctxErr => .ok none
  | .mkdirAll _ => .ok none
  | .create _ => .ok none
  | .write _ _ => .ok none
  | .closeFile _ => .ok ()

/-- What a program does in an environment is one of its executions. -/
theorem exec_in {S : Sig} {σ α : Type} (m : M S σ α) (s : σ) (answer : List (Event S) → (q : S.Q) → Outcome (S.A q)) (now : List (Event S) → Int)
    {r : List (Event S) × (Outcome α × σ)} (hr : Prog.exec answer now (m s) [] = r) : Exec m s r.1 r.2.1 r.2.2 := by
  obtain ⟨evs, h1, h2⟩ := Prog.exec_runs answer now (m s) []
  rw [hr] at h1 h2
  rw [h1]
  exact h2

/-- A session in this environment; every event takes a second. -/
def nanSession : List Ev × (Outcome Unit × Unit) :=
  Prog.exec (S := sig) nanEnv (fun h => h.length * 1000000000) (HandleControlChannel plainCfg ()) []

/-- Nothing crashed, no file operation failed, the connection is counted as okay, no record is written. -/
theorem nanSession_facts : nanSession.1.all (fun x => !crashed x && !diskFailure x) = true ∧
    .controlCount (str "ndt5+plain") (str "okay") ∈ notes nanSession.1 ∧ (written nanSession.1).length = 0 := by decide +kernel

/-- C16 is violated: a client can prevent the record by claiming that it measured NaN, although no call into the environment fails and
the connection is counted as okay. -/
theorem C16_record_written_false :
    ¬ ∀ (cfg : Cfg) (evs : List Ev) (out : Outcome Unit), Exec (HandleControlChannel cfg) () evs out () → NoCrash evs → DiskWorks evs →
      countedOkay (labelText cfg.kind) evs → (written evs).length = 1 := by
  intro h
  obtain ⟨h1, h2, h3⟩ := nanSession_facts
  obtain ⟨r, hr⟩ : ∃ r, r = nanSession := ⟨_, rfl⟩
  rw [← hr] at h1 h2 h3
  have h0 := exec_in _ () nanEnv (fun h => h.length * 1000000000) (hr.trans nanSession.eq_1).symm
  have := h _ _ _ h0 (fun x hx => by have := List.all_eq_true.1 h1 x hx; simp_all) (fun x hx => by have := List.all_eq_true.1 h1 x hx; simp_all) h2
  omega

/-- The meta session has a record, and so has the session with the refused login. -/
example : (∃ u, .call (.uuid .control) (.ok u) ∈ metaSession) ∧ DiskWorks metaSession ∧ (written metaSession).length = 1 ∧
    DiskWorks refusedLogin ∧ (written refusedLogin).length = 1 := by
  refine ⟨⟨str "u", by simp [metaSession, opening]⟩, ?_, rfl, ?_, rfl⟩
  · unfold DiskWorks metaSession opening storing closing; simp [diskFailure]
  · unfold DiskWorks refusedLogin opening storing closing; simp [diskFailure]

end Verif.Props
