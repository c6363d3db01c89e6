import Verif.Ndt5.WholeScript

/-! # The test servers of a session -/

namespace Verif.Ndt5
open Verif.Go Verif.Spec

set_option maxRecDepth 20000
set_option linter.unusedSimpArgs false

/-- Starting, opening, stopping and closing of test servers. -/
def isServer : Ev → Bool
  | .emit (.serverStart _) => true
  | .emit (.serverStop _) => true
  | .emit (.closeListener _) => true
  | .call (.listen _) _ => true
  | _ => false

/-- What can happen to the test server of one test, in order. -/
inductive ServerRun (cfg : Cfg) (d : Dir) : List Ev → Prop
  | none : ServerRun cfg d []
  | crashed (msg : Bytes) : ServerRun cfg d [.emit (.serverStart cfg.kind.name), .call (.listen d) (.panic msg)]
  | failed (x : Err) : ServerRun cfg d [.emit (.serverStart cfg.kind.name), .call (.listen d) (.ok (.error x))]
  | left (port : Nat) : ServerRun cfg d [.emit (.serverStart cfg.kind.name), .call (.listen d) (.ok (.ok port))]
  | closed (port : Nat) : ServerRun cfg d [.emit (.serverStart cfg.kind.name), .call (.listen d) (.ok (.ok port)),
      .emit (.serverStop cfg.kind.name), .emit (.closeListener d)]

section
variable {σ : Type} (cfg : Cfg) (m : Messager)

theorem upload_servers (s : σ) : wp (uploadManage (σ := σ) cfg m) s (fun e _ _ => ServerRun cfg .c2s (e.filter isServer)) := by
  refine wp_opaque fun Q hQ => ?_
  wp_paths [uploadManage, uploadBody, uploadRun, drainAndMeasure, uploadReport]
  all_goals refine hQ _ _ _ ?_
  all_goals clear hQ
  all_goals simp [isServer]
  all_goals constructor

theorem download_servers (s : σ) : wp (downloadManage (σ := σ) cfg m) s (fun e _ _ => ServerRun cfg .s2c (e.filter isServer)) := by
  refine wp_opaque fun Q hQ => ?_
  wp_paths [downloadManage, downloadBody, downloadRun, downloadReport, wp_downloadMetrics]
  all_goals refine hQ _ _ _ ?_
  all_goals clear hQ
  all_goals first
    | (simp [isServer]; constructor; done)
    | (rename Exec (downloadMetrics _ _ _ _) _ _ _ _ => hx
       obtain ⟨-, -, -, -, hc, -⟩ := downloadMetrics_exec hx
       have h1 := hc isServer (fun _ _ => rfl) (fun _ => rfl)
       have h2 := List.filter_eq_nil_iff.2 (List.countP_eq_zero.1 h1)
       simp [isServer, List.filter_cons, h2]
       constructor)

end

theorem filter_none {p : Ev → Bool} {e : List Ev} (h : ∀ x ∈ e, p x = false) : e.filter p = [] :=
  List.filter_eq_nil_iff.2 fun x hx => by rw [h x hx]; simp

theorem server_resultNotes (cfg : Cfg) (d : Dir) (er : Option Err) (r : F64) : (resultNotes cfg d er r).filter isServer = [] := by
  unfold resultNotes
  split <;> simp [isServer]

theorem server_outer {x : Ev} (h : outer x = true) : isServer x = false := by
  cases x with
  | emit o => cases o <;> first | rfl | (cases h; done)
  | clock t => rfl
  | call q r => cases q <;> first | rfl | (cases h; done)

theorem server_send {x : Ev} (h : isSend x = true) : isServer x = false := by
  unfold isSend at h
  split at h
  · rfl
  · cases h

theorem server_meta {cfg : Cfg} {x : Ev} (h : inMeta cfg x = true) : isServer x = false := by
  unfold inMeta at h
  split at h <;> first | rfl | (cases h; done)

theorem server_request (cfg : Cfg) (n : Int) : (requestNotes cfg n).filter isServer = [] := by
  unfold requestNotes
  repeat' split
  all_goals rfl

/-- The test servers of a control connection: at most one for each test, the one of the upload first. -/
theorem servers_whole {cfg : Cfg} {evs : List Ev} (h : Whole cfg evs) : ∃ a b, evs.filter isServer = a ++ b ∧ ServerRun cfg .c2s a ∧ ServerRun cfg .s2c b := by
  cases h with
  | early mid t0 t1 o h1 h2 h3 h4 h5 _ =>
    refine ⟨[], [], ?_, .none, .none⟩
    simp only [List.filter_append, filter_none fun x hx => server_outer (h1 x hx).1, filter_none fun x hx => server_outer (outer_end (cfg := cfg) (o := o) x hx)]
    rfl
  | run t0 t t1 a u eS eF oS oF r s h1 h2 =>
    simp only [List.filter_append, filter_none fun x hx => server_outer (outer_pre (cfg := cfg) (t0 := t0) (a := a) (t := t) (u := u) x hx),
      filter_none fun x hx => server_outer (outer_post (r := r) (o := after (after oS oF) r) (t0 := t0) (t1 := t1) h2 x hx), List.nil_append, List.append_nil]
    cases h1 with
    | crashed => exact ⟨[], [], rfl, .none, .none⟩
    | nilLogin => exact ⟨[], [], rfl, .none, .none⟩
    | refused => exact ⟨[], [], rfl, .none, .none⟩
    | noStatus => exact ⟨[], [], rfl, .none, .none⟩
    | run frame m n e o s' _ _ he =>
      obtain ⟨e0, eU, eD, eM, eFa, o0, oU, oD, oM, sU, sD, rfl, hp⟩ := suite_parts he
      refine ⟨eU.filter isServer, eD.filter isServer, ?_, ?_, ?_⟩
      · rw [List.filter_cons_of_neg (by simp [isServer])]
        simp only [List.filter_append, server_request, filter_none fun x hx => server_send (hp.foot0 x hx), filter_none fun x hx => server_meta (hp.footM x hx),
          filter_none fun x hx => server_send (hp.footF x hx), List.nil_append, List.append_nil]
      · cases hp.ranU with
        | notReached => exact .none
        | skipped => exact .none
        | run _ _ _ _ _ h =>
          rcases wp_iff.1 (runUpload_exec cfg m _) _ _ _ h with ⟨msg, h', -⟩ | ⟨e1, r, er, h', rfl, -⟩
          · exact wp_iff.1 (upload_servers cfg m _) _ _ _ h'
          · rw [List.filter_append, server_resultNotes, List.append_nil]
            exact wp_iff.1 (upload_servers cfg m _) _ _ _ h'
      · cases hp.ranD with
        | notReached => exact .none
        | skipped => exact .none
        | run _ _ _ _ _ h =>
          rcases wp_iff.1 (runDownload_exec cfg m _) _ _ _ h with ⟨msg, h', -⟩ | ⟨e1, r, er, h', rfl, -⟩
          · exact wp_iff.1 (download_servers cfg m _) _ _ _ h'
          · rw [List.filter_append, server_resultNotes, List.append_nil]
            exact wp_iff.1 (download_servers cfg m _) _ _ _ h'

end Verif.Ndt5
