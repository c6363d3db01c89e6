import Verif.Ndt5.RateLemmas
import Verif.Ndt5.UploadLemmas

/-!
# The upload test (C21, C22, and the upload parts of C19, C20, C26)
-/

namespace Verif.Props
open Verif.Go Verif.Ndt5 Verif.Spec

section
variable {σ : Type} {cfg : Cfg} {m : Messager} {s s' : σ} {evs : List Ev}

/-- C21: the rate. If the upload was measured (`w.tcpInfo.bytesReceived` bytes in `t1 - t0` nanoseconds) and did not end too early,
the third message sent is the floor of a number `v`, and the record stores a number `u`, where `v` is the exact
rate `8 * bytes / 1000 / seconds` and `u` a thousandth of it, up to a relative rounding error of `2^-48`. -/
theorem C21_rate_reported {r : C2SRecord} {er : Option Err} {t0 t1 : Int} {sel : Option Err} {w : Metrics}
    (h : Exec (uploadManage cfg m) s evs (.ok (r, er)) s')
    (hm : uploadMeasurement evs = some (t0, sel, .ok w, t1)) (hlong : uploadTooShort evs = false)
    (hb : 0 < w.tcpInfo.bytesReceived) (hb' : w.tcpInfo.bytesReceived < 2 ^ 63) (ht : 0 < t1 - t0) (ht' : t1 - t0 < 2 ^ 63)
    (hr : 8 * (w.tcpInfo.bytesReceived : ℚ) / 1000 / (((t1 - t0 : Int) : ℚ) / 1000000000) ≤ 2 ^ 62) :
    ∃ v u : ℚ,
      |v - 8 * (w.tcpInfo.bytesReceived : ℚ) / 1000 / (((t1 - t0 : Int) : ℚ) / 1000000000)| ≤
        8 * (w.tcpInfo.bytesReceived : ℚ) / 1000 / (((t1 - t0 : Int) : ℚ) / 1000000000) / 2 ^ 48 ∧
      |u - 8 * (w.tcpInfo.bytesReceived : ℚ) / 1000 / (((t1 - t0 : Int) : ℚ) / 1000000000) / 1000| ≤
        8 * (w.tcpInfo.bytesReceived : ℚ) / 1000 / (((t1 - t0 : Int) : ℚ) / 1000000000) / 1000 / 2 ^ 48 ∧
      (attempts evs)[2]? = some (m.frame MsgType.testMsg (itoa v.floor)) ∧
      r.mean = .fin u ∧ r.startTime = t0 ∧ r.endTime = t1 := by
  have ho := wp_iff.1 (upload_outcome cfg m s) _ _ _ h
  rw [hm] at ho
  have hx : measuredUpload evs = .div (.div (.mul (.ofInt 8) (.ofInt w.tcpInfo.bytesReceived)) (.ofInt 1000)) (F64.seconds (t1 - t0)) := by
    simp only [measuredUpload, hm]
  have hshort : ¬ (sel ≠ none ∧ (w.tcpInfo.bytesReceived = 0 ∨ F64.lt (F64.seconds (t1 - t0)) (.ofInt 9) = true)) := by
    rintro ⟨h1, h2⟩
    cases sel with
    | none => exact h1 rfl
    | some e => simp [uploadTooShort, hm] at hlong; simp [hlong] at h2
  simp only [if_neg hshort] at ho
  obtain ⟨h1, h2, h3, h4, _⟩ := ho
  obtain ⟨v, u, hv, hu, hxv, hi, hxu⟩ := F64.rate_figures
    (F64.upload_rate_near hb (by omega) ht ht') (F64.rate_lower hb ht ht') hr
  rw [← hx] at hxv hi hxu
  exact ⟨v, u, hv, hu, by rw [h1, hi], by rw [h2, hxu], h3, h4⟩

/-- C21: an upload that ended in an error before nine seconds, or with no byte received, is an error with that error; the
rate is not sent and the record has rate zero and the text of the error. -/
theorem C21_short_upload_rejected {out : Outcome (C2SRecord × Option Err)} {t0 t1 : Int} {e : Err} {w : Metrics}
    (h : Exec (uploadManage cfg m) s evs out s') (hm : uploadMeasurement evs = some (t0, some e, .ok w, t1))
    (ht : -2 ^ 63 ≤ t1 - t0) (ht' : t1 - t0 < 2 ^ 63) (hshort : w.tcpInfo.bytesReceived = 0 ∨ t1 - t0 < 9000000000) :
    ∃ r, out = .ok (r, some e) ∧ r.error = e ∧ r.mean = .fin 0 ∧ (attempts evs).length = 2 := by
  have ho := wp_iff.1 (upload_outcome cfg m s) _ _ _ h
  have he := wp_iff.1 (upload_error_field cfg m s) _ _ _ h
  rw [hm] at ho
  have hc : (some e : Option Err) ≠ none ∧ (w.tcpInfo.bytesReceived = 0 ∨ F64.lt (F64.seconds (t1 - t0)) (.ofInt 9) = true) :=
    ⟨by simp, hshort.imp id fun hs => (F64.seconds_lt_nine ht' ht).2 hs⟩
  simp only [if_pos hc] at ho
  obtain ⟨r, rfl, h2, _, _, h5⟩ := ho
  exact ⟨r, rfl, he r _ rfl, h2, h5⟩

/-- C21: an upload that ended in an error after nine seconds and transferred something is a success, if the results can be sent. -/
theorem C21_late_error_is_success {out : Outcome (C2SRecord × Option Err)} {t0 t1 : Int} {e : Err} {w : Metrics}
    (h : Exec (uploadManage cfg m) s evs out s') (hm : uploadMeasurement evs = some (t0, some e, .ok w, t1))
    (ht' : t1 - t0 < 2 ^ 63) (hb : w.tcpInfo.bytesReceived ≠ 0) (hlong : 9000000000 ≤ t1 - t0)
    (hn : NoCrash evs) (hs : attempts evs = sent evs) :
    ∃ r, out = .ok (r, none) ∧ r.error = [] ∧ (sent evs).length = 4 := by
  have hsel := (wp_iff.1 (upload_sel cfg m s) _ _ _ h t0 _ w t1 hm).2
  have hlt : F64.lt (F64.seconds (t1 - t0)) (.ofInt 9) = false := by
    rw [Bool.eq_false_iff]
    intro hc
    have := (F64.seconds_lt_nine ht' (by omega)).1 hc
    omega
  obtain ⟨r, rfl⟩ := hsel (by simp [uploadTooShort, hm, hb, hlt]) hn hs
  refine ⟨r, rfl, wp_iff.1 (upload_error_field cfg m s) _ _ _ h r none rfl, ?_⟩
  have := (wp_iff.1 (upload_onScript cfg m s) _ _ _ h).2.complete ⟨r, rfl⟩
  rw [this]; rfl

/-- C21: the same for an upload that ran until the server's timeout, whatever its length. -/
theorem C21_timeout_is_success {out : Outcome (C2SRecord × Option Err)} {t0 t1 : Int} {w : Metrics}
    (h : Exec (uploadManage cfg m) s evs out s') (hm : uploadMeasurement evs = some (t0, none, .ok w, t1))
    (hn : NoCrash evs) (hs : attempts evs = sent evs) :
    ∃ r, out = .ok (r, none) ∧ r.error = [] ∧ (sent evs).length = 4 := by
  obtain ⟨r, rfl⟩ := (wp_iff.1 (upload_sel cfg m s) _ _ _ h t0 _ w t1 hm).2 (by simp [uploadTooShort, hm]) hn hs
  refine ⟨r, rfl, wp_iff.1 (upload_error_field cfg m s) _ _ _ h r none rfl, ?_⟩
  have := (wp_iff.1 (upload_onScript cfg m s) _ _ _ h).2.complete ⟨r, rfl⟩
  rw [this]; rfl

/-- C22 is violated: the full claim is that the upload test never panics unless a call into its environment panics. -/
theorem C22_no_crash_without_measurement_false :
    ¬ ∀ (cfg : Cfg) (m : Messager) (evs : List Ev) (out : Outcome (C2SRecord × Option Err)),
      Exec (uploadManage cfg m) () evs out () → NoCrash evs → ∃ r, out = .ok r := by
  intro h
  have := h { kind := .plain, dataDir := [], metadata := [], gitShortCommit := [], version := [], isMon := [], lib := ⟨fun _ => none, fun _ => [], fun _ => [], fun _ => []⟩ } .tlv
    [.emit (.serverStart (str "PLAIN")), .call (.listen .c2s) (.ok (.ok 3001)),
     .call (.send (Messager.tlv.frame MsgType.testPrepare (itoa 3001))) (.ok none),
     .call (.accept .c2s) (.ok (true, none)), .emit (.serverStop (str "PLAIN")), .emit (.closeListener .c2s),
     .call (.uuid (.test .c2s)) (.ok (str "u")), .call (.addrs (.test .c2s)) (.ok ⟨str "s", 3001, str "c", 4000⟩),
     .call (.send (Messager.tlv.frame MsgType.testStart [])) (.ok none), .clock 0,
     .call (.startMeasuring .c2s) (.ok ()), .call .drain (.ok none),
     .call (.stopMeasuring .c2s) (.ok (.error (str "No data"))), .clock 10000000000, .emit (.closeLater .c2s)]
    (.panic nilDeref) (by follow) (by ev_simp [])
  obtain ⟨r, hr⟩ := this
  cases hr

/-- C22, exactly what holds: if no call into the environment panics, the upload test panics exactly if the measurement failed (or
if the server handed over neither a connection nor an error, which C30 excludes). Missing for the full property: the failed measurement. -/
theorem C22_crash_iff_partial {out : Outcome (C2SRecord × Option Err)} (h : Exec (uploadManage cfg m) s evs out s') (hn : NoCrash evs) :
    (∃ msg, out = .panic msg) ↔
      (∃ e, .call (.stopMeasuring .c2s) (.ok (.error e)) ∈ evs) ∨ .call (.accept .c2s) (.ok (false, none)) ∈ evs :=
  wp_iff.1 (upload_panics cfg m s) _ _ _ h hn

/-- C26: the record of an upload carries the text of the error, and nothing without an error. -/
theorem C26_upload_error_recorded {r : C2SRecord} {er : Option Err} (h : Exec (uploadManage cfg m) s evs (.ok (r, er)) s') :
    r.error = er.getD [] := wp_iff.1 (upload_error_field cfg m s) _ _ _ h r er rfl

end

/-- An upload that ends with an error after 9.5 seconds and a megabyte: a success. The hypotheses of the theorems above hold. -/
example (cfg : Cfg) : ∃ evs r, Exec (uploadManage cfg .tlv) () evs (.ok (r, none)) () ∧ NoCrash evs ∧ attempts evs = sent evs ∧
    uploadTooShort evs = false ∧
    uploadMeasurement evs = some (5, some (str "EOF"), .ok { tcpInfo := { bytesReceived := 1000000 } }, 9500000005) := by
  refine ⟨[.emit (.serverStart cfg.kind.name), .call (.listen .c2s) (.ok (.ok 3001)),
     .call (.send (Messager.tlv.frame MsgType.testPrepare (itoa 3001))) (.ok none),
     .call (.accept .c2s) (.ok (true, none)), .emit (.serverStop cfg.kind.name), .emit (.closeListener .c2s),
     .call (.uuid (.test .c2s)) (.ok (str "u")), .call (.addrs (.test .c2s)) (.ok ⟨str "s", 3001, str "c", 4000⟩),
     .call (.send (Messager.tlv.frame MsgType.testStart [])) (.ok none), .clock 5,
     .call (.startMeasuring .c2s) (.ok ()), .call .drain (.ok (some (str "EOF"))),
     .call (.stopMeasuring .c2s) (.ok (.ok { tcpInfo := { bytesReceived := 1000000 } })), .clock 9500000005,
     .call (.send (Messager.tlv.frame MsgType.testMsg (itoa 842))) (.ok none),
     .call (.send (Messager.tlv.frame MsgType.testFinalize [])) (.ok none), .emit (.closeLater .c2s)], ?r, ?_, ?_, ?_, ?_, ?_⟩
  rotate_left
  rotate_left
  · ev_simp []
  · rfl
  · simp only [uploadTooShort, uploadMeasurement]
    decide +kernel
  · rfl
  rotate_left
  · have hlt : F64.lt (F64.seconds (9500000005 - 5)) (.ofInt 9) = false := by decide +kernel
    have hk : (uploadKbps 1000000 (F64.seconds (9500000005 - 5))).toInt64 = 842 := by decide +kernel
    have h0 : ¬ (1000000 : Int) = 0 := by decide
    follow
    simp only [Prog.bind, M.now, bind, M.bind, pure, M.pure, Prog.Follows, hlt, if_neg h0, Bool.false_eq_true, if_false, uploadReport, hk]
    repeat (first | exact rfl | refine ⟨rfl, ?_⟩)

end Verif.Props
