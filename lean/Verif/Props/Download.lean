import Verif.Ndt5.RateLemmas
import Verif.Ndt5.DownloadLemmas

/-!
# The download test (C25, and the download part of C26)
-/

namespace Verif.Props
open Verif.Go Verif.Ndt5 Verif.Spec

section
variable {σ : Type} {cfg : Cfg} {m : Messager} {s s' : σ} {evs : List Ev}

/-- C25: what is stored. The times are those before and after the transfer; the RTT figures (milliseconds in the kernel
measurement, nanoseconds in the record) and the number of samples are those of the measurement; the client's figure is what it sent,
in Mbit/s, or zero if that is not a number. -/
theorem C25_fields_stored {r : S2CRecord} {er : Option Err} {t0 t1 : Int} {w : Metrics}
    (h : Exec (downloadManage cfg m) s evs (.ok (r, er)) s') (hm : downloadMeasurement evs = some (t0, t1, .ok w)) :
    r.startTime = t0 ∧ r.endTime = t1 ∧ r.minRTT = w.minRTT.toNat * 1000000 ∧ r.maxRTT = w.maxRTT.toNat * 1000000 ∧
    r.sumRTT = w.sumRTT.toNat * 1000000 ∧ r.countRTT = w.countRTT ∧ r.tcpInfo = some w.tcpInfo ∧
    r.mean = .div (.div (.div (.mul (.ofInt 8) (.ofInt w.tcpInfo.bytesAcked)) (F64.seconds (t1 - t0))) (.ofInt 1000)) (.ofInt 1000) ∧
    r.clientMbps = clientMbps cfg.lib m evs ∧
    r.uuid = uuidOf (.test .s2c) evs ∧ r.serverIP = (addrsOf (.test .s2c) evs).serverIP ∧ r.serverPort = (addrsOf (.test .s2c) evs).serverPort ∧
    r.clientIP = (addrsOf (.test .s2c) evs).clientIP ∧ r.clientPort = (addrsOf (.test .s2c) evs).clientPort := by
  have hr := wp_iff.1 (download_record cfg m s) _ _ _ h r er rfl
  simp only [downloadRecord, hm] at hr
  rw [hr]
  simp [measuredDownload, hm]

/-- C25: the rate. The third message carries the floor of a number `v`, zero and the acknowledged bytes, and the record stores a
number `u`, where `v` is the exact rate in kbit/s and `u` a thousandth of it, up to a relative rounding error of `2^-48`. -/
theorem C25_rate_reported {r : S2CRecord} {er : Option Err} {t0 t1 : Int} {w : Metrics}
    (h : Exec (downloadManage cfg m) s evs (.ok (r, er)) s') (hm : downloadMeasurement evs = some (t0, t1, .ok w))
    (hb : 0 < w.tcpInfo.bytesAcked) (hb' : w.tcpInfo.bytesAcked < 2 ^ 63) (ht : 0 < t1 - t0) (ht' : t1 - t0 < 2 ^ 63)
    (hr : 8 * (w.tcpInfo.bytesAcked : ℚ) / 1000 / (((t1 - t0 : Int) : ℚ) / 1000000000) ≤ 2 ^ 62) :
    ∃ v u : ℚ,
      |v - 8 * (w.tcpInfo.bytesAcked : ℚ) / 1000 / (((t1 - t0 : Int) : ℚ) / 1000000000)| ≤
        8 * (w.tcpInfo.bytesAcked : ℚ) / 1000 / (((t1 - t0 : Int) : ℚ) / 1000000000) / 2 ^ 48 ∧
      |u - 8 * (w.tcpInfo.bytesAcked : ℚ) / 1000 / (((t1 - t0 : Int) : ℚ) / 1000000000) / 1000| ≤
        8 * (w.tcpInfo.bytesAcked : ℚ) / 1000 / (((t1 - t0 : Int) : ℚ) / 1000000000) / 1000 / 2 ^ 48 ∧
      (attempts evs)[2]? = some (m.s2cFrame v.floor 0 w.tcpInfo.bytesAcked) ∧ r.mean = .fin u := by
  have h3 := wp_iff.1 (download_third cfg m s) _ _ _ h t0 t1 w _ hm rfl
  have hx : measuredDownload evs = .div (.div (.mul (.ofInt 8) (.ofInt w.tcpInfo.bytesAcked)) (F64.seconds (t1 - t0))) (.ofInt 1000) := by
    simp only [measuredDownload, hm]
  have hcomm : 8 * (w.tcpInfo.bytesAcked : ℚ) / (((t1 - t0 : Int) : ℚ) / 1000000000) / 1000 =
      8 * (w.tcpInfo.bytesAcked : ℚ) / 1000 / (((t1 - t0 : Int) : ℚ) / 1000000000) := by
    rw [div_right_comm]
  have hn := F64.download_rate_near hb (by omega) ht ht'
  rw [hcomm] at hn
  obtain ⟨v, u, hv, hu, hxv, hi, hxu⟩ := F64.rate_figures hn (F64.rate_lower hb ht ht') hr
  rw [hx, hi] at h3
  exact ⟨v, u, hv, hu, h3, by rw [(C25_fields_stored h hm).2.2.2.2.2.2.2.1, hxu]⟩

/-- C25: the reasons for which a download test can fail: a client figure that is not a number is not among them. -/
theorem C25_failure_reasons {out : Outcome (S2CRecord × Option Err)} {er : Err} (h : Exec (downloadManage cfg m) s evs out s')
    (he : errorOf out = some er) :
    .call (.listen .s2c) (.ok (.error er)) ∈ evs ∨ (∃ c, .call (.accept .s2c) (.ok (c, some er)) ∈ evs) ∨
    .call (.accept .s2c) (.ok (false, none)) ∈ evs ∨ .call (.stopMeasuring .s2c) (.ok (.error er)) ∈ evs ∨
    (∃ f, .call (.send f) (.ok (some er)) ∈ evs) ∨
    ∃ a, .call .recv (.ok a) ∈ evs ∧ m.receive a MsgType.testMsg = (none, some er) :=
  wp_iff.1 (download_fails cfg m s) _ _ _ h er he

/-- C26: the record of a download carries the text of the error, and nothing without an error. -/
theorem C26_download_error_recorded {r : S2CRecord} {er : Option Err} (h : Exec (downloadManage cfg m) s evs (.ok (r, er)) s') :
    r.error = er.getD [] := by
  rw [wp_iff.1 (download_record cfg m s) _ _ _ h r er rfl]

end

/-- A download whose client reports garbage: the figure is zero and the test goes on (here the first metric line fails). -/
example (cfg : Cfg) (hp : cfg.lib.parseFloat (str "fast") = none) :
    ∃ evs r, Exec (downloadManage cfg .json) () evs (.ok (r, some (str "closed"))) () ∧
      downloadMeasurement evs = some (7, 10000000007, .ok { minRTT := 3, maxRTT := 9, sumRTT := 12, countRTT := 2, tcpInfo := { bytesAcked := 5000 } }) ∧
      r.clientMbps = .fin 0 ∧ r.minRTT = 3000000 ∧ r.error = str "closed" := by
  refine ⟨[.emit (.serverStart cfg.kind.name), .call (.listen .s2c) (.ok (.ok 3002)),
     .call (.send (Messager.json.frame MsgType.testPrepare (itoa 3002))) (.ok none),
     .call (.accept .s2c) (.ok (true, none)), .emit (.serverStop cfg.kind.name), .emit (.closeListener .s2c),
     .call (.uuid (.test .s2c)) (.ok (str "u")), .call (.addrs (.test .s2c)) (.ok ⟨str "s", 3002, str "c", 4001⟩),
     .call (.send (Messager.json.frame MsgType.testStart [])) (.ok none), .call (.startMeasuring .s2c) (.ok ()),
     .clock 7, .clock 8, .call (.fill dataToSend) (.ok ()), .clock 10000000007,
     .call (.stopMeasuring .s2c) (.ok (.ok { minRTT := 3, maxRTT := 9, sumRTT := 12, countRTT := 2, tcpInfo := { bytesAcked := 5000 } })),
     .call (.close (.test .s2c)) (.ok ()),
     .call (.send (Messager.json.s2cFrame (downloadKbps 5000 (F64.seconds (10000000007 - 7))).toInt64 0 5000)) (.ok none),
     .call .recv (.ok (.ok (Messager.json.frame MsgType.testMsg (str "fast")))),
     .call (.send (Messager.json.frame MsgType.testMsg (str "MaxRTT: 9\n"))) (.ok (some (str "closed"))),
     .emit (.testError cfg.label (str "s2c") (str "SendMetricsLegacy"))], ?r, ?_, rfl, ?_, ?_, ?_⟩
  rotate_left
  · follow
  · simp only [S2CRecord.withClientRate]
    rw [show Option.getD _ _ = str "fast" from rfl, hp]
    rfl
  · simp only [S2CRecord.withClientRate]
    rw [show Option.getD _ _ = str "fast" from rfl, hp]
    rfl
  · rfl

end Verif.Props
