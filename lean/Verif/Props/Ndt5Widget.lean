import Verif.Spec.Ndt5Widget
import Verif.Props.Browser
import Verif.Props.Web100

/-!
# What the widget shows

C105: the widget of `html/` on top of the ndt5 client, after a session with this server.
-/

namespace Verif.Props
open Verif.Go Verif.Ndt5 Verif.Spec Verif.Web

variable {cfg : Cfg} {evs : List Ev} {out : Outcome Unit} {iv : Int} {p : Page} {c : Client} {down up : List Bytes}

/-- C105: whatever happens, a result that the page has is one of those that the server can give it. -/
theorem C105_known (h : Exec (HandleControlChannel cfg) () evs out ()) (hp : Ports evs) (hpl : PlaysFrom iv evs (.running c) down up) {n : Bytes} (hn : c.get n ≠ .undef) : Given n := by
  obtain ⟨c', ph, rate, said, arrived, e1, e2, -⟩ := page_at h hp hpl
  cases e1
  unfold Client.get at hn
  cases hf : c.results.find? (fun p => p.1 = n) with
  | none => rw [hf] at hn; exact absurd rfl hn
  | some e =>
    rw [hf] at hn
    simp only [Option.map_some, Option.getD_some] at hn
    have hname : e.1 = n := by simpa using List.find?_some hf
    have hmem := List.mem_of_find?_eq_some hf
    by_cases hr : e.1 = str "c2sRate"
    · exact .inl (hname ▸ hr)
    by_cases hr' : e.1 = str "s2cRate"
    · exact .inr (.inl (hname ▸ hr'))
    have hsh : e ∈ ph.shown (planOf cfg.lib evs) := by
      rw [← e2.shown, List.mem_filter]
      exact ⟨hmem, by simp [notRate, hr, hr']⟩
    have hline : ∃ l ∈ (planOf cfg.lib evs).lines, e = entryOf l := by
      have aux : ∀ ls : List Bytes, e ∈ (ls.map entryOf).reverse → ∃ l ∈ ls, e = entryOf l := by
        intro ls h
        obtain ⟨l, hl, rfl⟩ := List.mem_map.1 (List.mem_reverse.1 h)
        exact ⟨l, hl, rfl⟩
      cases ph with
      | down3 past left =>
        obtain ⟨l, hl, rfl⟩ := aux _ hsh
        exact ⟨l, by rw [e2.split _ _ rfl]; exact List.mem_append_left _ hl, rfl⟩
      | meta0 | meta1 | meta2 | results => exact aux _ hsh
      | logout | over =>
        rcases List.mem_cons.1 hsh with rfl | hsh
        · exact absurd rfl hn
        · exact aux _ hsh
      | _ => cases hsh
    obtain ⟨l, hl, rfl⟩ := hline
    obtain ⟨more, he, hm⟩ := resultLines_eq cfg.lib (downloadKernel evs) (downloadRecord cfg.lib .json evs)
    rw [show (planOf cfg.lib evs).lines = _ from he] at hl
    rw [← hname]
    rcases List.mem_append.1 hl with hl | hl
    · obtain ⟨q, hq, rfl⟩ := List.mem_map.1 hl
      obtain ⟨q1, q2, -⟩ := web100_plain hq
      rw [entryOf_number q1 q2]
      exact .inr (.inr (.inl (web100_names (downloadKernel evs) ▸ List.mem_map_of_mem hq)))
    · rcases more_entry (hm l hl) with h | h
      · exact .inr (.inr (.inr (.inl h)))
      · exact .inr (.inr (.inr (.inr h)))

private theorem not_given {n : Bytes} (h : (decide (n = str "c2sRate") || decide (n = str "s2cRate") || ((web100Shown {}).map Prod.fst).contains n || (str "TCPInfo.").isPrefixOf n || (str "NDTResult.S2C.").isPrefixOf n) = false) :
    ¬ Given n := by
  rintro (e | e | e | e | e)
  · simp [e] at h
  · simp [e] at h
  · rw [List.contains_iff_mem.2 e] at h; simp at h
  · simp [List.isPrefixOf_iff_prefix.2 e] at h
  · simp [List.isPrefixOf_iff_prefix.2 e] at h

/-- C105: the page with the results never has a latency or a rate of lost packets, and never warns of a duplex mismatch, of a cable fault or of congestion: this server does not send the variables. -/
theorem C105_never (h : Exec (HandleControlChannel cfg) () evs out ()) (hp : Ports evs) (hpl : PlaysFrom iv evs (.running c) down up) :
    (resultsPage c).latency = none ∧ (resultsPage c).packetLoss = none ∧ (resultsPage c).duplexMismatch = false ∧ (resultsPage c).cableFault = false ∧ (resultsPage c).congestion = false := by
  have hu : ∀ n, ¬ Given n → c.get n = .undef := fun n hn => by
    by_contra hc
    exact hn (C105_known h hp hpl hc)
  have h1 := hu (str "avgrtt") (not_given (by decide +kernel))
  have h2 := hu (str "loss") (not_given (by decide +kernel))
  have h3 := hu (str "mismatch") (not_given (by decide +kernel))
  have h4 := hu (str "bad_cable") (not_given (by decide +kernel))
  have h5 := hu (str "congestion") (not_given (by decide +kernel))
  simp [resultsPage, readNDTvar, wholeOf, h1, h2, h3, h4, h5]

private theorem itoa_ne {n : Int} (h : InInt64 n) : itoa n ≠ [] := by
  intro e
  have := atoi_itoa h
  rw [e] at this
  cases this

/-- C105: after a good session the page shows as jitter the difference between the longest and the shortest round trip of the download, in whole milliseconds or, from 1000 of them on, in seconds; both round trip times in
milliseconds; and zeros for the counters that this server does not have. -/
theorem C105_results (h : Exec (HandleControlChannel cfg) () evs out ()) (hp : Ports evs) (hpl : PlaysFrom iv evs (.running c) [] up) (hg : GoodPage evs) :
    (resultsPage c).jitter = some (let d : Int := (downloadKernel evs).maxRTT.toNat - (downloadKernel evs).minRTT.toNat; if 1000 ≤ d then ((d : Rat) / 1000, true) else ((d : Rat), false)) ∧
    (resultsPage c).minRTT = some (itoa (downloadKernel evs).minRTT.toNat) ∧ (resultsPage c).maxRTT = some (itoa (downloadKernel evs).maxRTT.toNat) ∧
    (resultsPage c).timeoutCounter = some (str "0") ∧ (resultsPage c).duplicateAcks = some (str "0") ∧ (resultsPage c).maxWindow = some (str "0") := by
  obtain ⟨c', rate, e, hs, -⟩ := C99_page_finishes h hp hpl hg
  cases e
  have k := hs.kernel
  have h1 := k (str "MaxRTT", _) (List.mem_cons_self ..)
  have h2 := k (str "MinRTT", _) (List.mem_cons_of_mem _ (List.mem_cons_self ..))
  have h3 := k (str "CurRTO", 0) (by simp [web100Shown])
  have h4 := k (str "DupAcksIn", 0) (by simp [web100Shown])
  have h5 := k (str "MaxRwinRcvd", 0) (by simp [web100Shown])
  have i : ∀ x : UInt32, InInt64 (x.toNat : Int) := fun x => by
    have := x.toNat_lt
    unfold InInt64
    omega
  simp only at h1 h2 h3 h4 h5
  have z : itoa 0 = str "0" := by decide
  have hj : jitterOf c = some ((downloadKernel evs).maxRTT.toNat - (downloadKernel evs).minRTT.toNat : Int) := by simp only [jitterOf, wholeOf, h1, h2, atoi_itoa (i _)]
  refine ⟨by simp only [resultsPage, hj, Option.map_some, ge_iff_le], ?_⟩
  simp [resultsPage, readNDTvar, h1, h2, h3, h4, h5, itoa_ne (i _), z, show str "0" ≠ [] by decide]

/-- C105: … in terms of the samples of the kernel's round trip time, in microseconds. -/
theorem C105_jitter (h : Exec (HandleControlChannel cfg) () evs out ()) (hp : Ports evs) (hpl : PlaysFrom iv evs (.running c) [] up) (hg : GoodPage evs) {snaps : List Snap} (hne : snaps ≠ []) (hz : 0 ∉ rtts snaps)
    (hk : summarize snaps = some (downloadKernel evs)) : ∃ l s, IsLargest (rtts snaps) l ∧ IsSmallest (rtts snaps) s ∧ s ≤ l ∧
      (resultsPage c).jitter = some (let d : Int := (l / 1000 : Nat) - (s / 1000 : Nat); if 1000 ≤ d then ((d : Rat) / 1000, true) else ((d : Rat), false)) := by
  obtain ⟨m, hm, -, -, ⟨l, hl, el⟩, hs, -⟩ := C27_summary_partial snaps hne
  rw [hk] at hm
  cases hm
  obtain ⟨s, hs, es⟩ := hs hz
  refine ⟨l, s, hl, hs, ?_, ?_⟩
  · exact hs.2 _ hl.1
  · rw [(C105_results h hp hpl hg).1, el, es]

/-- C105: the widget goes to the results at its next look once the page is finished or failed, says that it failed only if an exception left a handler, which no message of this server makes happen, and never before. -/
theorem C105_phase (h : Exec (HandleControlChannel cfg) () evs out ()) (hp : Ports evs) (hpl : PlaysFrom iv evs p down up) {phase : Nat} (hph : phase < 5) (ndtHost : Bool) :
    ∃ c, p = .running c ∧ heard p ≠ .failed ∧ (c.finished = true → ∀ n, phaseAfter p ndtHost phase (n + 1) = 5) ∧ (c.finished = false → ∀ n, phaseAfter p ndtHost phase n < 5) := by
  obtain ⟨c, rfl⟩ := C99_page_never_fails h hp hpl
  refine ⟨c, rfl, ?_, ?_, ?_⟩
  · simp only [heard]; split <;> simp
  · intro hc n
    simp [phaseAfter, heard, hc, monitorTest, hph]
  · intro hc n
    induction n generalizing phase with
    | zero => exact hph
    | succ n ih =>
      have hm : (monitorTest (heard (.running c)) (widgetStatus (announcedBy (.running c))) ndtHost phase).2 = true := by simp [heard, hc, monitorTest]
      simp only [phaseAfter, hm, if_true]
      refine ih ?_
      simp only [heard, hc, monitorTest]
      simp only [ne_eq, not_true_eq_false, false_and, if_false, Bool.false_eq_true]
      repeat' split
      all_goals omega

/-- C105: which page the widget shows follows from how far the client is in its tests: once it has looked it shows the upload from the start of the upload on, the download from the start of the download on, and the results
when all tests are finished; it never goes back to an earlier page. -/
theorem C105_progress (h : Exec (HandleControlChannel cfg) () evs out ()) (hp : Ports evs) (hpl : PlaysFrom iv evs p down up) {phase : Nat} (hph : phase < 5) (ndtHost : Bool) :
    ∃ c k, p = .running c ∧ c.changes = allChanges.take k ∧ k ≤ 10 ∧
      ∀ n, phaseAfter p ndtHost phase (n + 1) = if k = 10 then 5 else max phase (if 5 ≤ k then 4 else if 2 ≤ k then 3 else 2) := by
  obtain ⟨c, ph, rate, said, arrived, rfl, e2, -⟩ := page_at h hp hpl
  obtain ⟨c', e, -, h1, -⟩ := C105_phase h hp hpl hph ndtHost
  cases e
  have hk : ph.changes ≤ 10 := by cases ph <;> simp [Phase.changes]
  refine ⟨c, ph.changes, rfl, e2.changes, hk, ?_⟩
  by_cases ho : ph = .over
  · subst ho
    intro n
    rw [h1 (e2.finished.2 rfl) n]
    rfl
  · have hf : c.finished = false := by
      cases hf : c.finished with
      | false => rfl
      | true => exact absurd (e2.finished.1 hf) ho
    have hk' : ph.changes ≠ 10 := by cases ph <;> simp [Phase.changes] at ho ⊢
    rw [if_neg hk']
    have hst : widgetStatus c.changes = if 5 ≤ ph.changes then .inbound else if 2 ≤ ph.changes then .outbound else .notStarted := by
      rw [e2.changes]
      generalize ph.changes = k at hk
      have : k = 0 ∨ k = 1 ∨ k = 2 ∨ k = 3 ∨ k = 4 ∨ k = 5 ∨ k = 6 ∨ k = 7 ∨ k = 8 ∨ k = 9 ∨ k = 10 := by omega
      rcases this with rfl | rfl | rfl | rfl | rfl | rfl | rfl | rfl | rfl | rfl | rfl <;> decide
    have look : ∀ q, q < 5 → monitorTest (heard (.running c)) (widgetStatus (announcedBy (.running c))) ndtHost q =
        (max q (if 5 ≤ ph.changes then 4 else if 2 ≤ ph.changes then 3 else 2), true) := by
      intro q hq
      simp only [heard, hf, announcedBy, hst, monitorTest]
      have : q = 0 ∨ q = 1 ∨ q = 2 ∨ q = 3 ∨ q = 4 := by omega
      by_cases a5 : 5 ≤ ph.changes
      · simp only [a5, if_true]
        rcases this with rfl | rfl | rfl | rfl | rfl <;> cases ndtHost <;> decide
      by_cases a2 : 2 ≤ ph.changes
      · simp only [a5, a2, if_true, if_false]
        rcases this with rfl | rfl | rfl | rfl | rfl <;> cases ndtHost <;> decide
      · simp only [a5, a2, if_false]
        rcases this with rfl | rfl | rfl | rfl | rfl <;> cases ndtHost <;> decide
    generalize hm : (if 5 ≤ ph.changes then 4 else if 2 ≤ ph.changes then 3 else 2) = m at *
    have hm5 : m < 5 := by rw [← hm]; split <;> [omega; (split <;> omega)]
    clear h1
    intro n
    induction n generalizing phase with
    | zero => simp only [phaseAfter, look phase hph, if_true]
    | succ n ih =>
      rw [phaseAfter]
      simp only [look phase hph, if_true]
      rw [ih (by omega)]
      omega

/-- C105: after a good session the widget shows the results. -/
theorem C105_shown (h : Exec (HandleControlChannel cfg) () evs out ()) (hp : Ports evs) (hpl : PlaysFrom iv evs p [] up) (hg : GoodPage evs) {phase : Nat} (hph : phase < 5) (ndtHost : Bool) (n : Nat) :
    heard p = .completed ∧ phaseAfter p ndtHost phase (n + 1) = 5 := by
  obtain ⟨c, rate, rfl, hs, -⟩ := C99_page_finishes h hp hpl hg
  obtain ⟨c', e, -, h1, -⟩ := C105_phase h hp hpl hph ndtHost
  cases e
  exact ⟨by simp [heard, hs.finished], h1 hs.finished n⟩

/-- C105: variables are shown as they are, and a dash stands for those that are missing or empty. -/
theorem C105_dash (c : Client) (n : Bytes) :
    (readNDTvar c n = none ↔ c.get n = .undef ∨ c.get n = .text []) ∧ ∀ t, readNDTvar c n = some t → c.get n = .text t ∨ c.get n = .number t ∨ c.get n = .own t := by
  unfold readNDTvar
  cases c.get n with
  | text t => by_cases h : t = [] <;> simp [h]
  | _ => simp

private theorem log_mul {r : Rat} (h : 0 < r) : Int.log 1000 (r * 1000) = Int.log 1000 r + 1 := by
  have h1 : ((1000 : Nat) : Rat) ^ Int.log 1000 r ≤ r := Int.zpow_log_le_self (by norm_num) h
  have h2 : r < ((1000 : Nat) : Rat) ^ (Int.log 1000 r + 1) := Int.lt_zpow_succ_log_self (by norm_num) r
  have hz : ∀ k : Int, ((1000 : Nat) : Rat) ^ (k + 1) = ((1000 : Nat) : Rat) ^ k * 1000 := fun k => by rw [zpow_add_one₀ (by norm_num)]; norm_num
  apply le_antisymm
  · rw [← Int.lt_add_one_iff, Int.lt_zpow_iff_log_lt (by norm_num) (by positivity) |>.symm, hz]
    linarith
  · rw [← Int.zpow_le_iff_le_log (by norm_num) (by positivity), hz]
    linarith

/-- C105: a speed is shown with the right unit: for any rate from 1 kb/s on (and below the thousandfold of the largest unit) the number shown, of two decimals and from 1 to 1000, times its unit is the rate, up to half a
hundredth of the unit. -/
theorem C105_speed {r : Rat} (h1 : 1 ≤ r) (h2 : r < 1000 ^ 6) : ∃ (e : Nat) (n : Int) (u : Bytes), getSpeedUnit (r / 1000) = some u ∧ getJustfiedSpeed (r / 1000) = some ((n : Rat) / 100) ∧
    [str "kb/s", str "Mb/s", str "Gb/s", str "Tb/s", str "Pb/s", str "Eb/s"][e]? = some u ∧ 100 ≤ n ∧ n ≤ 100000 ∧ |(n : Rat) / 100 * 1000 ^ e - r| ≤ 1000 ^ e / 200 := by
  have hpos : 0 < r / 1000 := by positivity
  have hl := log_mul hpos
  rw [div_mul_cancel₀ r (by norm_num)] at hl
  have l1 : ((1000 : Nat) : Rat) ^ Int.log 1000 r ≤ r := Int.zpow_log_le_self (by norm_num) (by linarith)
  have l2 : r < ((1000 : Nat) : Rat) ^ (Int.log 1000 r + 1) := Int.lt_zpow_succ_log_self (by norm_num) r
  have h0 : 0 ≤ Int.log 1000 r := by rw [← Int.zpow_le_iff_le_log (by norm_num) (by linarith)]; simpa using h1
  have h6 : Int.log 1000 r < 6 := by
    rw [← Int.lt_zpow_iff_log_lt (by norm_num) (by linarith)]
    have : (((1000 : Nat) : Rat)) ^ (6 : Int) = 1000 ^ 6 := by norm_num
    rw [this]; exact h2
  obtain ⟨e, he⟩ : ∃ e : Nat, Int.log 1000 r = e := ⟨_, (Int.toNat_of_nonneg h0).symm⟩
  rw [he] at l1 l2 h6 hl
  have z1 : ((1000 : Nat) : Rat) ^ ((e : Nat) : Int) = 1000 ^ e := by rw [zpow_natCast]; norm_num
  have z2 : ((1000 : Nat) : Rat) ^ ((e : Nat) + 1 : Int) = 1000 ^ e * 1000 := by rw [zpow_add_one₀ (by norm_num), z1]; norm_num
  rw [z1] at l1
  rw [z2] at l2
  have hq : (0 : Rat) < 1000 ^ e := by positivity
  have hx : r / 1000 / (1000 : Rat) ^ Int.log 1000 (r / 1000) = r / 1000 ^ e := by
    have : Int.log 1000 (r / 1000) = (e : Int) - 1 := by omega
    rw [this, zpow_sub_one₀ (by norm_num), zpow_natCast]
    field_simp
  have x1 : 1 ≤ r / 1000 ^ e := by rw [le_div_iff₀ hq]; linarith
  have x2 : r / 1000 ^ e < 1000 := by rw [div_lt_iff₀ hq]; linarith
  have he6 : e < 6 := by omega
  have hu : ∃ u, speedUnits[e]? = some u := ⟨_, List.getElem?_eq_getElem (show e < speedUnits.length from he6)⟩
  obtain ⟨u, hu⟩ := hu
  generalize hy : r / 1000 ^ e = y at *
  have hr : r = y * 1000 ^ e := by rw [← hy]; field_simp
  refine ⟨e, ⌊y * 100 + 1 / 2⌋, u, ?_, ?_, hu, ?_, ?_, ?_⟩
  · rw [getSpeedUnit, if_neg (by linarith)]
    simp only [div_mul_cancel₀ r (show (1000 : Rat) ≠ 0 by norm_num), he, Int.natCast_nonneg, if_true, Int.toNat_natCast, hu]
  · rw [getJustfiedSpeed, if_neg (by linarith), hx]; rfl
  · rw [Int.le_floor]; push_cast; linarith
  · rw [← Int.lt_add_one_iff, Int.floor_lt]; push_cast; linarith
  · have f1 := Int.floor_le (y * 100 + 1 / 2)
    have f2 := Int.lt_floor_add_one (y * 100 + 1 / 2)
    have hd : |((⌊y * 100 + 1 / 2⌋ : Int) : Rat) / 100 - y| ≤ 1 / 200 := by
      rw [abs_le]
      constructor <;> linarith
    rw [hr, ← sub_mul, abs_mul, abs_of_pos hq]
    have := mul_le_mul_of_nonneg_right hd hq.le
    linarith

/-- C105: so it is with the speeds on the page with the results, for rates that are whole numbers of kb/s; a rate of zero is shown as `NaN undefined`. -/
theorem C105_speeds {k : Int} (hk : InInt64 k) (hr : c.get (str "c2sRate") = .number (itoa k) ∨ c.get (str "c2sRate") = .own (itoa k)) :
    (1 ≤ k → k < 1000 ^ 6 → ∃ (e : Nat) (n : Int) (u : Bytes), (resultsPage c).upload = (some ((n : Rat) / 100), some u) ∧
      [str "kb/s", str "Mb/s", str "Gb/s", str "Tb/s", str "Pb/s", str "Eb/s"][e]? = some u ∧ 100 ≤ n ∧ n ≤ 100000 ∧ |(n : Rat) / 100 * 1000 ^ e - k| ≤ 1000 ^ e / 200) ∧
    (k ≤ 0 → (resultsPage c).upload = (none, none)) := by
  have hw : (resultsPage c).upload = (getJustfiedSpeed ((k : Rat) / 1000), getSpeedUnit ((k : Rat) / 1000)) := by
    rcases hr with hr | hr <;> simp only [resultsPage, hr, wholeOf, atoi_itoa hk, speedShown]
  refine ⟨fun h1 h2 => ?_, fun h0 => ?_⟩
  · obtain ⟨e, n, u, a, b, d⟩ := C105_speed (r := k) (by exact_mod_cast h1) (by exact_mod_cast h2)
    exact ⟨e, n, u, by rw [hw, a, b], d⟩
  · have : (k : Rat) / 1000 ≤ 0 := div_nonpos_of_nonpos_of_nonneg (by exact_mod_cast h0) (by norm_num)
    rw [hw, getJustfiedSpeed, getSpeedUnit, if_pos this, if_pos this]

/-- C105 is violated: the results have no latency, although nothing went wrong. -/
theorem C105_latency_false : ¬ ∀ (cfg : Cfg) (evs : List Ev) (out : Outcome Unit) (c : Client) (up : List Bytes), Exec (HandleControlChannel cfg) () evs out () → Ports evs → GoodPage evs →
    PlaysFrom widgetInterval evs (.running c) [] up → (resultsPage c).latency.isSome = true := by
  intro h
  obtain ⟨cfg, evs, out, c, up, a, b, d, e, -⟩ := exPage_busy
  have := h _ _ _ _ _ a b d e
  rw [(C105_never a b e).1] at this
  cases this

/-- C105 is violated: if the server ends the session early, say because it has no port for a test, the widget waits forever: it neither shows the results nor says that the test failed. -/
theorem C105_ends_false : ¬ ∀ (cfg : Cfg) (evs : List Ev) (out : Outcome Unit) (p : Page) (up : List Bytes), Exec (HandleControlChannel cfg) () evs out () → Ports evs →
    PlaysFrom widgetInterval evs p [] up → ∃ n, phaseAfter p false 2 n = 5 := by
  intro h
  obtain ⟨cfg, evs, out, c, up, a, b, d, e, -⟩ := exPage_stuck
  obtain ⟨n, hn⟩ := h _ _ _ _ _ a b d
  obtain ⟨c', e', -, -, h2⟩ := C105_phase a b d (show 2 < 5 by decide) false
  cases e'
  have := h2 e n
  omega

/-- C105 is violated: the widget always asks for progress callbacks, so that the upload speed that it shows may be its own estimate instead of what the server measured. -/
theorem C105_upload_false : ¬ ∀ (cfg : Cfg) (evs : List Ev) (out : Outcome Unit) (c : Client) (up : List Bytes), Exec (HandleControlChannel cfg) () evs out () → Ports evs → GoodPage evs →
    PlaysFrom widgetInterval evs (.running c) [] up → c.get (str "c2sRate") = .number (itoa (measuredUpload evs).toInt64) := by
  intro h
  obtain ⟨cfg, evs, out, c, up, a, b, d, e, f, -⟩ := exPage_busy
  have := h _ _ _ _ _ a b d e
  rw [f] at this
  cases this

/-- A session and a page as in the theorems: the jitter is 1.498 seconds. -/
example : ∃ cfg evs out c up snaps, Exec (HandleControlChannel cfg) () evs out () ∧ Ports evs ∧ GoodPage evs ∧ PlaysFrom widgetInterval evs (.running c) [] up ∧ snaps ≠ [] ∧ 0 ∉ rtts snaps ∧
    summarize snaps = some (downloadKernel evs) ∧ (resultsPage c).jitter = some (1498 / 1000, true) := by
  obtain ⟨cfg, evs, out, c, up, a, b, d, e, -, k⟩ := exPage_busy
  refine ⟨cfg, evs, out, c, up, [{ rtt := 2000 }, { rtt := 1500900, info := { bytesAcked := 1000000 } }], a, b, d, e, by simp, by decide, ?_, ?_⟩
  · rw [k]; rfl
  · rw [(C105_results a b e d).1, k]
    decide +kernel

/-- The same session: the widget comes to the results, and the upload speed is shown as 777.00 kb/s. -/
example : ∃ cfg evs out c up, Exec (HandleControlChannel cfg) () evs out () ∧ Ports evs ∧ PlaysFrom widgetInterval evs (.running c) [] up ∧ c.changes = allChanges ∧ phaseAfter (.running c) false 2 1 = 5 ∧
    c.get (str "c2sRate") = .own (itoa 777) ∧ (resultsPage c).upload = (some 777, some (str "kb/s")) := by
  obtain ⟨cfg, evs, out, c, up, a, b, d, e, f, -⟩ := exPage_busy
  obtain ⟨c', rate, hc, hs, -⟩ := C99_page_finishes a b e d
  cases hc
  have hi : InInt64 777 := by unfold InInt64; omega
  have hf : c.get (str "c2sRate") = .own (itoa 777) := by rw [f]; decide
  refine ⟨cfg, evs, out, c, up, a, b, e, hs.states, (C105_shown a b e d (by decide) false 0).2, hf, ?_⟩
  simp only [resultsPage, hf, wholeOf, atoi_itoa hi, speedShown]
  decide +kernel

end Verif.Props
