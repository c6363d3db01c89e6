import Verif.Props.Ndt7Handler

/-!
# ndt7 rates, labels and counted results: C57, C55, C41
-/

namespace Verif.Props
open Verif.Go Verif.Ndt7 Verif.Spec
open Verif.Ndt5 (NameValue)

/-! ## C57 -/

/-- The bytes that count for a direction. -/
def bytesOf : Subtest → Verif.Ndt5.TcpInfo → Int
  | .download => (·.bytesAcked)
  | .upload => (·.bytesReceived)

private theorem rate_eq (kind : Subtest) (m : List Measurement) : subtestRate kind m = rateOf (bytesOf kind) m := by
  cases kind <;> rfl

private theorem rateOf_near {b t : Int} (hb : 0 < b) (hb' : b < 2 ^ 63) (ht : 0 < t) (ht' : t < 2 ^ 63) :
    F64.Near (F64.div (F64.mul (F64.ofInt 8) (F64.ofInt b)) (F64.ofInt t)) (8 * b / t) 4 := by
  have h8 : F64.Near (F64.ofInt 8) ((8 : Int) : ℚ) 0 := by
    rw [F64.ofInt_exact (by norm_num)]
    exact F64.near_exact rfl
  have hb1 : (1 : ℚ) ≤ b := by exact_mod_cast hb
  have hb2 : (b : ℚ) ≤ 2 ^ 63 := by exact_mod_cast hb'.le
  have ht1 : (1 : ℚ) ≤ t := by exact_mod_cast ht
  have ht2 : (t : ℚ) ≤ 2 ^ 63 := by exact_mod_cast ht'.le
  have lo : F64.pow2 (-1000) ≤ F64.pow2 (-63) := F64.pow2_le (by norm_num)
  have lo0 : F64.pow2 (-63) ≤ 1 := by rw [F64.pow2_eq]; norm_num
  have hi : F64.pow2 66 ≤ F64.pow2 900 := F64.pow2_le (by norm_num)
  have e63 : F64.pow2 (-63) = 1 / 2 ^ 63 := by rw [F64.pow2_eq]; norm_num
  have e66 : F64.pow2 66 = 2 ^ 66 := by rw [F64.pow2_eq]; norm_num
  have hbn := F64.near_ofInt hb (by omega)
  have htn := F64.near_ofInt ht (by omega)
  have hm := F64.near_mul h8 hbn (by norm_num) (by linarith) (by norm_num)
    (by push_cast; linarith) (by push_cast; linarith)
  push_cast at hm
  have hpos : (0 : ℚ) < 8 * b := by linarith
  have hd := F64.near_div hm htn hpos (by linarith) (by norm_num)
    (by
      have : 1 / 2 ^ 63 ≤ 8 * (b : ℚ) / t := by
        rw [div_le_div_iff₀ (by norm_num) (by linarith)]
        nlinarith
      linarith)
    (by
      have : 8 * (b : ℚ) / t ≤ 8 * b := div_le_self (by linarith) ht1
      linarith)
  exact hd

/-- C57: the rate is that of the last measurement, in Mbit/s, up to rounding (relative error at most `2^-48`). -/
theorem C57_rate_of_last (kind : Subtest) {ms : List Measurement} {m : Measurement} {t : TcpSample} (hm : m.tcp = some t)
    (hb : 0 < bytesOf kind t.info) (hb' : bytesOf kind t.info < 2 ^ 63) (ht : 0 < t.elapsed) (ht' : t.elapsed < 2 ^ 63) :
    ∃ v : ℚ, subtestRate kind (ms ++ [m]) = .fin v ∧
      |v - 8 * bytesOf kind t.info / t.elapsed| ≤ (8 * bytesOf kind t.info / t.elapsed) / 2 ^ 48 := by
  have := F64.near_error (rateOf_near hb hb' ht ht')
    (by have h1 : (0 : ℚ) < bytesOf kind t.info := by exact_mod_cast hb
        have h2 : (0 : ℚ) < t.elapsed := by exact_mod_cast ht
        positivity) (by norm_num)
  rw [rate_eq]
  simpa [rateOf, hm] using this

/-- C57: no bytes, no rate. -/
theorem C57_no_bytes (kind : Subtest) {ms : List Measurement} {m : Measurement} {t : TcpSample} (hm : m.tcp = some t)
    (hb : bytesOf kind t.info = 0) (ht : 0 < t.elapsed) (ht' : t.elapsed < 2 ^ 63) : subtestRate kind (ms ++ [m]) = .fin 0 := by
  obtain ⟨v, hv, hv0⟩ := F64.near_pos (F64.near_ofInt ht (by omega)) (by exact_mod_cast ht)
  rw [rate_eq]
  simp only [rateOf, List.getLast?_append, List.getLast?_singleton, Option.some_or, hm, hb]
  rw [F64.ofInt_exact (n := 8) (by norm_num), F64.ofInt_exact (n := 0) (by norm_num), hv]
  have hne : v ≠ 0 := ne_of_gt hv0
  simp [F64.mul, F64.div, F64.round_zero, hne]

/-- C57: the rate is zero if there is no measurement or the last one has no TCP statistics. -/
theorem C57_zero_without_tcp (kind : Subtest) (ms : List Measurement) (m : Measurement) (hm : m.tcp = none) :
    subtestRate kind [] = .fin 0 ∧ subtestRate kind (ms ++ [m]) = .fin 0 := by
  constructor
  · cases kind <;> rfl
  · rw [rate_eq]; simp [rateOf, hm]

/-! ## C55 -/

/-- The two models of `metrics.GetResultLabel` agree. -/
theorem resultLabel_eq (err : Option Err) (rate : F64) : Ndt5.resultLabel err rate = Ndt7.resultLabel err rate := by
  cases err <;> simp [Ndt5.resultLabel, Ndt7.resultLabel]

/-- C55: the four labels. -/
theorem C55_result_label (err : Option Err) (rate : F64) :
    (resultLabel err rate = str "okay-with-rate" ↔ err = none ∧ rate ≠ .fin 0) ∧
    (resultLabel err rate = str "okay-without-rate" ↔ err = none ∧ rate = .fin 0) ∧
    (resultLabel err rate = str "error-with-rate" ↔ err ≠ none ∧ rate ≠ .fin 0) ∧
    (resultLabel err rate = str "error-without-rate" ↔ err ≠ none ∧ rate = .fin 0) := by
  have hz : rate.isZero = true ↔ rate = .fin 0 := by cases rate <;> simp [F64.isZero]
  unfold resultLabel
  by_cases h : rate.isZero = true
  · have h' := hz.1 h
    cases err <;> simp [h, h'] <;> decide
  · have h' : ¬ rate = .fin 0 := fun x => h (hz.2 x)
    cases err <;> simp [h, h'] <;> decide

private theorem suffix_host {host port suf : Bytes} (h : (58 : UInt8) ∉ suf) :
    hasSuffix (host ++ 58 :: port) suf = hasSuffix port suf := by
  have key : ∀ s : Bytes, hasSuffix s suf = true ↔ suf <:+ s := by
    intro s; simp [hasSuffix]
  rw [Bool.eq_iff_iff, key, key]
  constructor
  · rintro ⟨t, ht⟩
    rw [List.append_eq_append_iff] at ht
    rcases ht with ⟨a, h1, h2⟩ | ⟨c, h1, h2⟩
    · exact absurd (h2 ▸ List.mem_append_right a List.mem_cons_self) h
    · cases c with
      | nil => simp at h2; exact absurd (h2 ▸ List.mem_cons_self) h
      | cons x c => simp at h2; exact ⟨c, h2.2.symm⟩
  · rintro ⟨t, ht⟩
    exact ⟨host ++ 58 :: t, by rw [← ht]; simp⟩

/-- C55: the protocol label is determined by how the port ends, whatever the host is. -/
theorem C55_protocol_label (host port : Bytes) :
    let label := ndt7Label (host ++ str ":" ++ port)
    (label = str "ndt7+wss" ↔ str "443" <:+ port) ∧ (label = str "ndt7+ws" ↔ str "80" <:+ port) ∧
    (label = str "ndt7+unknown" ↔ ¬ str "443" <:+ port ∧ ¬ str "80" <:+ port) := by
  have e1 : hasSuffix (host ++ str ":" ++ port) (str "443") = hasSuffix port (str "443") := by
    have := suffix_host (host := host) (port := port) (suf := str "443") (by decide)
    simpa [str] using this
  have e2 : hasSuffix (host ++ str ":" ++ port) (str "80") = hasSuffix port (str "80") := by
    have := suffix_host (host := host) (port := port) (suf := str "80") (by decide)
    simpa [str] using this
  have key : ∀ s suf : Bytes, hasSuffix s suf = true ↔ suf <:+ s := by
    intro s suf; simp [hasSuffix]
  have excl : ¬ (str "443" <:+ port ∧ str "80" <:+ port) := by
    rintro ⟨h1, h2⟩
    have := List.suffix_of_suffix_length_le h2 h1 (by decide)
    revert this
    decide
  simp only [ndt7Label, e1, e2, key]
  by_cases h1 : str "443" <:+ port
  · have h2 : ¬ str "80" <:+ port := fun h2 => excl ⟨h1, h2⟩
    simp [h1, h2]; decide
  · by_cases h2 : str "80" <:+ port
    · simp [h1, h2]; decide
    · simp [h1, h2]; decide

/-- C55: the label of the ndt5 connection types; the three of them have different labels. -/
theorem C55_ndt5_label (c : Bytes) :
    (Ndt5.connLabel c = str "ndt5+wss" ↔ c = str "WSS") ∧ (Ndt5.connLabel c = str "ndt5+ws" ↔ c = str "WS") ∧
    (Ndt5.connLabel c = str "ndt5+plain" ↔ c = str "PLAIN") ∧
    (Ndt5.connLabel c = str "ndt5+unknown" ↔ c ≠ str "WSS" ∧ c ≠ str "WS" ∧ c ≠ str "PLAIN") := by
  unfold Ndt5.connLabel
  by_cases h1 : c = str "WSS"
  · subst h1; decide
  · by_cases h2 : c = str "WS"
    · subst h2; decide
    · by_cases h3 : c = str "PLAIN"
      · subst h3; decide
      · simp [h1, h2, h3]; decide

/-! ## C41 -/

section
variable {h : Server} {kind : Subtest} {req : Request} {evs : List Ev} {out : Outcome Unit} {s' : Result}

private theorem handled' (hq : QueryOk req) (he : Exec (runMeasurement h kind req) {} evs out s') :
    ∃ md, Handled h kind req md evs := by
  have hwf2 : req.query2.WF :=
    ⟨(hq.same.map Prod.fst).nodup_iff.1 hq.wf.distinct, fun e he => hq.wf.nonempty e (hq.same.mem_iff.2 he)⟩
  obtain ⟨md, hmd, -⟩ := C38_metadata_exact hwf2
  refine ⟨md, wp_iff.1 (runMeasurement_spec h kind req md hmd {} ?_) _ _ _ he⟩
  intro msg hmsg
  rcases first_or_absent hq.wf (str "early_exit") with ha | ⟨v, hv⟩
  · rw [(C37_accepts_absent hq.wf).2 ha] at hmsg; simp at hmsg
  · by_cases hx : v = str "250"
    · rw [(C37_accepts_250 hq.wf).2 (hx ▸ hv)] at hmsg; simp at hmsg
    · obtain ⟨e, h1⟩ := (C37_refuses_others hq.wf).2 ⟨v, hv, hx⟩
      rw [h1] at hmsg; simp at hmsg

/-- The label of the model is the text of the specification. -/
private theorem resultText_eq (err : Option Err) (rate : F64) : resultLabel err rate = resultText err.isSome rate := by
  have hz : ∀ r : F64, r.isZero = decide (r = .fin 0) := by
    intro r; cases r <;> simp [F64.isZero, beq_eq_decide]
  unfold resultLabel resultText
  rw [hz]
  by_cases h : rate = .fin 0 <;> cases err <;> simp [h] <;> rfl

/-- The label of the protocol is the text of the specification. -/
private theorem addrProtocolText_eq (addr : Bytes) : ndt7Label addr = addrProtocolText addr := by
  have key : ∀ suf : Bytes, hasSuffix addr suf = true ↔ suf <:+ addr := by intro suf; simp [hasSuffix]
  simp only [ndt7Label, addrProtocolText, key]

/-- C41, partial: it is assumed that neither the subtest nor its evaluation crashes. A finished subtest is counted exactly once, under
its direction, with the label of its error and rate and of the protocol of the server's address; the rate is in the histogram exactly if
it is positive. -/
theorem C41_counted_partial (hq : QueryOk req) (he : Exec (runMeasurement h kind req) {} evs out s') (hs : EvalOk evs)
    {x : Subtest × Option Params × SubtestEnd} (hx : x ∈ subtests evs) (hc : x.2.2.crash = none) :
    ∃ p, testResults evs = [(p, directionText kind, resultText x.2.2.err.isSome (subtestRate kind x.2.2.serverMeasurements))] ∧
      (rates evs = if F64.lt (.fin 0) (subtestRate kind x.2.2.serverMeasurements) then
        [(p, directionText kind, subtestRate kind x.2.2.serverMeasurements)] else []) ∧
      ∃ addr, .call .localText (.ok addr) ∈ evs ∧ p = addrProtocolText addr := by
  rw [← name_eq, ← resultText_eq]
  obtain ⟨md, hh⟩ := handled' hq he
  cases hh with
  | measured p hv hp uuid e hm =>
    obtain ⟨addr, h0, h1, h2⟩ := hm.counted (by simpa [atSetup] using hs) x (by simpa using hx) hc
    exact ⟨_, by simpa using h1, by simpa using h2, addr, by simp [h0], addrProtocolText_eq addr⟩
  | _ => simp at hx

/-- C41: nothing is counted twice, and nothing is counted as a test result that is not counted as "result". -/
theorem C41_at_most_once (hq : QueryOk req) (he : Exec (runMeasurement h kind req) {} evs out s') :
    (testResults evs).length ≤ 1 ∧ (testResults evs ≠ [] → (directionText kind, str "result") ∈ statuses evs) := by
  rw [← name_eq]
  obtain ⟨md, hh⟩ := handled' hq he
  cases hh with
  | measured p hv hp uuid e hm => exact ⟨by simpa using hm.atMostOnce, fun _ => by simp [hm.statuses]⟩
  | _ => simp

/-- C41: if the kernel's figures make sense (the last measurement, if it has TCP statistics, was taken after a positive time and does
not have a negative count), then a result labelled with a rate is in the histogram, and only those are. -/
theorem C41_with_rate_in_histogram (hq : QueryOk req) (he : Exec (runMeasurement h kind req) {} evs out s') (hs : EvalOk evs)
    {x : Subtest × Option Params × SubtestEnd} (hx : x ∈ subtests evs) (hc : x.2.2.crash = none)
    (hsane : ∀ m t, x.2.2.serverMeasurements.getLast? = some m → m.tcp = some t →
      0 ≤ bytesOf kind t.info ∧ bytesOf kind t.info < 2 ^ 63 ∧ 0 < t.elapsed ∧ t.elapsed < 2 ^ 63) :
    ∃ p l, testResults evs = [(p, directionText kind, l)] ∧ (str "-with-rate" <:+ l ↔ ∃ r, rates evs = [(p, directionText kind, r)]) ∧
      (¬ str "-with-rate" <:+ l → rates evs = []) := by
  obtain ⟨p, h1, h2, -⟩ := C41_counted_partial hq he hs hx hc
  refine ⟨p, _, h1, ?_⟩
  have hpos : subtestRate kind x.2.2.serverMeasurements = .fin 0 ∨
      ∃ v, subtestRate kind x.2.2.serverMeasurements = .fin v ∧ 0 < v := by
    rcases List.eq_nil_or_concat x.2.2.serverMeasurements with h0 | ⟨ms, m, hm⟩
    · rw [h0]; exact .inl (by cases kind <;> rfl)
    · rw [List.concat_eq_append] at hm
      rw [hm] at hsane ⊢
      cases ht : m.tcp with
      | none => exact .inl (C57_zero_without_tcp kind ms m ht).2
      | some t =>
        obtain ⟨g1, g2, g3, g4⟩ := hsane m t (by simp) ht
        rcases Int.lt_or_eq_of_le g1 with g1 | g1
        · obtain ⟨v, hv⟩ := F64.near_pos (rateOf_near g1 g2 g3 g4)
            (by have h1 : (0 : ℚ) < bytesOf kind t.info := by exact_mod_cast g1
                have h2 : (0 : ℚ) < t.elapsed := by exact_mod_cast g3
                positivity)
          refine .inr ⟨v, ?_, hv.2⟩
          rw [rate_eq]
          simpa [rateOf, ht] using hv.1
        · exact .inl (C57_no_bytes kind ht g1.symm g3 g4)
  have hsuf : ∀ (er : Option Err) (r : F64), str "-with-rate" <:+ resultLabel er r ↔ r.isZero = false := by
    intro er r
    unfold resultLabel
    cases er <;> cases hz : r.isZero <;> simp <;> decide
  rw [← resultText_eq, hsuf, h2]
  rcases hpos with h0 | ⟨v, hv, hv0⟩
  · rw [h0]
    have : F64.lt (.fin 0) (.fin 0) = false := by simp [F64.lt]
    simp [this, F64.isZero]
  · rw [hv]
    have : F64.lt (.fin 0) (.fin v) = true := by simpa [F64.lt] using hv0
    simp [this, F64.isZero, ne_of_gt hv0]

end

/-- C41 is violated by a crash of the subtest: the request is counted as "result" but not as a test result. -/
theorem C41_counted_false : ¬ ∀ (h : Server) (kind : Subtest) (req : Request) (evs : List Ev) (out : Outcome Unit) (s' : Result),
    QueryOk req → Exec (runMeasurement h kind req) {} evs out s' → SetupOk evs → EvalOk evs → NoExit evs →
    (directionText kind, str "result") ∈ statuses evs → (testResults evs).length = 1 := by
  intro H
  have := H _ _ _ _ _ _ exRequest_ok exCrash (by simp [exBegin, exEnd, atSetup]) (by simp [exBegin, exEnd]) (by simp [exBegin, exEnd])
    (by simp [exBegin, exEnd, Subtest.name, directionText])
  simp [exBegin, exEnd] at this

/-- A label with a rate but no rate in the histogram: no bytes in no time make the rate not a number. -/
theorem C41_nan_rate (t : TcpSample) (h0 : t.elapsed = 0) (h1 : t.info.bytesAcked = 0) (err : Option Err) :
    subtestRate .download [{ tcp := some t }] = .nan ∧ str "-with-rate" <:+ resultLabel err .nan ∧ F64.lt (.fin 0) .nan = false := by
  refine ⟨?_, by cases err <;> exact ⟨_, rfl⟩, rfl⟩
  simp only [subtestRate, downRate, rateOf, List.getLast?_singleton, h0, h1]
  rw [F64.ofInt_exact (n := 8) (by norm_num), F64.ofInt_exact (n := 0) (by norm_num)]
  simp [F64.mul, F64.div, F64.round_zero]

/-- A failed download is counted. -/
example : testResults (exBegin { err := some (str "e") } ++
    [.call .localText (.ok (str "[::1]:443")), .emit (.testResult (str "ndt7+wss") (str "download") (str "error-without-rate"))] ++ exEnd) =
      [(str "ndt7+wss", str "download", str "error-without-rate")] := by
  simp [exBegin, exEnd]

end Verif.Props
