import Verif.Props.Ndt7Test
import Verif.Props.Ndt7Whole

/-!
# From what happens during an ndt7 subtest to the bytes of its file (C91)
-/

namespace Verif.Props
open Verif.Go Verif.Spec Verif.Ndt7

/-- The readings of the clock in a subtest. -/
def reading : TAct → Option Int
  | .stamp t | .finish t | .measurer (.start t) | .measurer (.tickHand t) | .measurer (.tickBuffer t) => some t
  | _ => none

/-- The clock and the kernel keep to their types during a subtest: times have years of four digits and fit 64 bits as nanoseconds, the values of `tcp_info` fit its fields. -/
structure TestEnv (K : Layout) (as : List TAct) : Prop where
  clock : ∀ a ∈ as, ∀ t, reading a = some t → FourDigitYear t ∧ InInt64 t
  kernel : ∀ b t, .measurer (.measure (.ok (b, t))) ∈ as → Holds K t

/-- The subtest of a request went like this. -/
structure WentAs (K : Layout) (x : Subtest × Option Params × SubtestEnd) (c : TestCfg) (as : List TAct) (s : TestState) : Prop where
  kind : c.kind = x.1
  params : ∀ p, x.2.1 = some p → c.params = p
  parse : c.parse = decodeMeasurement K
  run : (test c).Reaches (as ++ [.write]) s
  file : s.file = some x.2.2
  env : TestEnv K as

variable {K : Layout} {x : Subtest × Option Params × SubtestEnd} {c : TestCfg} {as : List TAct} {s : TestState}

/-- The steps of the goroutines of the measurer and its ticker. -/
theorem own_of (hr : (test c).Reaches as s) : ∀ y ∈ as.flatMap toM, y.own = true → .measurer y ∈ as := by
  refine LTS.invariant (P := fun as _ => ∀ y ∈ as.flatMap toM, y.own = true → .measurer y ∈ as) ?_ ?_ hr
  · simp
  · intro as s a s' _ hi hst y hy ho
    rw [List.flatMap_append] at hy
    rcases List.mem_append.1 hy with hy | hy2
    · exact List.mem_append_left _ (hi y hy ho)
    · clear hy
      have hy := hy2
      clear hy2
      rw [List.flatMap_cons, List.flatMap_nil, List.append_nil] at hy
      refine List.mem_append_right _ ?_
      cases a
      case measurer b => simp only [toM, List.mem_singleton] at hy; subst hy; simp
      case prepare e => cases e <;> simp [toM] at hy; subst hy; simp [MAct.own] at ho
      case deadline e => cases e <;> simp [toM] at hy; subst hy; simp [MAct.own] at ho
      case stopping b =>
        simp only [toM, List.mem_singleton] at hy
        subst hy
        simp only [test, testStep] at hst
        split at hst
        · split at hst
          · rename_i hb
            cases y <;> simp [MAct.own, MAct.ofStop] at ho hb
          · cases hst
        · cases hst
      all_goals simp [toM] at hy
      all_goals (subst hy; simp [MAct.own] at ho)

private theorem year0 : FourDigitYear 0 := by unfold FourDigitYear; decide +kernel

/-- C91: what a subtest leaves behind fits the types of the record, if the clock and the kernel keep to theirs. -/
theorem C91_in_order (h : WentAs K x c as s) :
    (FourDigitYear x.2.2.startTime ∧ FourDigitYear x.2.2.endTime) ∧ (∀ m ∈ x.2.2.serverMeasurements, Typed K m ∧ TimeOk m) ∧
    ∀ m ∈ x.2.2.clientMeasurements, ∃ body, decodeMeasurement K body = some m := by
  have hM : (as ++ [TAct.write]).flatMap toM = as.flatMap toM := by simp [toM]
  obtain ⟨s0, hr0, -⟩ := LTS.reaches_snoc.1 h.run
  have hown := own_of hr0
  refine ⟨?_, ?_, ?_⟩
  · rcases (C91_times h.run h.file).2 with ⟨h1, h2⟩ | ⟨-, -, h1, h2, -⟩
    · constructor
      · have : x.2.2.startTime ∈ stamps (as ++ [.write]) := by rw [h1]; simp
        obtain ⟨a, ha, hx⟩ := List.mem_filterMap.1 this
        cases a <;> simp at hx
        subst hx
        simp at ha
        exact (h.env.clock _ ha _ rfl).1
      · have : x.2.2.endTime ∈ finishes (as ++ [.write]) := by rw [h2]; simp
        obtain ⟨a, ha, hx⟩ := List.mem_filterMap.1 this
        cases a <;> simp at hx
        subst hx
        simp at ha
        exact (h.env.clock _ ha _ rfl).1
    · rw [h1, h2]; exact ⟨year0, year0⟩
  · intro m hm
    obtain ⟨-, ⟨ps, p1, p2, p3⟩, -, -, -⟩ := C91_server_measurements h.run h.file
    rw [hM] at p1 p2 p3
    obtain ⟨i, hi, rfl⟩ := List.getElem_of_mem hm
    have hlt : i < ps.length := p3.length_eq ▸ hi
    have hp := (List.forall₂_iff_get.1 p3).2 i hlt hi
    simp only [List.get_eq_getElem] at hp
    have hstart : FourDigitYear ((startTimes (as.flatMap toM)).headD 0) ∧ InInt64 ((startTimes (as.flatMap toM)).headD 0) := by
      cases hs : startTimes (as.flatMap toM) with
      | nil => exact ⟨year0, by simp [InInt64]⟩
      | cons t l =>
        have : t ∈ startTimes (as.flatMap toM) := by rw [hs]; simp
        obtain ⟨y, hy, hx⟩ := List.mem_filterMap.1 this
        cases y <;> simp at hx
        subst hx
        exact h.env.clock _ (hown _ hy rfl) _ rfl
    have htick : InInt64 ps[i].1 := by
      have : ps[i].1 ∈ acceptedTicks (as.flatMap toM) := p1.subset (List.mem_map.2 ⟨_, List.getElem_mem hlt, rfl⟩)
      obtain ⟨y, hy, hx⟩ := List.mem_filterMap.1 this
      cases y <;> simp at hx
      all_goals
        rw [← hx]
        exact (h.env.clock _ (hown _ hy rfl) _ rfl).2
    have hus : ∀ us : Int, 1000 * us ≤ ps[i].1 - (startTimes (as.flatMap toM)).headD 0 → ps[i].1 - (startTimes (as.flatMap toM)).headD 0 < 1000 * (us + 1) → InInt64 us := by
      intro us h1 h2
      unfold InInt64 at htick hstart ⊢
      omega
    refine ⟨⟨?_, ?_, ?_⟩, ?_⟩
    · intro a ha; rw [hp.app] at ha; cases ha
    · intro b hb
      cases ho : ps[i].2 with
      | error e => rw [(hp.error e ho).1] at hb; cases hb
      | ok bt =>
        obtain ⟨us, h3, h4, h5, h6⟩ := hp.ok bt.1 bt.2 ho
        rw [h3] at hb
        cases hb
        exact hus us h5 h6
    · intro t ht
      cases ho : ps[i].2 with
      | error e => rw [(hp.error e ho).2] at ht; cases ht
      | ok bt =>
        obtain ⟨us, h3, h4, h5, h6⟩ := hp.ok bt.1 bt.2 ho
        rw [h4] at ht
        cases ht
        refine ⟨?_, hus us h5 h6⟩
        have : ps[i].2 ∈ readOutcomes (as.flatMap toM) := p2.subset (List.mem_map.2 ⟨_, List.getElem_mem hlt, rfl⟩)
        rw [ho] at this
        obtain ⟨y, hy, hx⟩ := List.mem_filterMap.1 this
        cases y <;> simp at hx
        subst hx
        exact h.env.kernel _ _ (hown _ hy rfl)
    · intro cn hc
      rw [hp.conn] at hc
      cases hc
      exact ⟨by simpa [Stamp.wall] using hstart.1, by simp⟩
  · have hsub : ∀ m ∈ x.2.2.clientMeasurements, m ∈ clientSent c as := by
      intro m hm
      rcases C91_client_measurements h.run h.file with h1 | ⟨-, y, h1⟩
      · rwa [← h1]
      · rw [h1]; exact List.mem_append_left _ hm
    intro m hm
    obtain ⟨b, -, hb⟩ := List.mem_filterMap.1 (hsub m hm)
    obtain ⟨body, rfl, hb⟩ := Option.bind_eq_some_iff.1 hb
    rw [h.parse] at hb
    exact ⟨body, hb⟩

/-- C91: the whole way from what happens during a subtest to the bytes of the file of its request. If the disk, the clock and the kernel are in order and no client message has a time in a zone 24 hours or
more from UTC, the file of a request that is counted as "result" holds (compressed if the server is to compress) one JSON document; its server measurements are those that the client was sent during the
subtest, its client measurements are the acceptable messages that arrived from the client (the very latest may be missing if the time was up), and its times are those of the subtest. -/
theorem C91_request_file {K : Layout} (hK : LayoutOk K) {gz : Bytes → Bytes} {srv : Nat → Server} {kind : Nat → Subtest} {req : Nat → Request} {fs0 fs : Fs} {g : List (Nat × Ev)}
    (hint : Interleaved srv kind req g) (hr : FsRun (fun r => (encodeResult K r).getD []) gz fs0 g fs)
    {i : Nat} {out : Outcome Unit} {s' : Result} (hq : QueryOk (req i)) (he : Exec (runMeasurement (srv i) (kind i) (req i)) {} (mine i g) out s')
    (hs : SetupOk (mine i g)) (hd : DiskInOrder K (mine i g)) (hclock : ∀ t, .clock t ∈ mine i g → FourDigitYear t)
    (hremote : ∀ a : TcpAddr, .call .remoteAddr (.ok (some a)) ∈ mine i g → InInt64 a.port) (hlocal : ∀ a : TcpAddr, .call .localAddr (.ok (some a)) ∈ mine i g → InInt64 a.port)
    {x : Subtest × Option Params × SubtestEnd} (hx : subtests (mine i g) = [x]) {c : TestCfg} {as : List TAct} {s : TestState} (hw : WentAs K x c as s)
    (hc : (directionText (kind i), str "result") ∈ statuses (mine i g))
    (hz : ∀ m ∈ x.2.2.clientMeasurements, ∀ c, m.conn = some c → c.startZone.natAbs < 1440) :
    ∃ t0 t1 path uuid id r d text j, marks (mine i g) = [.created t0 uuid id, .opened path, .wrote path r, .deleted t1 uuid] ∧
      fs.files path = some (if (srv i).compress then gz text else text) ∧ IsJson text j ∧ resultDoc K r j ∧
      under (kind i) r = some d ∧ under (other (kind i)) r = none ∧ d.uuid = uuid ∧
      d.serverMeasurements = sentMeasurements s.sent ∧
      (d.clientMeasurements = clientSent c as ∨ .ctxEnd ∈ as ∧ ∃ y, clientSent c as = d.clientMeasurements ++ [y]) ∧
      (stamps as = [d.startTime] ∧ finishes as = [d.endTime] ∨ stamps as = [] ∧ x.2.2.err ≠ none) ∧ d.startTime ≤ d.endTime := by
  have hxs : ∀ y ∈ subtests (mine i g), y = x := by rw [hx]; simp
  obtain ⟨o1, o2, o3⟩ := C91_in_order hw
  have ho : InOrder K (mine i g) := ⟨hclock, hremote, hlocal, fun y hy => hxs y hy ▸ o1, fun y hy => hxs y hy ▸ o2, fun y hy => hxs y hy ▸ o3⟩
  obtain ⟨t0, t1, path, uuid, id, r, d, text, j, h1, h2, h3, h4, h5, h6, h7, h8, h9, h10, h11⟩ :=
    C90_request_file hK hint hr hq he hs hd ho hc (fun y hy => hxs y hy ▸ hz)
  obtain ⟨g1, g2, g3, g4⟩ := h11 x (by rw [hx]; simp)
  have hst : stamps (as ++ [.write]) = stamps as := by simp [stamps]
  have hfi : finishes (as ++ [.write]) = finishes as := by simp [finishes]
  obtain ⟨k1, k2⟩ := C91_times hw.run hw.file
  rw [hst, hfi] at k2
  refine ⟨t0, t1, path, uuid, id, r, d, text, j, h1, h2, h3, h4, h7, h8, h9, ?_, ?_, ?_, ?_⟩
  · rw [g1]; exact (C91_server_measurements hw.run hw.file).1
  · rw [g2]; exact C91_client_measurements hw.run hw.file
  · rw [g3, g4]
    exact k2.imp (fun h => h) fun h => ⟨h.1, h.2.2.2.2.1⟩
  · rw [g3, g4]; exact k1

/-! ## Example -/

/-- What the measurer of the example knows, with the decoder of client messages. -/
def exTestCfg : TestCfg :=
  { kind := .download, params := ⟨false, 0⟩, m := { client := str "192.0.2.1:443", server := str "192.0.2.2:1", uuid := str "u", cap := 1 }, parse := decodeMeasurement exLayout }

/-- The steps of a download with two measurements; for the second the kernel has no data. -/
def exSteps : List TAct :=
  [.measurer (.start 5), .prepare none, .rxDeadline none, .measurer (.newTicker true), .deadline none, .measurer .assign, .stamp 7, .measurer .check, .bulk none none, .rxCheck,
   .measurer (.tickHand 2007), .measurer (.measure (.ok ({}, {}))), .receive, .output none none, .bulk none none, .measurer .check,
   .measurer (.tickHand 4007), .measurer (.measure (.error (str "EBADF"))), .receive, .output none none, .ctxEnd, .measurer .expire, .measurer .check, .measurer .exit, .closed, .rxNext [] (.broken (str "closed")), .finish 9000, .stopping .lookAtTicker, .stopping .cancelTicker, .stopping .drained, .received]

/-- The first measurement. -/
def exSample : Measurement :=
  { conn := some { client := str "192.0.2.1:443", server := str "192.0.2.2:1", uuid := str "u", startTime := 5 }, bbr := some ⟨{}, 2⟩, tcp := some ⟨{}, 2⟩ }

/-- What that download leaves. -/
def exLeft : SubtestEnd := { startTime := 7, endTime := 9000, serverMeasurements := [exSample, { conn := exSample.conn }] }

theorem exWent : ∃ s, WentAs exLayout (.download, some ⟨false, 0⟩, exLeft) exTestCfg exSteps s := by
  refine ⟨_, rfl, ?_, rfl, rfl, rfl, ?_, ?_⟩
  · rintro p ⟨⟩; rfl
  · intro a ha t ht
    simp only [exSteps, List.mem_cons, List.not_mem_nil, or_false] at ha
    rcases ha with rfl | rfl | rfl | rfl | rfl | rfl | rfl | rfl | rfl | rfl | rfl | rfl | rfl | rfl | rfl | rfl | rfl | rfl | rfl | rfl | rfl | rfl | rfl | rfl | rfl | rfl | rfl | rfl | rfl | rfl | rfl <;> cases ht <;>
      exact ⟨by unfold FourDigitYear; decide +kernel, by simp [InInt64]⟩
  · intro b t h
    simp only [exSteps, List.mem_cons, List.not_mem_nil, or_false, reduceCtorEq, false_or, TAct.measurer.injEq, MAct.measure.injEq, Except.ok.injEq, Prod.mk.injEq] at h
    rw [h.2]
    exact ⟨.cons (by decide) (.cons (by decide) .nil), rfl⟩

/-- The record of the request. -/
def exLeftRecord : Result :=
  { exDiskRecord with download := some { uuid := str "u", clientMetadata := [⟨str "client_name", str "x"⟩], serverMetadata := [⟨str "machine-type", str "virtual"⟩],
                                         startTime := 7, endTime := 9000, serverMeasurements := [exSample, { conn := exSample.conn }] } }

/-- What happens before its result is written. -/
def exLeftBegin : List Ev :=
  exBegin exLeft ++ [.call .localText (.ok (str "[::1]:443")), .emit (.testResult (str "ndt7+wss") (str "download") (str "okay-without-rate")), .clock exTime, .clock exTime,
    .call (.mkdirAll (str "/d/ndt7/2020/11/06")) (.ok none)]

/-- The events of the request. -/
def exLeftEvents : List Ev := exLeftBegin ++ [.call (.openExcl exDiskPath) (.ok none),
    .call (.write exDiskPath false exLeftRecord) (.ok none), .call (.fileClose exDiskPath) (.ok none)] ++ exDiskEnd

private theorem exDir : resultDir calendar (str "/d") exTime = str "/d/ndt7/2020/11/06" := by decide +kernel
private theorem exName : resultName calendar (str "/d") Subtest.download.name (str "u") false exTime = exDiskPath := by decide +kernel

/-- The request. -/
theorem exLeft_exec : Exec (runMeasurement (exDisk false) .download exRequest) {} exLeftEvents (.ok ()) exLeftRecord := by
  rw [exLeftEvents, ← exName, exLeftBegin, ← exDir]
  follow

/-- The hypotheses hold for this request, beside requests that have not begun. -/
example (gz : Bytes → Bytes) : ∃ g fs s', Interleaved (fun _ => exDisk false) (fun _ => .download) (fun _ => exRequest) g ∧
    FsRun (fun r => (encodeResult exLayout r).getD []) gz exFs g fs ∧ QueryOk exRequest ∧ Exec (runMeasurement (exDisk false) .download exRequest) {} (mine 0 g) (.ok ()) s' ∧
    SetupOk (mine 0 g) ∧ DiskInOrder exLayout (mine 0 g) ∧ (∀ t, .clock t ∈ mine 0 g → FourDigitYear t) ∧
    (∀ a : TcpAddr, .call .remoteAddr (.ok (some a)) ∈ mine 0 g → InInt64 a.port) ∧ (∀ a : TcpAddr, .call .localAddr (.ok (some a)) ∈ mine 0 g → InInt64 a.port) ∧
    subtests (mine 0 g) = [(.download, some ⟨false, 0⟩, exLeft)] ∧ (∃ s, WentAs exLayout (.download, some ⟨false, 0⟩, exLeft) exTestCfg exSteps s) ∧
    (directionText .download, str "result") ∈ statuses (mine 0 g) ∧ ∀ m ∈ exLeft.clientMeasurements, ∀ c, m.conn = some c → c.startZone.natAbs < 1440 := by
  have h0 := fsRun_idle (json := fun r => (encodeResult exLayout r).getD []) (gz := gz) (fs0 := exFs) .nil 0 exLeftBegin (by simp [exLeftBegin, exBegin, isFileOp, isFileCall])
  have h1 := FsRun.snoc _ 0 _ _ _ h0 (.create _ exDiskPath (by decide +kernel))
  have h2 := FsRun.snoc _ 0 _ _ _ h1 (.write _ exDiskPath [] ((encodeResult exLayout exLeftRecord).getD []) [] false exLeftRecord (.ok none) (by simp [Fs.set]) (by simp [document])
    fun _ _ => rfl)
  have h3 := fsRun_idle h2 0 ([.call (.fileClose exDiskPath) (.ok none)] ++ exDiskEnd) (by simp [isFileOp, isFileCall, exDiskEnd])
  have hmine : mine 0 (exLeftEvents.map (0, ·)) = exLeftEvents := by
    generalize exLeftEvents = l
    induction l with
    | nil => rfl
    | cons e l ih =>
      rw [List.map_cons, show ((0, e) :: l.map (0, ·) : List (Nat × Ev)) = [(0, e)] ++ l.map (0, ·) from rfl, mine_append, ih]
      simp [mine]
  have henc : (encodeResult exLayout exLeftRecord).isSome = true := by decide +kernel
  refine ⟨exLeftEvents.map (0, ·), _, _, interleaved_first exLeft_exec, by simpa [exLeftEvents] using h3, exRequest_ok, by rw [hmine]; exact exLeft_exec, ?_⟩
  rw [hmine]
  refine ⟨?_, ⟨?_, ?_, ?_, ?_, ?_⟩, ?_, ?_, ?_, rfl, exWent, ?_, ?_⟩
  · intro q msg hm
    have : (.call q (.panic msg) : Ev) ∉ exLeftEvents := by
      simp [exLeftEvents, exLeftBegin, exBegin, exDiskEnd]
      refine ⟨?_, ?_, ?_, ?_, ?_, ?_, ?_, ?_, ?_, ?_⟩ <;> (rintro rfl h; cases h)
    exact absurd hm this
  · intro d a; simp [exLeftEvents, exLeftBegin, exBegin, exDiskEnd]
  · intro d a; simp [exLeftEvents, exLeftBegin, exBegin, exDiskEnd]
  · intro p c r a; simp [exLeftEvents, exLeftBegin, exBegin, exDiskEnd]; rintro rfl rfl rfl h; cases h; exact ⟨_, rfl, by simp [henc]⟩
  · intro d a; simp [exLeftEvents, exLeftBegin, exBegin, exDiskEnd]
  · intro d a; simp [exLeftEvents, exLeftBegin, exBegin, exDiskEnd]
  · intro t; simp [exLeftEvents, exLeftBegin, exBegin, exDiskEnd]; rintro (rfl | rfl) <;> (unfold FourDigitYear; decide +kernel)
  · intro a; simp [exLeftEvents, exLeftBegin, exBegin, exDiskEnd]
  · intro a; simp [exLeftEvents, exLeftBegin, exBegin, exDiskEnd]
  · decide +kernel
  · simp [exLeft]

end Verif.Props
