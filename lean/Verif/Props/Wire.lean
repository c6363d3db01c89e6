import Verif.Ndt7.WireLemmas
import Verif.Ndt7.ExitLemmas
import Verif.Ndt7.Receiver
import Verif.Props.Ndt7Handler

/-!
# C80-C82: the JSON of ndt7

C80: measurement messages of the server and results read back as the values they were made from.
C81: exactly the JSON values that fit the type are accepted as measurements of a client.
C82: no message of a client keeps its result from being written (violated: it ends the server).
-/

namespace Verif.Props
open Verif.Go Verif.Spec Verif.Ndt7
open Verif.Ndt5 (TcpInfo NameValue)

/-! ## C80 -/

/-- C80: every measurement that the server can hold, with a time that can be written, is sent as a text that reads back as the same measurement; bytes of its strings that are
not UTF-8 read back as U+FFFD. -/
theorem C80_message_reads_back {K : Layout} (hK : LayoutOk K) {m : Measurement} (ht : Typed K m) (hw : TimeOk m) :
    ∃ text, encodeMeasurement K m = some text ∧ decodeMeasurement K text = some (seen m) := by
  obtain ⟨text, h1, h2⟩ := unmarshal_marshal (ws := [10]) (measurementTy_clear hK 0) (by decide) (measurementTy_noFloat K) (measurement_hasTy ht)
    (measurement_sound.2 hw) (by decide)
  refine ⟨text ++ [10], by simp [encodeMeasurement, h1], ?_⟩
  have hs : Typed K (seen m) := ⟨ht.app, ht.bbr, ht.tcp⟩
  simp only [decodeMeasurement, h2, Option.map_some, asRead_measurement ht, measurementOfVal_toVal hs]

/-- C80: a measurement whose strings are UTF-8 reads back unchanged. -/
theorem C80_message_same {K : Layout} (hK : LayoutOk K) {m : Measurement} (ht : Typed K m) (hw : TimeOk m)
    (hv : ∀ c, m.conn = some c → ValidUtf8 c.client ∧ ValidUtf8 c.server ∧ ValidUtf8 c.uuid) :
    ∃ text, encodeMeasurement K m = some text ∧ decodeMeasurement K text = some m := by
  have : seen m = m := by
    obtain ⟨a, c, b, t⟩ := m
    cases c with
    | none => rfl
    | some c =>
      obtain ⟨h1, h2, h3⟩ := hv c rfl
      simp [seen, toValid_of_valid h1, toValid_of_valid h2, toValid_of_valid h3]
  have h := C80_message_reads_back hK ht hw
  rwa [this] at h

/-- C80: every result whose times can be written is written, and the text reads back as the same result; bytes of its strings that are not UTF-8 read back as U+FFFD. -/
theorem C80_result_reads_back {K : Layout} (hK : LayoutOk K) {r : Result} (ht : ResultTyped K r) (hw : ∀ m ∈ fromClient r, TimeOk m) :
    ∃ text, encodeResult K r = some text ∧ unmarshal noFloats (resultTy K) text = some ((seenResult r).toVal K) := by
  obtain ⟨text, h1, h2⟩ := unmarshal_marshal (ws := []) (resultTy_clear hK 0) (by decide) (resultTy_noFloat K) (result_hasTy ht)
    ((result_sound ht).2 hw) (by simp)
  refine ⟨text, h1, ?_⟩
  rw [List.append_nil] at h2
  rw [h2, asRead_result ht]

/-! ## C81 -/

/-- C81: a text message is accepted as a measurement exactly if it is JSON that fits the type of measurements. -/
theorem C81_accepted_exactly {K : Layout} (hK : LayoutOk K) (body : Bytes) :
    (decodeMeasurement K body).isSome = true ↔ ∃ j, IsJson body j ∧ Fits noFloats (measurementTy K) j := by
  have hc := measurementTy_clear hK 0
  unfold decodeMeasurement unmarshal
  rw [Option.isSome_map]
  simp only [← parseJson_iff]
  cases hj : parseJson body with
  | none => simp
  | some j =>
    simp only [Option.some.injEq, exists_eq_left']
    exact (fromJson_fits _ hc (zeroVal_hasTy _ hc) (parseJson_noPlus hj)).1

/-- C81: what is recorded fits the types of its fields. -/
theorem C81_accepted_typed {K : Layout} (hK : LayoutOk K) {body : Bytes} {m : Measurement} (h : decodeMeasurement K body = some m) : Typed K m := by
  obtain ⟨v, -, hv, rfl⟩ := decode_val hK h
  exact measurementOfVal_typed hK hv

/-- C81: a message made from a measurement that fits its types and has a time that can be written is accepted, and recorded as it was sent; white space after it is
ignored. -/
theorem C81_sent_recorded {K : Layout} (hK : LayoutOk K) {m : Measurement} (ht : Typed K m) (hw : TimeOk m)
    (hv : ∀ c, m.conn = some c → ValidUtf8 c.client ∧ ValidUtf8 c.server ∧ ValidUtf8 c.uuid) (kind : Subtest) (rest : List RxAns) :
    ∃ text, encodeMeasurement K m = some text ∧
      (receiver (decodeMeasurement K) kind none (.next [] (.text [] (.ok text)) :: rest)).2.1.head? = some m := by
  obtain ⟨text, h1, h2⟩ := C80_message_same hK ht hw hv
  refine ⟨text, h1, ?_⟩
  have key : ∀ (as : List RxAns) (l : List Measurement), l.head? = some m → (runScript (rxStep (decodeMeasurement K) kind) l as).2.1.head? = some m := by
    intro as
    induction as with
    | nil => intro l hl; exact hl
    | cons a as ih =>
      intro l hl
      have hs : (rxStep (decodeMeasurement K) kind l a).2.1.head? = some m := by
        unfold rxStep
        repeat' split
        all_goals first
          | exact hl
          | (rw [List.head?_append, hl]; rfl)
      simp only [runScript]
      split
      · rename_i heq; rw [heq] at hs; exact hs
      · rename_i heq; rw [heq] at hs; exact ih _ hs
  simp only [receiver, runScript, rxStep, handlePongs, h2]
  exact key rest [m] rfl

/-! ## C82 -/

/-- C82: the time in a message that was accepted can be written exactly if its zone is less than 24 hours from UTC. -/
theorem C82_accepted_times {K : Layout} (hK : LayoutOk K) {body : Bytes} {m : Measurement} (h : decodeMeasurement K body = some m) :
    TimeOk m ↔ ∀ c, m.conn = some c → c.startZone.natAbs < 1440 := by
  obtain ⟨v, hu, hv, rfl⟩ := decode_val hK h
  have ht := measurementOfVal_times hv (unmarshal_times hu)
  unfold TimeOk Stamp.Writable
  exact forall_congr' fun c => forall_congr' fun hc => ⟨fun h => h.2, fun h => ⟨(ht c hc).1, h⟩⟩

/-- C82: a result that fits its types can be written exactly if all times that the client sent can be written. -/
theorem C82_result_written_iff {K : Layout} {r : Result} (ht : ResultTyped K r) : (encodeResult K r).isSome = true ↔ ∀ m ∈ fromClient r, TimeOk m := by
  unfold encodeResult marshal
  rw [Option.isSome_map, toJson_isSome_iff (resultTy K) (result_hasTy ht), result_sound ht]

/-- The result that a request in order tries to write fits its types. -/
private theorem attempt_typed {K : Layout} (hK : LayoutOk K) {kind : Subtest} {evs : List Ev} {r : Result} (ho : InOrder K evs) (ha : Attempt K kind evs r) :
    ResultTyped K r ∧ ∀ m, m ∈ fromClient r ↔ ∃ x ∈ subtests evs, m ∈ x.2.2.clientMeasurements := by
  obtain ⟨⟨t1, t2⟩, ⟨o1, l1, l2⟩, ⟨o2, r1, r2⟩, ⟨d, hd, hd', hx⟩, -, -⟩ := ha
  have hport : ∀ (q : Prop) (o : Option TcpAddr), (∀ a, o = some a → InInt64 a.port) → InInt64 (o.getD noAddr).port := by
    intro _ o h
    cases o with
    | none => decide
    | some a => exact h a rfl
  have hp1 : InInt64 r.serverPort := by
    rw [l2]
    exact hport True o1 fun a h => ho.local' a (h ▸ l1)
  have hp2 : InInt64 r.clientPort := by
    rw [r2]
    exact hport True o2 fun a h => ho.remote a (h ▸ r1)
  have hdt : DataTyped K d := by
    rcases hx with ⟨h0, h1, h2, h3, h4⟩ | ⟨k, p, x, h0, h1, h2, h3, h4⟩
    · refine ⟨by rw [h1]; unfold FourDigitYear; decide, by rw [h2]; unfold FourDigitYear; decide, by simp [h3], by simp [h4]⟩
    · have hm : (k, p, x) ∈ subtests evs := by simp [h0]
      refine ⟨by rw [h1]; exact (ho.times _ hm).1, by rw [h2]; exact (ho.times _ hm).2, by rw [h3]; exact ho.server _ hm, ?_⟩
      rw [h4]
      intro m hmm
      obtain ⟨body, hb⟩ := ho.client _ hm m hmm
      exact C81_accepted_typed hK hb
  have hfc : fromClient r = d.clientMeasurements := by
    cases kind <;> simp [under, other] at hd hd' <;> simp [fromClient, hd, hd']
  refine ⟨⟨⟨hp1, hp2⟩, ho.clock _ t1, ho.clock _ t2, ?_, ?_⟩, ?_⟩
  · intro d' h'
    cases kind <;> simp [under, other] at hd hd'
    · rw [hd'] at h'; cases h'
    · rw [hd] at h'; cases h'; exact hdt
  · intro d' h'
    cases kind <;> simp [under, other] at hd hd'
    · rw [hd] at h'; cases h'; exact hdt
    · rw [hd'] at h'; cases h'
  · intro m
    rw [hfc]
    rcases hx with ⟨h0, -, -, -, h4⟩ | ⟨k, p, x, h0, -, -, -, h4⟩
    · simp [h0, h4]
    · simp [h0, h4]

/-- C82, exactly: with a working disk, a request whose server side is in order ends the server exactly if the client sent a message with a time whose zone is 24 hours or
more from UTC. -/
theorem C82_exit_exactly {K : Layout} (hK : LayoutOk K) {h : Server} {kind : Subtest} {req : Request} {evs : List Ev} {out : Outcome Unit} {s' : Result}
    (hq : QueryOk req) (he : Exec (runMeasurement h kind req) {} evs out s') (hs : SetupOk evs) (hd : DiskInOrder K evs) (ho : InOrder K evs) :
    NoExit evs ↔ ∀ x ∈ subtests evs, ∀ m ∈ x.2.2.clientMeasurements, ∀ c, m.conn = some c → c.startZone.natAbs < 1440 := by
  obtain ⟨md, hmd⟩ := append_total hq.wf2 []
  have := wp_iff.1 (runMeasurement_exit K h kind req md hmd {} (validate_total hq.wf)) _ _ _ he
  rcases this with ⟨h0, hx, -⟩ | hr
  · simp [h0, hx]
  · obtain ⟨r, hr⟩ := hr hs
    obtain ⟨ht, hc⟩ := attempt_typed hK ho hr
    rw [hr.exit hd, C82_result_written_iff ht]
    constructor
    · intro H x hx m hm
      obtain ⟨body, hb⟩ := ho.client x hx m hm
      exact (C82_accepted_times hK hb).1 (H m ((hc m).2 ⟨x, hx, hm⟩))
    · intro H m hm
      obtain ⟨x, hx, hmx⟩ := (hc m).1 hm
      obtain ⟨body, hb⟩ := ho.client x hx m hmx
      exact (C82_accepted_times hK hb).2 (H x hx m hmx)

/-- A request writes no two results. -/
theorem written_same {h : Server} {kind : Subtest} {req : Request} {evs : List Ev} {out : Outcome Unit} {s' : Result}
    (hq : QueryOk req) (he : Exec (runMeasurement h kind req) {} evs out s') (hs : SetupOk evs) {p p' : Bytes} {c c' : Bool} {r r' : Result}
    {a a' : Outcome (Option Err)} (hw : .call (.write p c r) a ∈ evs) (hw' : .call (.write p' c' r') a' ∈ evs) : r = r' := by
  obtain ⟨md, hmd⟩ := append_total hq.wf2 []
  rcases wp_iff.1 (runMeasurement_exit ⟨[], fun _ => [], fun _ => {}⟩ h kind req md hmd {} (validate_total hq.wf)) _ _ _ he with ⟨-, -, hn⟩ | hr
  · exact absurd hw (hn _ _ _ _)
  · obtain ⟨r0, hr⟩ := hr hs
    rw [hr.writes _ _ _ _ hw, hr.writes _ _ _ _ hw']

/-- Every result that a request in order writes fits its types. -/
theorem written_typed {K : Layout} (hK : LayoutOk K) {h : Server} {kind : Subtest} {req : Request} {evs : List Ev} {out : Outcome Unit} {s' : Result}
    (hq : QueryOk req) (he : Exec (runMeasurement h kind req) {} evs out s') (hs : SetupOk evs) (ho : InOrder K evs) {p : Bytes} {c : Bool} {r : Result}
    {a : Outcome (Option Err)} (hw : .call (.write p c r) a ∈ evs) : ResultTyped K r := by
  obtain ⟨md, hmd⟩ := append_total hq.wf2 []
  rcases wp_iff.1 (runMeasurement_exit K h kind req md hmd {} (validate_total hq.wf)) _ _ _ he with ⟨-, -, hn⟩ | hr
  · exact absurd hw (hn _ _ _ _)
  · obtain ⟨r', hr⟩ := hr hs
    rw [hr.writes _ _ _ _ hw]
    exact (attempt_typed hK ho hr).1

/-! ## Examples -/

/-- A library structure with two fields. -/
def exLayout : Layout where
  fields := [(str "BytesAcked", true, 64), (str "RTT", false, 32)]
  ints t := [t.bytesAcked, t.bytesReceived]
  ofInts ns := { bytesAcked := ns.getD 0 0, bytesReceived := ns.getD 1 0 }

theorem exLayout_ok : LayoutOk exLayout := by
  refine ⟨by decide +kernel, by decide +kernel, by decide +kernel, by decide, ?_⟩
  intro ns h
  simp only [exLayout] at h
  cases h with
  | cons _ h => cases h with
    | cons _ h => cases h; rfl

/-- A measurement with all parts. -/
def exMeasurement : Measurement where
  app := some ⟨1000, 42⟩
  conn := some ⟨str "1.2.3.4:5", str "\"x\"", str "u", 1600000000120000000, -330⟩
  bbr := some ⟨⟨5, 6, 7, 8⟩, 43⟩
  tcp := some ⟨{ bytesAcked := -9, bytesReceived := 4294967295 }, 44⟩

/-- The example meets the hypotheses of C80 and C81. -/
example : Typed exLayout exMeasurement ∧ TimeOk exMeasurement := by
  refine ⟨⟨?_, ?_, ?_⟩, ?_⟩
  · rintro a ⟨⟩; decide
  · rintro a ⟨⟩; decide
  · rintro a ⟨⟩; exact ⟨⟨.cons (by decide) (.cons (by decide) .nil), rfl⟩, by decide⟩
  · rintro a ⟨⟩; decide +kernel

example : encodeMeasurement exLayout exMeasurement = some (str ("{\"AppInfo\":{\"NumBytes\":1000,\"ElapsedTime\":42},\"ConnectionInfo\":{\"Client\":\"1.2.3.4:5\"," ++
    "\"Server\":\"\\\"x\\\"\",\"UUID\":\"u\",\"StartTime\":\"2020-09-13T06:56:40.12-05:30\"},\"BBRInfo\":{\"BW\":5,\"MinRTT\":6,\"PacingGain\":7,\"CwndGain\":8," ++
    "\"ElapsedTime\":43},\"TCPInfo\":{\"BytesAcked\":-9,\"RTT\":4294967295,\"ElapsedTime\":44}}\n")) := by decide +kernel

/-- Messages that are accepted and messages that are not. -/
example : (decodeMeasurement exLayout (str "{}")).isSome = true ∧ (decodeMeasurement exLayout (str " null ")).isSome = true ∧
    (decodeMeasurement exLayout (str "{\"appinfo\":{\"NUMBYTES\":1},\"x\":[1.5,{}]}")).isSome = true ∧
    decodeMeasurement exLayout (str "{\"AppInfo\":{\"NumBytes\":1e3}}") = none ∧
    decodeMeasurement exLayout (str "{\"AppInfo\":{\"NumBytes\":9223372036854775808}}") = none ∧
    decodeMeasurement exLayout (str "{\"TCPInfo\":{\"RTT\":-1}}") = none ∧ decodeMeasurement exLayout (str "[]") = none ∧
    decodeMeasurement exLayout (str "{\"ConnectionInfo\":{\"StartTime\":\"today\"}}") = none := by decide +kernel

/-- A message that any client can send. -/
def exPoison : Bytes := str "{\"ConnectionInfo\":{\"StartTime\":\"2020-01-01T00:00:00+24:00\"}}"

/-- The measurement recorded for it. -/
def exPoisoned : Measurement := { conn := some ⟨[], [], [], 1577750400000000000, 1440⟩ }

theorem exPoison_decoded : decodeMeasurement exLayout exPoison = some exPoisoned := by
  have h : ((decodeMeasurement exLayout exPoison).map fun m => (m.app.isNone, m.conn, m.bbr.isNone, m.tcp.isNone)) = some (true, exPoisoned.conn, true, true) := by
    decide +kernel
  cases hd : decodeMeasurement exLayout exPoison with
  | none => simp [hd] at h
  | some m =>
    obtain ⟨a, c, b, t⟩ := m
    rw [hd] at h
    simp at h
    obtain ⟨rfl, rfl, rfl, rfl⟩ := h
    rfl

/-- The receiver records it. -/
theorem exPoison_recorded : (receiver (decodeMeasurement exLayout) .download none [.next [] (.text [] (.ok exPoison)), .expired]).2.1 = [exPoisoned] := by
  simp only [receiver, runScript, rxStep, handlePongs, exPoison_decoded]
  rfl

/-- The subtest with this client. -/
def exPoisonEnd : SubtestEnd := { startTime := 5, endTime := 6, clientMeasurements := [exPoisoned] }

/-- The result of this test. -/
def exPoisonRecord : Result :=
  { exRecord with download := some { uuid := str "u", startTime := 5, endTime := 6, clientMeasurements := [exPoisoned], clientMetadata := [⟨str "client_name", str "x"⟩],
                                     serverMetadata := [⟨str "machine-type", str "virtual"⟩] } }

/-- The events of this test. -/
def exPoisonEvents : List Ev := exBegin exPoisonEnd ++
  [.call .localText (.ok (str "[::1]:443")), .emit (.testResult (str "ndt7+wss") (str "download") (str "okay-without-rate")), .clock 7, .clock 7,
   .call (.mkdirAll (str "/d/ndt7/2020/01/01")) (.ok none), .call (.openExcl exPath) (.ok none),
   .call (.write exPath false exPoisonRecord) (.ok (some (str "json: error calling MarshalJSON"))), .emit (.exit (str "failed to write result")), .emit .cancel]

theorem exPoison_exec : Exec (runMeasurement exServer .download exRequest) {} exPoisonEvents (.panic (str "failed to write result")) exPoisonRecord := by follow

theorem exPoison_unwritten : encodeResult exLayout exPoisonRecord = none := by decide +kernel

theorem exPoison_disk : DiskInOrder exLayout exPoisonEvents := by
  refine ⟨?_, ?_, ?_, ?_, ?_⟩
  · intro d a; simp [exPoisonEvents, exBegin]
  · intro d a; simp [exPoisonEvents, exBegin]
  · intro p c r a; simp [exPoisonEvents, exBegin]; rintro rfl rfl rfl h; cases h; exact ⟨_, rfl, by simp [exPoison_unwritten]⟩
  · simp [exPoisonEvents, exBegin]
  · simp [exPoisonEvents, exBegin]

theorem exPoison_inOrder : InOrder exLayout exPoisonEvents := by
  have hsub : subtests exPoisonEvents = [(.download, some ⟨false, 0⟩, exPoisonEnd)] := rfl
  refine ⟨?_, ?_, ?_, ?_, ?_, ?_⟩
  · intro t; simp [exPoisonEvents, exBegin]; rintro (rfl | rfl) <;> (unfold FourDigitYear; decide +kernel)
  · intro a; simp [exPoisonEvents, exBegin]
  · intro a; simp [exPoisonEvents, exBegin]
  · rw [hsub]; intro x hx; simp at hx; subst hx; constructor <;> (unfold FourDigitYear; decide +kernel)
  · rw [hsub]; intro x hx; simp at hx; subst hx; simp [exPoisonEnd]
  · rw [hsub]; intro x hx; simp at hx; subst hx; simp [exPoisonEnd]; exact ⟨_, exPoison_decoded⟩

/-- C82 is violated: with a working disk and a server in order, a client that sends one accepted message ends the server. -/
theorem C82_clients_cannot_end_server_false : ¬ ∀ (K : Layout) (h : Server) (kind : Subtest) (req : Request) (evs : List Ev) (out : Outcome Unit) (s' : Result),
    LayoutOk K → QueryOk req → Exec (runMeasurement h kind req) {} evs out s' → SetupOk evs → DiskInOrder K evs → InOrder K evs →
    (∀ x ∈ subtests evs, ∃ as, x.2.2.clientMeasurements = (receiver (decodeMeasurement K) x.1 none as).2.1) → NoExit evs := by
  intro H
  have hrec : ∀ x ∈ subtests exPoisonEvents, ∃ as, x.2.2.clientMeasurements = (receiver (decodeMeasurement exLayout) x.1 none as).2.1 := by
    have hsub : subtests exPoisonEvents = [(.download, some ⟨false, 0⟩, exPoisonEnd)] := rfl
    rw [hsub]
    intro x hx
    rw [List.mem_singleton] at hx
    subst hx
    refine ⟨[.next [] (.text [] (.ok exPoison)), .expired], ?_⟩
    rw [exPoison_recorded]
    rfl
  have hset : SetupOk exPoisonEvents := by
    intro q msg hm
    simp [exPoisonEvents, exBegin] at hm
    rcases hm with h | h | h | h | h | h | h | h | h <;> (obtain ⟨rfl, h⟩ := h; cases h)
  have hno : NoExit exPoisonEvents :=
    H exLayout exServer .download exRequest exPoisonEvents _ exPoisonRecord exLayout_ok exRequest_ok exPoison_exec hset exPoison_disk exPoison_inOrder hrec
  exact hno (str "failed to write result") (by simp [exPoisonEvents])

/-- The example that ends the server and one that does not both meet the hypotheses of `C82_exit_exactly`. -/
example : SetupOk (exBegin { crash := some (str "boom") } ++ exEnd) ∧ DiskInOrder exLayout (exBegin { crash := some (str "boom") } ++ exEnd) ∧
    InOrder exLayout (exBegin { crash := some (str "boom") } ++ exEnd) ∧ NoExit (exBegin { crash := some (str "boom") } ++ exEnd) := by
  have henc : (encodeResult exLayout exRecord).isSome = true := by decide +kernel
  have hsub : subtests (exBegin { crash := some (str "boom") } ++ exEnd) = [(.download, some ⟨false, 0⟩, { crash := some (str "boom") })] := rfl
  refine ⟨?_, ⟨?_, ?_, ?_, ?_, ?_⟩, ⟨?_, ?_, ?_, ?_, ?_, ?_⟩, ?_⟩
  · intro q msg hm
    simp [exBegin, exEnd] at hm
    rcases hm with h | h | h | h | h | h | h | h | h <;> (obtain ⟨rfl, h⟩ := h; cases h)
  · intro d a; simp [exBegin, exEnd]
  · intro d a; simp [exBegin, exEnd]
  · intro p c r a; simp [exBegin, exEnd]; rintro rfl rfl rfl h; cases h; exact ⟨_, rfl, by simp [henc]⟩
  · intro d a; simp [exBegin, exEnd]
  · intro d a; simp [exBegin, exEnd]
  · intro t; simp [exBegin, exEnd]; rintro (rfl | rfl) <;> (unfold FourDigitYear; decide +kernel)
  · intro a; simp [exBegin, exEnd]
  · intro a; simp [exBegin, exEnd]
  · rw [hsub]; intro x hx; simp at hx; subst hx; constructor <;> (unfold FourDigitYear; decide +kernel)
  · rw [hsub]; intro x hx; simp at hx; subst hx; simp
  · rw [hsub]; intro x hx; simp at hx; subst hx; simp
  · simp [exBegin, exEnd]

end Verif.Props
