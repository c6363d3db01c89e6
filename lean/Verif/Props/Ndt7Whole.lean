import Verif.Props.Documents
import Verif.Props.Ndt7Files

/-!
# From an ndt7 test to the bytes of its file (C90)
-/

namespace Verif.Props
open Verif.Go Verif.Spec Verif.Ndt7

set_option maxRecDepth 20000

/-- C90: the whole way from a test to the bytes of its file, with any number of requests side by side and any file system at the start. If the disk works, the server's own part
of the request is in order and no client message has a time in a zone 24 hours or more from UTC, then the file of a request that is counted as "result" holds, compressed
if the server is to compress, one JSON document. Its members hold the UUID, the times and the metadata of the request and exactly the measurements of the server and of the client
that the subtest returned. -/
theorem C90_request_file {K : Layout} (hK : LayoutOk K) {gz : Bytes → Bytes} {srv : Nat → Server} {kind : Nat → Subtest} {req : Nat → Request} {fs0 fs : Fs} {g : List (Nat × Ev)}
    (hint : Interleaved srv kind req g) (hr : FsRun (fun r => (encodeResult K r).getD []) gz fs0 g fs)
    {i : Nat} {out : Outcome Unit} {s' : Result} (hq : QueryOk (req i)) (he : Exec (runMeasurement (srv i) (kind i) (req i)) {} (mine i g) out s')
    (hs : SetupOk (mine i g)) (hd : DiskInOrder K (mine i g)) (ho : InOrder K (mine i g)) (hc : (directionText (kind i), str "result") ∈ statuses (mine i g))
    (hz : ∀ x ∈ subtests (mine i g), ∀ m ∈ x.2.2.clientMeasurements, ∀ c, m.conn = some c → c.startZone.natAbs < 1440) :
    ∃ t0 t1 path uuid id r d text j, marks (mine i g) = [.created t0 uuid id, .opened path, .wrote path r, .deleted t1 uuid] ∧
      fs.files path = some (if (srv i).compress then gz text else text) ∧ IsJson text j ∧ resultDoc K r j ∧
      r.startTime = t0 ∧ r.endTime = t1 ∧ under (kind i) r = some d ∧ under (other (kind i)) r = none ∧ d.uuid = uuid ∧ d.serverMetadata = (srv i).serverMetadata ∧
      ∀ x ∈ subtests (mine i g), d.serverMeasurements = x.2.2.serverMeasurements ∧ d.clientMeasurements = x.2.2.clientMeasurements ∧
        d.startTime = x.2.2.startTime ∧ d.endTime = x.2.2.endTime := by
  have hx := (C82_exit_exactly hK hq he hs hd ho).2 hz
  obtain ⟨t0, t1, path, uuid, id, r, d, hm, -, h2, h3, h4, h5, h6, h7, h8⟩ := C40_one_file_and_flow_partial hq he hs hx hc
  have hwr : ∃ c, .call (.write path c r) (.ok none) ∈ mine i g := by
    have : Mark.wrote path r ∈ marks (mine i g) := by rw [hm]; simp
    obtain ⟨e, he, hme⟩ := List.mem_filterMap.1 this
    unfold mark at hme
    split at hme <;> simp at hme
    obtain ⟨rfl, rfl⟩ := hme
    exact ⟨_, he⟩
  obtain ⟨c, hwr⟩ := hwr
  have hdel : .emit (.flowDeleted t1 uuid) ∈ mine i g := by
    have : Mark.deleted t1 uuid ∈ marks (mine i g) := by rw [hm]; simp
    obtain ⟨e, he, hme⟩ := List.mem_filterMap.1 this
    unfold mark at hme
    split at hme <;> simp at hme
    obtain ⟨rfl, rfl⟩ := hme
    exact he
  obtain ⟨p, r', hw', hf⟩ := C53_reported_complete_partial _ gz srv kind req fs0 fs g hint hr i t1 uuid (mem_mine.1 hdel)
    (fun p x hp => hd.flush p x (mem_mine.2 hp))
  have hw'' := mem_mine.2 hw'
  obtain rfl := written_same hq he hs hwr hw''
  have hpath : p = path := by
    have : Mark.wrote p r ∈ marks (mine i g) := List.mem_filterMap.2 ⟨_, hw'', rfl⟩
    rw [hm] at this
    simpa using this
  subst hpath
  have ht := written_typed hK hq he hs ho hwr
  obtain ⟨e, h9, h10⟩ := hd.write _ _ _ _ hwr
  cases h9
  obtain ⟨text, htext⟩ := Option.isSome_iff_exists.1 (h10.1 rfl)
  obtain ⟨j, hj, hj'⟩ := C88_result_document hK ht htext
  refine ⟨t0, t1, p, uuid, id, r, d, text, j, hm, ?_, hj, hj', h5, h6, h2, h3, h4, h7, h8⟩
  rw [hf, document, htext]
  rfl

/-! ## Example -/

/-- The events of the request `exPlain`. -/
private def exPlainEvents : List Ev := exDiskBegin ++ [.call (.openExcl exDiskPath) (.ok none),
    .call (.write exDiskPath false exDiskRecord) (.ok none), .call (.fileClose exDiskPath) (.ok none)] ++ exDiskEnd

/-- The hypotheses hold for this request, beside requests that have not begun. -/
example (gz : Bytes → Bytes) : ∃ g fs out s', Interleaved (fun _ => exDisk false) (fun _ => .download) (fun _ => exRequest) g ∧
    FsRun (fun r => (encodeResult exLayout r).getD []) gz exFs g fs ∧ QueryOk exRequest ∧ Exec (runMeasurement (exDisk false) .download exRequest) {} (mine 0 g) out s' ∧
    SetupOk (mine 0 g) ∧ DiskInOrder exLayout (mine 0 g) ∧ InOrder exLayout (mine 0 g) ∧ (directionText .download, str "result") ∈ statuses (mine 0 g) ∧
    ∀ x ∈ subtests (mine 0 g), ∀ m ∈ x.2.2.clientMeasurements, ∀ c, m.conn = some c → c.startZone.natAbs < 1440 := by
  have h0 := fsRun_idle (json := fun r => (encodeResult exLayout r).getD []) (gz := gz) (fs0 := exFs) .nil 0 exDiskBegin (by simp [exDiskBegin, exBegin, isFileOp, isFileCall])
  have h1 := FsRun.snoc _ 0 _ _ _ h0 (.create _ exDiskPath (by decide +kernel))
  have h2 := FsRun.snoc _ 0 _ _ _ h1 (.write _ exDiskPath [] ((encodeResult exLayout exDiskRecord).getD []) [] false exDiskRecord (.ok none) (by simp [Fs.set]) (by simp [document])
    fun _ _ => rfl)
  have h3 := fsRun_idle h2 0 ([.call (.fileClose exDiskPath) (.ok none)] ++ exDiskEnd) (by simp [isFileOp, isFileCall, exDiskEnd])
  have hmine : mine 0 (exPlainEvents.map (0, ·)) = exPlainEvents := by
    generalize exPlainEvents = l
    induction l with
    | nil => rfl
    | cons e l ih =>
      rw [List.map_cons, show ((0, e) :: l.map (0, ·) : List (Nat × Ev)) = [(0, e)] ++ l.map (0, ·) from rfl, mine_append, ih]
      simp [mine]
  have hsub : subtests exPlainEvents = [(.download, some ⟨false, 0⟩, { crash := some (str "boom") })] := rfl
  have henc : (encodeResult exLayout exDiskRecord).isSome = true := by decide +kernel
  refine ⟨exPlainEvents.map (0, ·), _, _, _, interleaved_first exPlain, by simpa [exPlainEvents] using h3, exRequest_ok, by rw [hmine]; exact exPlain, ?_⟩
  rw [hmine]
  refine ⟨?_, ⟨?_, ?_, ?_, ?_, ?_⟩, ⟨?_, ?_, ?_, ?_, ?_, ?_⟩, ?_, ?_⟩
  · intro q msg hm
    have : (.call q (.panic msg) : Ev) ∉ exPlainEvents := by
      simp [exPlainEvents, exDiskBegin, exBegin, exDiskEnd]
      refine ⟨?_, ?_, ?_, ?_, ?_, ?_, ?_, ?_, ?_⟩ <;> (rintro rfl h; cases h)
    exact absurd hm this
  · intro d a; simp [exPlainEvents, exDiskBegin, exBegin, exDiskEnd]
  · intro d a; simp [exPlainEvents, exDiskBegin, exBegin, exDiskEnd]
  · intro p c r a; simp [exPlainEvents, exDiskBegin, exBegin, exDiskEnd]; rintro rfl rfl rfl h; cases h; exact ⟨_, rfl, by simp [henc]⟩
  · intro d a; simp [exPlainEvents, exDiskBegin, exBegin, exDiskEnd]
  · intro d a; simp [exPlainEvents, exDiskBegin, exBegin, exDiskEnd]
  · intro t; simp [exPlainEvents, exDiskBegin, exBegin, exDiskEnd]; rintro (rfl | rfl) <;> (unfold FourDigitYear; decide +kernel)
  · intro a; simp [exPlainEvents, exDiskBegin, exBegin, exDiskEnd]
  · intro a; simp [exPlainEvents, exDiskBegin, exBegin, exDiskEnd]
  · rw [hsub]; intro x hx; simp at hx; subst hx; constructor <;> (unfold FourDigitYear; decide +kernel)
  · rw [hsub]; intro x hx; simp at hx; subst hx; simp
  · rw [hsub]; intro x hx; simp at hx; subst hx; simp
  · decide +kernel
  · rw [hsub]; intro x hx; simp at hx; subst hx; simp

end Verif.Props
