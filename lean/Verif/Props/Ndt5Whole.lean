import Verif.Go.FloatRound
import Verif.Spec.Ndt5Env
import Verif.Props.Archive
import Verif.Props.Documents

/-!
# From a session of ndt5 to the bytes of its file (C90)
-/

namespace Verif.Props
open Verif.Go Verif.Ndt5 Verif.Spec
open Verif.Ndt7 (Layout)

set_option maxRecDepth 20000

/-! ## Rates are `float64`s -/

theorem isDouble_zero : IsDouble (.fin 0) := by
  intro q h
  cases h
  simp [F64.round]

theorem isDouble_div (x y : F64) : IsDouble (.div x y) := by
  intro q h
  unfold F64.div at h
  split at h
  · cases h
  · cases h
  · cases h
  · exact isDouble_zero q h
  · cases h
  · split at h
    · split at h <;> cases h
    · exact F64.round_again h

/-! ## Times -/

/-- The beginning of 1970 can be written in every zone. -/
private theorem zero_writable {z : Int} (hz : z.natAbs < 1440) : Stamp.Writable ⟨0, z⟩ := by
  refine ⟨?_, hz⟩
  have : (Stamp.wall ⟨0, z⟩) / nsPerDay = 0 ∨ (Stamp.wall ⟨0, z⟩) / nsPerDay = -1 := by
    unfold Stamp.wall nsPerMinute nsPerDay
    simp only
    omega
  unfold FourDigitYear dateOf
  rcases this with h | h <;> rw [h] <;> decide

private theorem clocks_mem {evs : List Ev} {t : Int} : t ∈ clocks evs → .clock t ∈ evs := by
  unfold clocks
  rw [List.mem_filterMap]
  rintro ⟨x, hx, h⟩
  unfold Spec.clockOf at h
  split at h <;> simp at h
  subst h
  exact hx

private theorem addrsOf_ports {K : Layout} {z : Int} {evs : List Ev} (he : TypedEnv K z evs) (c : ConnId) :
    InInt64 (addrsOf c evs).serverPort ∧ InInt64 (addrsOf c evs).clientPort := by
  unfold addrsOf
  cases h : evs.findSome? (addrsAnswer c) with
  | none => decide
  | some a =>
    obtain ⟨x, hx, hxa⟩ := List.exists_of_findSome?_eq_some h
    unfold addrsAnswer at hxa
    split at hxa
    · split at hxa <;> simp at hxa
      subst hxa
      exact he.ports _ _ hx
    · cases hxa

private theorem uploadMeasurement_mem {evs : List Ev} {t0 t1 : Int} {sel : Option Err} {st : Except Err Metrics} (h : uploadMeasurement evs = some (t0, sel, st, t1)) :
    .clock t0 ∈ evs ∧ .clock t1 ∈ evs := by
  fun_induction uploadMeasurement evs with
  | case1 => simp_all
  | case2 _ _ _ ih =>
    obtain ⟨h1, h2⟩ := ih h
    exact ⟨.tail _ h1, .tail _ h2⟩
  | case3 => cases h

private theorem downloadMeasurement_mem {evs : List Ev} {t0 t1 : Int} {st : Except Err Metrics} (h : downloadMeasurement evs = some (t0, t1, st)) :
    .clock t0 ∈ evs ∧ .clock t1 ∈ evs ∧ .call (.stopMeasuring .s2c) (.ok st) ∈ evs := by
  fun_induction downloadMeasurement evs with
  | case1 => simp_all
  | case2 _ _ _ ih =>
    obtain ⟨h1, h2, h3⟩ := ih h
    exact ⟨.tail _ h1, .tail _ h2, .tail _ h3⟩
  | case3 => cases h

private theorem rtt_int64 (x : UInt32) : InInt64 ((x.toNat : Int) * 1000000) := by
  have := x.toNat_lt
  unfold InInt64
  omega

private theorem zone_ok {K : Layout} {z : Int} {evs : List Ev} (he : TypedEnv K z evs) {t : Int} (h : .clock t ∈ evs) : z.natAbs < 1440 := (he.clock t h).2

section
variable {K : Layout} {z : Int} {evs : List Ev} (he : TypedEnv K z evs) (hz : z.natAbs < 1440)

include he hz

private theorem upload_typed (e : Err) : UploadTyped z { uploadRecord evs with error := e } := by
  have hp := addrsOf_ports he (.test .c2s)
  unfold uploadRecord
  cases hm : uploadMeasurement evs with
  | none => exact ⟨hp, ⟨zero_writable hz, zero_writable hz⟩, isDouble_zero⟩
  | some x =>
    obtain ⟨t0, sel, st, t1⟩ := x
    obtain ⟨h0, h1⟩ := uploadMeasurement_mem hm
    refine ⟨hp, ⟨he.clock _ h0, he.clock _ h1⟩, ?_⟩
    simp only
    split
    · exact isDouble_zero
    · exact isDouble_div _ _

private theorem download_typed (lib : Lib) (m : Messager) (e : Err) : DownloadTyped K z { downloadRecord lib m evs with error := e } := by
  have hp := addrsOf_ports he (.test .s2c)
  have hzero : InInt64 0 := by decide
  unfold downloadRecord
  cases hm : downloadMeasurement evs with
  | none => exact ⟨hp, ⟨zero_writable hz, zero_writable hz⟩, ⟨isDouble_zero, isDouble_zero⟩, ⟨hzero, hzero, hzero⟩, by simp⟩
  | some x =>
    obtain ⟨t0, t1, st⟩ := x
    obtain ⟨h0, h1, h2⟩ := downloadMeasurement_mem hm
    cases st with
    | error _ => exact ⟨hp, ⟨he.clock _ h0, he.clock _ h1⟩, ⟨isDouble_zero, isDouble_zero⟩, ⟨hzero, hzero, hzero⟩, by simp⟩
    | ok w =>
      refine ⟨hp, ⟨he.clock _ h0, he.clock _ h1⟩, ⟨isDouble_div _ _, ?_⟩, ⟨rtt_int64 _, rtt_int64 _, rtt_int64 _⟩, ?_⟩
      · simp only [clientMbps]
        split
        · exact isDouble_zero
        · split
          · exact isDouble_zero
          · split
            · exact isDouble_zero
            · exact isDouble_div _ _
      · intro t ht
        simp at ht
        subst ht
        exact he.kernel w h2

end

/-- C90: the record of a session fits the types of its fields, whatever the client did, if the environment keeps to its types. In particular, all rates are `float64`s,
because they are results of divisions. -/
theorem C90_record_typed {K : Layout} {z : Int} {cfg : Cfg} {evs : List Ev} {r : Record} (he : TypedEnv K z evs) (h : Archived cfg evs r) : RecordTyped K z r := by
  obtain ⟨t0, during, t1, hc⟩ := h.times
  have hs := clocks_mem (evs := evs) (t := r.startTime) (by rw [hc]; simp)
  have hn := clocks_mem (evs := evs) (t := r.endTime) (by rw [hc]; simp)
  have hz := zone_ok he hs
  have hp := addrsOf_ports he .control
  rw [← h.addrs] at hp
  refine ⟨hp, ⟨he.clock _ hs, he.clock _ hn⟩, fun c hc => ?_, fun d hd => ?_⟩
  · rcases h.upload with ⟨h1, -⟩ | ⟨-, e, h1, -⟩
    · rw [hc] at h1; cases h1
    · rw [hc] at h1
      cases h1
      exact upload_typed he hz _
  · rcases h.download with ⟨h1, -⟩ | ⟨-, m, n, -, e, h1, -⟩
    · rw [hd] at h1; cases h1
    · rw [hd] at h1
      cases h1
      exact download_typed he hz _ _ _

/-- C90: the whole way from the client's session to the bytes of its file. If the connection got as far as having a UUID, no file operation fails and the environment keeps
to its types, there is one record telling what happened. If all its rates are numbers, this record alone is written, as one JSON document whose members hold it, and which
the readers of the archive read back as the same record; otherwise the encoder refuses it and nothing is written. -/
theorem C90_session_file {K : Layout} (hK : LayoutOk K) {ft : FloatText} (hft : FloatsOk ft) {z : Int} {cfg : Cfg} {evs : List Ev} {out : Outcome Unit}
    (h : Exec (HandleControlChannel cfg) () evs out ()) (hu : ∃ u, .call (.uuid .control) (.ok u) ∈ evs) (hd : DiskWorks evs) (he : TypedEnv K z evs) :
    ∃ r, Archived cfg evs r ∧
      ((¬ FiniteRates r ∧ encodeRecord ft K z r = none ∧ Spec.written evs = []) ∨
        (FiniteRates r ∧ ∃ path text j, Spec.written evs = [(path, r)] ∧ encodeRecord ft K z r = some text ∧ IsJson text j ∧ recordDoc ft K z r j ∧
          Go.unmarshal ft (recordTy K) text = some ((seenRecord r).toVal K z))) := by
  obtain ⟨r, ha, h1, h2⟩ := C16_record_written_partial h hu hd
  have ht := C90_record_typed he ha
  refine ⟨r, ha, ?_⟩
  by_cases hf : FiniteRates r
  · obtain ⟨path, hw, -⟩ := h2 hf
    obtain ⟨text, hx, hr⟩ := C84_record_reads_back hK hft ht hf
    obtain ⟨j, hj, hj'⟩ := C88_record_document hK hft ht hx
    exact .inr ⟨hf, path, text, j, hw, hx, hj, hj', hr⟩
  · refine .inl ⟨hf, ?_, h1 hf⟩
    have := mt (C84_written_iff (ft := ft) ht).1 hf
    simpa using this

/-! ## Examples -/

/-- One event of a typed environment, for the layout `exLayout`, in UTC. -/
private def typedEv : Ev → Bool
  | .clock t => decide (Stamp.Writable ⟨t, 0⟩)
  | .call (.addrs _) (.ok a) => decide (InInt64 a.serverPort ∧ InInt64 a.clientPort)
  | .call (.stopMeasuring .s2c) (.ok (.ok w)) => decide (IntRange true 64 w.tcpInfo.bytesAcked ∧ IntRange false 32 w.tcpInfo.bytesReceived)
  | _ => true

private theorem typedEnv_of {evs : List Ev} (h : evs.all typedEv = true) : TypedEnv exLayout 0 evs := by
  rw [List.all_eq_true] at h
  refine ⟨fun t ht => ?_, fun c a ha => ?_, fun w hw => ?_⟩
  · exact of_decide_eq_true (h _ ht)
  · exact of_decide_eq_true (h _ ha)
  · obtain ⟨h1, h2⟩ := of_decide_eq_true (h _ hw)
    exact .cons h1 (.cons h2 .nil)

/-- The meta session has a file, whose text is a document. -/
example {ft : FloatText} (hft : FloatsOk ft) : ∃ r path text j, Archived plainCfg metaSession r ∧ Spec.written metaSession = [(path, r)] ∧
    encodeRecord ft exLayout 0 r = some text ∧ IsJson text j ∧ recordDoc ft exLayout 0 r j := by
  have hd : DiskWorks metaSession := by
    unfold DiskWorks metaSession opening storing closing; simp [diskFailure]
  obtain ⟨r, ha, h | ⟨-, path, text, j, h1, h2, h3, h4, -⟩⟩ :=
    C90_session_file exLayout_ok hft metaSession_exec ⟨str "u", by simp [metaSession, opening]⟩ hd (typedEnv_of (by decide +kernel))
  · have : (Spec.written metaSession).length = 1 := rfl
    rw [h.2.2] at this
    cases this
  · exact ⟨r, path, text, j, ha, h1, h2, h3, h4⟩

/-- The session with a download in which the client claims to have measured NaN meets the hypotheses too. -/
example : TypedEnv exLayout 0 nanSession.1 := typedEnv_of (by decide +kernel)

end Verif.Props
