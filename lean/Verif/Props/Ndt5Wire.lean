import Verif.Spec.Ndt5Wire
import Verif.Props.SchemaLoad
import Verif.Ndt5.WholeRecord
import Mathlib.Data.Rat.Encodable

/-!
# C84: the JSON of ndt5 records
-/

namespace Verif.Props
open Verif.Go Verif.Spec Verif.Ndt5
open Verif.Ndt7 (Layout field int64 uint32 nameValueTy nameValueVal ptrVal sliceVal inInt64_range uint32_range slice_hasTy slice_sound nameValue_sound slice_asRead slice_optional)

variable {ft : FloatText} {K : Layout} {z : Int} {r : Record}

private theorem tys_hasTys {fs : List (Bytes × Bool × Nat)} {ns : List Int} (h : List.Forall₂ (fun f n => IntRange f.2.1 f.2.2 n) fs ns) :
    HasTys (fs.map fun f => ((f.1, false, .int f.2.1 f.2.2) : TyField)) (ns.map .int) := by
  induction h with
  | nil => trivial
  | cons h1 _ ih => exact ⟨h1, ih⟩

private theorem upload_hasTy {c : C2SRecord} (h : UploadTyped z c) : HasTy c2sTy (c.toVal z) :=
  ⟨trivial, inInt64_range h.ports.1, trivial, inInt64_range h.ports.2, trivial, trivial, trivial, trivial, trivial, trivial⟩

private theorem download_hasTy {d : S2CRecord} (h : DownloadTyped K z d) : HasTy (s2cTy K) (d.toVal K z) := by
  refine ⟨trivial, trivial, inInt64_range h.ports.1, trivial, inInt64_range h.ports.2, trivial, trivial, trivial, inInt64_range h.rtts.1, inInt64_range h.rtts.2.1,
    inInt64_range h.rtts.2.2, uint32_range _, trivial, ?_, trivial, trivial⟩
  cases ht : d.tcpInfo with
  | none => trivial
  | some t => exact tys_hasTys (h.tcp t ht)

private theorem record_hasTy (h : RecordTyped K z r) : HasTy (recordTy K) (r.toVal K z) := by
  refine ⟨trivial, trivial, trivial, inInt64_range h.ports.1, trivial, inInt64_range h.ports.2, trivial, trivial, ?_, ?_, ?_, trivial⟩
  · exact ⟨trivial, trivial, trivial, slice_hasTy fun _ _ => ⟨trivial, trivial, trivial⟩, slice_hasTy fun _ _ => ⟨trivial, trivial, trivial⟩, trivial⟩
  · cases hc : r.c2s with
    | none => trivial
    | some c => exact upload_hasTy (h.upload c hc)
  · cases hd : r.s2c with
    | none => trivial
    | some d => exact download_hasTy (h.download d hd)

private theorem ints_sounds (ns : List Int) : Sounds (ns.map .int) := by
  rw [sounds_iff]
  intro v hv
  obtain ⟨n, -, rfl⟩ := List.mem_map.1 hv
  trivial

private theorem record_sound (h : RecordTyped K z r) : Sound (r.toVal K z) ↔ FiniteRates r := by
  simp only [Record.toVal, Sound, Sounds, h.times.1, h.times.2, controlVal, slice_sound, nameValue_sound, true_and, and_true, implies_true, FiniteRates]
  refine and_congr ?_ ?_
  · cases hc : r.c2s with
    | none => simp [ptrVal, Sound]
    | some c => simp [ptrVal, Sound, Sounds, C2SRecord.toVal, (h.upload c hc).times.1, (h.upload c hc).times.2]
  · cases hd : r.s2c with
    | none => simp [ptrVal, Sound]
    | some d =>
      have ht : Sound (ptrVal (tcpVal K) d.tcpInfo) := by
        cases d.tcpInfo with
        | none => trivial
        | some t => exact ints_sounds _
      simp only [ptrVal, Sound, Sounds, S2CRecord.toVal, (h.download d hd).times.1, (h.download d hd).times.2, true_and, and_true]
      simp only [ptrVal] at ht
      simp [ht]

/-- C84: a record is written as JSON exactly if all its rates are numbers; nothing else that a record can hold prevents it. -/
theorem C84_written_iff (h : RecordTyped K z r) : (encodeRecord ft K z r).isSome = true ↔ FiniteRates r := by
  rw [← record_sound h, ← toJson_isSome_iff (ft := ft) _ (record_hasTy h)]
  simp [encodeRecord, marshal]

/-- The condition under which the model of `SaveData` writes the record is the one of the encoder. -/
theorem C84_encodable (h : RecordTyped K z r) : r.encodable = (encodeRecord ft K z r).isSome := by
  rw [Bool.eq_iff_iff, encodable_iff, C84_written_iff h]

/-! ## Reading back -/

private theorem tys_clear (hK : LayoutOk K) (n : Nat) : Fields.Clear n K.tys := by
  unfold Layout.tys
  have key : ∀ l : List (Bytes × Bool × Nat), (∀ f ∈ l, AsciiName f.1) → (∀ f ∈ l, 1 ≤ f.2.2 ∧ f.2.2 ≤ 64) →
      Fields.Clear n (l.map fun f => ((f.1, false, .int f.2.1 f.2.2) : TyField)) := by
    intro l h1 h2
    induction l with
    | nil => simp [Fields.Clear]
    | cons f l ih =>
      simp only [List.map_cons, Fields.Clear]
      refine ⟨h1 f (by simp), ?_, ih (fun g hg => h1 g (by simp [hg])) fun g hg => h2 g (by simp [hg])⟩
      have := h2 f (by simp)
      cases n <;> simpa [Ty.Clear] using this
  exact key _ hK.ascii hK.bits

private theorem controlTy_clear (n : Nat) : Ty.Clear (n + 3) controlTy :=
  ⟨by decide +kernel, by decide +kernel, trivial, by decide +kernel, trivial, by decide +kernel, trivial, by decide +kernel, Verif.Ndt7.nameValueTy_clear n, by decide +kernel,
    Verif.Ndt7.nameValueTy_clear n, trivial⟩

private theorem int64_clear (n : Nat) : Ty.Clear n int64 := by cases n <;> simp [Ty.Clear, int64]
private theorem uint32_clear (n : Nat) : Ty.Clear n uint32 := by cases n <;> simp [Ty.Clear, uint32]

private theorem c2sTy_clear (n : Nat) : Ty.Clear (n + 1) c2sTy :=
  ⟨by decide +kernel, by decide +kernel, trivial, by decide +kernel, int64_clear _, by decide +kernel, trivial, by decide +kernel, int64_clear _, by decide +kernel, trivial,
    by decide +kernel, trivial, by decide +kernel, trivial, by decide +kernel, trivial, by decide +kernel, trivial, trivial⟩

private theorem s2cTy_clear (hK : LayoutOk K) (n : Nat) : Ty.Clear (n + 2) (s2cTy K) := by
  have hd : (K.tys.map Prod.fst).Nodup := by
    have : K.tys.map Prod.fst = K.fields.map Prod.fst := by simp [Layout.tys]
    rw [this]; exact hK.distinct
  refine ⟨?_, by decide +kernel, trivial, by decide +kernel, trivial, by decide +kernel, int64_clear _, by decide +kernel, trivial, by decide +kernel, int64_clear _,
    by decide +kernel, trivial, by decide +kernel, trivial, by decide +kernel, trivial, by decide +kernel, int64_clear _, by decide +kernel, int64_clear _, by decide +kernel, int64_clear _,
    by decide +kernel, uint32_clear _, by decide +kernel, trivial, by decide +kernel, ⟨trivial, hd, tys_clear hK n⟩, by decide +kernel, trivial, trivial⟩
  simp only [Verif.Ndt7.optional, field, List.map_cons, List.map_nil]
  decide +kernel

theorem recordTy_clear (hK : LayoutOk K) : Ty.Clear 4 (recordTy K) := by
  refine ⟨?_, by decide +kernel, trivial, by decide +kernel, trivial, by decide +kernel, trivial, by decide +kernel, int64_clear _, by decide +kernel, trivial,
    by decide +kernel, int64_clear _, by decide +kernel, trivial, by decide +kernel, trivial, by decide +kernel, ⟨trivial, controlTy_clear 0⟩, by decide +kernel, ⟨trivial, c2sTy_clear 2⟩,
    by decide +kernel, ⟨trivial, s2cTy_clear hK 1⟩, trivial⟩
  simp only [Verif.Ndt7.optional, field, List.map_cons, List.map_nil]
  decide +kernel

private theorem ints_expressibles : ∀ (fs : List (Bytes × Bool × Nat)) (ns : List Int),
    Expressibles ft (fs.map fun f => ((f.1, false, .int f.2.1 f.2.2) : TyField)) (ns.map .int)
  | [], ns => by cases ns <;> simp [Expressibles]
  | f :: fs, [] => by simp [Expressibles]
  | f :: fs, n :: ns => ⟨trivial, ints_expressibles fs ns⟩

private theorem float_expressible (hft : FloatsOk ft) {x : F64} (hx : IsDouble x) (hq : ∃ q, x = .fin q) : Expressible ft .float (.float x) := by
  obtain ⟨q, rfl⟩ := hq
  exact ⟨q, rfl, hft q (hx q rfl)⟩

private theorem slice_expressible (l : List NameValue) : Expressible ft (.slice nameValueTy) (sliceVal nameValueVal l) := by
  unfold sliceVal
  split
  · trivial
  · intro v hv
    obtain ⟨x, -, rfl⟩ := List.mem_map.1 hv
    exact ⟨trivial, trivial, trivial⟩

theorem record_expressible (hft : FloatsOk ft) (h : RecordTyped K z r) (hf : FiniteRates r) : Expressible ft (recordTy K) (r.toVal K z) := by
  refine ⟨trivial, trivial, trivial, trivial, trivial, trivial, h.times.1, h.times.2, ?_, ?_, ?_, trivial⟩
  · exact ⟨trivial, trivial, trivial, slice_expressible _, slice_expressible _, trivial⟩
  · cases hc : r.c2s with
    | none => trivial
    | some c =>
      have := h.upload c hc
      exact ⟨trivial, trivial, trivial, trivial, trivial, this.times.1, this.times.2, float_expressible hft this.rate (hf.1 c hc), trivial, trivial⟩
  · cases hd : r.s2c with
    | none => trivial
    | some d =>
      have := h.download d hd
      have hr := hf.2 d hd
      refine ⟨trivial, trivial, trivial, trivial, trivial, this.times.1, this.times.2, float_expressible hft this.rates.1 hr.1, trivial, trivial, trivial, trivial,
        float_expressible hft this.rates.2 hr.2, ?_, trivial, trivial⟩
      cases d.tcpInfo with
      | none => trivial
      | some t => exact ints_expressibles _ _

private theorem ints_asRead : ∀ (fs : List (Bytes × Bool × Nat)) (ns : List Int), fs.length = ns.length →
    asReads (fs.map fun f => ((f.1, false, .int f.2.1 f.2.2) : TyField)) (ns.map .int) = ns.map .int
  | [], [], _ => by simp [asReads]
  | f :: fs, n :: ns, h => by
    simp only [List.map_cons, asReads]
    rw [ints_asRead fs ns (by simpa using h)]
    rfl

private theorem control_asRead (r : Record) : asRead (.ptr controlTy) (controlVal r) = controlVal (seenRecord r) := by
  have e3 := slice_asRead (f := nameValueVal) (g := seenPair) (t := nameValueTy) (l := r.clientMetadata) fun _ _ => rfl
  have e4 := slice_asRead (f := nameValueVal) (g := seenPair) (t := nameValueTy) (l := r.serverMetadata) fun _ _ => rfl
  simp only [controlTy, controlVal, asRead, Verif.Ndt7.optional, field, seenRecord]
  congr 2
  simp only [asReads]
  congr 3
  have := slice_optional (f := nameValueVal) (name := str "ClientMetadata") (t := .slice nameValueTy) (fs := [(str "ServerMetadata", true, .slice nameValueTy)])
    (l := r.clientMetadata) (vs := [sliceVal nameValueVal r.serverMetadata])
  simp only [asReads] at this
  rw [this, e3]
  congr 1
  have := slice_optional (f := nameValueVal) (name := str "ServerMetadata") (t := .slice nameValueTy) (fs := []) (l := r.serverMetadata) (vs := [])
  simp only [asReads] at this
  rw [this, e4]

private theorem upload_asRead (c : C2SRecord) : asRead c2sTy (c.toVal z) = (seenUpload c).toVal z := rfl

private theorem download_asRead {d : S2CRecord} (h : DownloadTyped K z d) : asRead (s2cTy K) (d.toVal K z) = (seenDownload d).toVal K z := by
  cases ht : d.tcpInfo with
  | none =>
    simp only [S2CRecord.toVal, seenDownload, ht]
    rfl
  | some t =>
    have := ints_asRead K.fields (K.ints t) (h.tcp t ht).length_eq
    simp only [S2CRecord.toVal, seenDownload, ht, ptrVal, tcpVal, s2cTy, asRead, Verif.Ndt7.optional, field, asReads, Layout.tys, this]
    rfl

private theorem record_asRead (h : RecordTyped K z r) : asRead (recordTy K) (r.toVal K z) = (seenRecord r).toVal K z := by
  have h1 := control_asRead r
  have hc : asReads [((str "C2S", true, .ptr c2sTy) : TyField), (str "S2C", true, .ptr (s2cTy K))] [ptrVal (C2SRecord.toVal z) r.c2s, ptrVal (S2CRecord.toVal K z) r.s2c] =
      [ptrVal (C2SRecord.toVal z) (r.c2s.map seenUpload), ptrVal (S2CRecord.toVal K z) (r.s2c.map seenDownload)] := by
    have hd : asReads [((str "S2C", true, .ptr (s2cTy K)) : TyField)] [ptrVal (S2CRecord.toVal K z) r.s2c] = [ptrVal (S2CRecord.toVal K z) (r.s2c.map seenDownload)] := by
      cases hs : r.s2c with
      | none => rfl
      | some d =>
        have := download_asRead (h.download d hs)
        simp only [ptrVal, asReads, asRead, this, Option.map_some]
    cases r.c2s with
    | none => simp only [asReads] at hd ⊢; rw [hd]; rfl
    | some c => simp only [asReads] at hd ⊢; rw [hd]; rfl
  simp only [recordTy, Record.toVal, asRead, Verif.Ndt7.optional, field]
  congr 1
  have step : asReads [((str "Control", true, .ptr controlTy) : TyField), (str "C2S", true, .ptr c2sTy), (str "S2C", true, .ptr (s2cTy K))]
      [controlVal r, ptrVal (C2SRecord.toVal z) r.c2s, ptrVal (S2CRecord.toVal K z) r.s2c] =
      [controlVal (seenRecord r), ptrVal (C2SRecord.toVal z) (r.c2s.map seenUpload), ptrVal (S2CRecord.toVal K z) (r.s2c.map seenDownload)] := by
    rw [asReads, hc, ← h1]
    intro _ h
    cases h
  simp only [asReads] at step ⊢
  rw [step]
  rfl

/-- C84: a record whose rates are numbers is written as a text that reads back, as the same types, as the same record; bytes of its strings that are not UTF-8 read back as
U+FFFD. -/
theorem C84_record_reads_back (hK : LayoutOk K) (hft : FloatsOk ft) (h : RecordTyped K z r) (hf : FiniteRates r) :
    ∃ text, encodeRecord ft K z r = some text ∧ Go.unmarshal ft (recordTy K) text = some ((seenRecord r).toVal K z) := by
  obtain ⟨j, hj⟩ := Option.isSome_iff_exists.1 ((toJson_isSome_iff (ft := ft) _ (record_hasTy h)).2 ((record_sound h).2 hf))
  have hx := record_expressible hft h hf
  refine ⟨j.text ++ [10], by simp [encodeRecord, marshal, hj], ?_⟩
  unfold Go.unmarshal
  rw [parseJson_text (ws := [10]) (toJson_ok _ (recordTy_clear hK) hx hj) (by decide) (by decide)]
  rw [← record_asRead h]
  exact fromJson_toJson _ (recordTy_clear hK) (record_hasTy h) hx hj

/-! ## Tables -/

private theorem goType_record (K : Layout) : goType (recordTy K) = Data.ndt5Result (tcpColumns K) := by
  have := goFields_tys K.fields []
  simp only [List.append_nil] at this
  simp [recordTy, controlTy, c2sTy, s2cTy, nameValueTy, goType, goFields, field, Verif.Ndt7.optional, Layout.tys, this,
    Data.ndt5Result, Data.resultHead, Data.controlData, Data.c2sData, Data.s2cData, Data.nameValue, tcpColumns, int64, uint32]

/-- The JSON value of a written record. -/
theorem written_json (hK : LayoutOk K) (hft : FloatsOk ft) (h : RecordTyped K z r) {text : Bytes} (hw : encodeRecord ft K z r = some text) :
    ∃ j, toJson ft (recordTy K) (r.toVal K z) = some j ∧ parseJson text = some j.fixed := by
  have hf := (C84_written_iff (ft := ft) h).1 (by rw [hw]; rfl)
  unfold encodeRecord marshal at hw
  cases hj : toJson ft (recordTy K) (r.toVal K z) with
  | none => rw [hj] at hw; cases hw
  | some j =>
    rw [hj] at hw
    simp at hw
    subst hw
    exact ⟨j, rfl, parseJson_text (ws := [10]) (toJson_ok _ (recordTy_clear hK) (record_expressible hft h hf) hj) (by decide) (by decide)⟩

/-- C84: the schema inferred from the structure of ndt5 records, which the generator does not use, takes every record that is written. -/
theorem C84_right_schema_loads (hK : LayoutOk K) (hft : FloatsOk ft) (h : RecordTyped K z r) {text : Bytes} (hw : encodeRecord ft K z r = some text)
    {schema : List Data.Column} (hs : Data.inferSchema (Data.ndt5Result (tcpColumns K)) = some schema) : TakesText (Data.removeRequired schema) text := by
  obtain ⟨j, hj, hp⟩ := written_json hK hft h hw
  refine ⟨_, parseJson_iff.1 hp, ?_⟩
  rw [← goType_record] at hs
  have hi : Data.inferField [] (goType (recordTy K)) = some (.mk [] .record false true schema) := by
    simp only [recordTy, goType, Data.inferSchema] at hs ⊢
    simp [Data.inferField, hs]
  exact takes_required (takes_of_toJson _ (recordTy_clear hK) (record_hasTy h) hj hi) (toJson_plain (t := recordTy K) trivial hj)

private theorem toMembers_mem {pre : List TyField} {pv : List Val} (hl : pre.length = pv.length) {n : Bytes} {o : Bool} {t : Ty} {v : Val} (hv : v.isEmpty = false)
    {suf : List TyField} {sv : List Val} {kvs : List (Bytes × Json)} (h : toMembers ft (pre ++ (n, o, t) :: suf) (pv ++ v :: sv) = some kvs) : ∃ j, (n, j) ∈ kvs := by
  induction pre generalizing pv kvs with
  | nil =>
    cases pv with
    | cons _ _ => cases hl
    | nil =>
      simp only [List.nil_append, toMembers, hv] at h
      simp only [Bool.false_eq_true, and_false, if_false] at h
      split at h
      · rename_i j rest _ _
        cases h; exact ⟨j, by simp⟩
      · cases h
  | cons f pre ih =>
    cases pv with
    | nil => cases hl
    | cons w pv =>
      obtain ⟨a, b, c⟩ := f
      simp only [List.cons_append, toMembers] at h
      split at h
      · exact ih (by simpa using hl) h
      · split at h
        · rename_i j rest _ hr
          cases h
          obtain ⟨j, hj⟩ := ih (by simpa using hl) hr
          exact ⟨j, by simp [hj]⟩
        · cases h

private theorem fixedMembers_mem {kvs : List (Bytes × Json)} {k : Bytes} {j : Json} (h : (k, j) ∈ kvs) : (toValid k, j.fixed) ∈ fixedMembers kvs := by
  induction kvs with
  | nil => cases h
  | cons kv kvs ih =>
    obtain ⟨a, b⟩ := kv
    simp only [fixedMembers]
    rcases List.mem_cons.1 h with h | h
    · cases h; simp
    · simp [ih h]

/-- C63, C84: the schema that the generator writes for ndt5 takes none of the records that the server writes. -/
theorem C63_ndt5_records_rejected (hK : LayoutOk K) (hft : FloatsOk ft) (h : RecordTyped K z r) {text : Bytes} (hw : encodeRecord ft K z r = some text)
    {bbr : List (Bytes × Data.GoType)} {f7 f5 : Bytes} {evs : List (Event Data.genSig)} {x : Data.GenExit} {schema : List Data.Column} {a : Outcome (Option Err)}
    (hg : Prog.Runs (Data.generateSchemas (tcpColumns K) bbr f7 f5) evs x) (hm : .call (.writeFile f5 schema) a ∈ evs) : ¬ TakesText schema text := by
  obtain ⟨j, hj, hp⟩ := written_json hK hft h hw
  obtain ⟨sch, h1, rfl⟩ := written _ _ _ _ _ _ hg f5 schema a hm
  rintro ⟨j', hp', ht⟩
  rw [← parseJson_iff, hp] at hp'
  cases hp'
  simp only [recordTy, Record.toVal, toJson, Option.map_eq_some_iff] at hj
  obtain ⟨kvs, hk, rfl⟩ := hj
  obtain ⟨v, hv⟩ := toMembers_mem (pre := [field "GitShortCommit" .string, field "Version" .string, field "ServerIP" .string, field "ServerPort" int64, field "ClientIP" .string,
    field "ClientPort" int64, field "StartTime" .time, field "EndTime" .time]) (pv := [.str r.gitShortCommit, .str r.version, .str r.serverIP, .int r.serverPort, .str r.clientIP,
    .int r.clientPort, .time ⟨r.startTime, z⟩, .time ⟨r.endTime, z⟩]) rfl (n := str "Control") (o := true) (t := .ptr controlTy) (v := controlVal r) rfl hk
  simp only [Json.fixed] at ht
  cases ht with
  | record _ _ _ _ column h2 h3 h4 =>
    obtain ⟨h5, h6⟩ := h2 _ (fixedMembers_mem hv)
    refine no_column h1 h5 (.inl ?_)
    have e : colName (column (toValid (str "Control"), v.fixed)) = Column.name (column (toValid (str "Control"), v.fixed)) := by
      cases column (toValid (str "Control"), v.fixed); rfl
    rw [e, h6]
    have : toValid (str "Control") = str "Control" := by decide +kernel
    exact this

/-! ## Examples -/

/-- There is a way of writing floating point numbers as `FloatsOk` asks for. -/
theorem floatsOk_exists : ∃ ft, FloatsOk ft := by
  classical
  let w : F64 → Bytes := fun x => match x with
    | .fin q => itoa (Encodable.encode q)
    | _ => []
  have inj : ∀ p q : ℚ, w (.fin p) = w (.fin q) → p = q := by
    intro p q h
    simp only [w, itoa] at h
    have h1 := congrArg parseNat h
    simp [parseNat_natDec] at h1
    exact h1
  refine ⟨⟨w, fun b => if h : ∃ q, w (.fin q) = b then some (.fin h.choose) else none⟩, ?_⟩
  intro q _
  refine ⟨numText_iff.1 (numText_itoa (Encodable.encode q : Nat)), ?_⟩
  have h : ∃ p, w (.fin p) = w (.fin q) := ⟨q, rfl⟩
  simp only [dif_pos h]
  rw [inj _ _ h.choose_spec]

/-- A record of an upload and a download. -/
def exNdt5 : Record where
  gitShortCommit := str "abc"
  serverIP := str "192.0.2.1"
  serverPort := 3001
  startTime := 1600000000120000000
  endTime := 1600000020000000000
  uuid := [255]
  protocol := str "WS"
  clientMetadata := [⟨str "client.os.name", str "\"x\""⟩]
  c2s := some { mean := .fin 2, error := str "e" }
  s2c := some { mean := .fin 3, minRTT := 5, countRTT := 7, clientMbps := .fin 0, tcpInfo := some { bytesAcked := 1000 } }

/-- It meets the hypotheses of C84. -/
theorem exNdt5_ok : RecordTyped exLayout 60 exNdt5 ∧ FiniteRates exNdt5 := by
  have hd : ∀ q : ℚ, q = 0 ∨ q = 2 ∨ q = 3 → IsDouble (.fin q) := by
    rintro q (rfl | rfl | rfl) p h <;> (cases h; decide +kernel)
  refine ⟨⟨by decide, by decide +kernel, ?_, ?_⟩, ?_, ?_⟩
  · rintro c ⟨⟩
    exact ⟨by decide, by decide +kernel, hd _ (by simp)⟩
  · rintro d ⟨⟩
    refine ⟨by decide, by decide +kernel, ⟨hd _ (by simp), hd _ (by simp)⟩, by decide, ?_⟩
    rintro t ⟨⟩
    exact .cons (by decide) (.cons (by decide) .nil)
  · rintro c ⟨⟩; exact ⟨_, rfl⟩
  · rintro c ⟨⟩; exact ⟨⟨_, rfl⟩, _, rfl⟩

end Verif.Props
