import Verif.Go.JsonShape
import Verif.Props.Ndt5Wire
import Verif.Props.Wire

/-!
# C88: the JSON documents of the server
-/

namespace Verif.Props
open Verif.Go Verif.Spec Verif.Spec.Doc
open Verif.Ndt5 (TcpInfo NameValue C2SRecord S2CRecord Record)
open Verif.Ndt7 (NoFloat expressible_of_sound Layout AppInfo ConnectionInfo BbrSample TcpSample Measurement ArchivalData Result)

variable {ft : FloatText} {K : Layout} {z : Int}

/-! ## Optional members -/

private theorem may_ptr {α : Type} {f : α → Val} {name : String} {t : Ty} {fs : List TyField} {o : Option α} {vs : List Val} {P : α → Json → Prop} {ms : Members}
    {kvs : List (Bytes × Json)} (h : Shapes ft ((str name, true, .ptr t) :: fs) (Verif.Ndt7.ptrVal f o :: vs) kvs) (hp : ∀ a, o = some a → ∀ j, Shape ft t (f a) j → P a j)
    (hr : ∀ kvs, Shapes ft fs vs kvs → Described ms kvs) : Described (may name o P ++ ms) kvs := by
  refine described_may h ?_ ?_ hr
  · cases o with
    | none => intro _; rfl
    | some a => intro h; cases h
  · cases o with
    | none => intro h; cases h
    | some a => intro _; exact ⟨_, rfl, hp a rfl⟩

private theorem may_text {name : String} {fs : List TyField} {s : Bytes} {vs : List Val} {ms : Members}
    {kvs : List (Bytes × Json)} (h : Shapes ft ((str name, true, .string) :: fs) (.str s :: vs) kvs)
    (hr : ∀ kvs, Shapes ft fs vs kvs → Described ms kvs) : Described (mayText name s ++ ms) kvs := by
  refine described_may h ?_ ?_ hr
  · intro h
    simp [Val.isEmpty] at h
    simp [mayText, h]
  · intro h
    simp [Val.isEmpty] at h
    exact ⟨text s, by rw [mayText, if_neg (by simpa using h)], fun j hj => hj⟩

private theorem slice_array {α : Type} {f : α → Val} {t : Ty} {l : List α} {P : α → Json → Prop} {j : Json} (hl : l ≠ []) (hp : ∀ a ∈ l, ∀ j, Shape ft t (f a) j → P a j)
    (h : Shape ft (.slice t) (Verif.Ndt7.sliceVal f l) j) : array P l j := by
  have hne : l.isEmpty = false := by cases l <;> simp at hl ⊢
  simp only [Verif.Ndt7.sliceVal, hne, Bool.false_eq_true, if_false, Shape] at h
  obtain ⟨js, h1, rfl⟩ := h
  refine ⟨js, ?_, rfl⟩
  rw [List.forall₂_map_left_iff] at h1
  clear hl hne
  induction h1 with
  | nil => exact .nil
  | cons h1 _ ih => exact .cons (hp _ (by simp) _ h1) (ih fun a ha => hp a (by simp [ha]))

private theorem may_slice {α : Type} {f : α → Val} {name : String} {t : Ty} {fs : List TyField} {l : List α} {vs : List Val} {P : α → Json → Prop} {ms : Members}
    {kvs : List (Bytes × Json)} (h : Shapes ft ((str name, true, .slice t) :: fs) (Verif.Ndt7.sliceVal f l :: vs) kvs)
    (hp : ∀ a ∈ l, ∀ j, Shape ft t (f a) j → P a j)
    (hr : ∀ kvs, Shapes ft fs vs kvs → Described ms kvs) : Described (mayArray name l P ++ ms) kvs := by
  cases l with
  | nil => exact described_may h (fun _ => rfl) (fun h => by cases h) hr
  | cons a l => exact described_may h (fun h => by cases h) (fun _ => ⟨_, rfl, fun j hj => slice_array (by simp) hp hj⟩) hr

private theorem slice_orNull {α : Type} {f : α → Val} {t : Ty} {l : List α} {P : α → Json → Prop} {j : Json} (hp : ∀ a ∈ l, ∀ j, Shape ft t (f a) j → P a j)
    (h : Shape ft (.slice t) (Verif.Ndt7.sliceVal f l) j) : arrayOrNull P l j := by
  unfold arrayOrNull
  split
  · rename_i hl; subst hl
    exact h
  · rename_i hl
    exact slice_array hl hp h

private theorem shape_text {s : Bytes} : ∀ j, Shape ft .string (.str s) j → text s j := fun _ h => h
private theorem shape_int {s : Bool} {b : Nat} {n : Int} : ∀ j, Shape ft (.int s b) (.int n) j → int n j := fun _ h => h
private theorem shape_time {t x : Int} : ∀ j, Shape ft .time (.time ⟨t, x⟩) j → time t x j := fun _ h => h
private theorem shape_float {x : F64} : ∀ j, Shape ft .float (.float x) j → float ft x j := fun _ h => h

/-! ## Structures -/

private theorem ints_described {fs : List TyField} {vs : List Val} {ms : Members} (hr : ∀ kvs, Shapes ft fs vs kvs → Described ms kvs) :
    ∀ {l : List (Bytes × Bool × Nat)} {ns : List Int} {kvs : List (Bytes × Json)}, l.length = ns.length →
    Shapes ft ((l.map fun f => ((f.1, false, .int f.2.1 f.2.2) : TyField)) ++ fs) (ns.map .int ++ vs) kvs →
    Described (((l.zip ns).map fun x => (x.1.1, int x.2)) ++ ms) kvs
  | [], [], kvs, _, h => hr _ h
  | f :: l, n :: ns, kvs, hl, h => by
    simp only [List.map_cons, List.cons_append, Shapes] at h
    simp at h
    obtain ⟨j, h1, rest, h2, rfl⟩ := h
    refine .cons ⟨rfl, h1⟩ (ints_described hr (by simpa using hl) (by simpa using h2))

private theorem pair_doc {x : NameValue} {j : Json} (h : Shape ft Verif.Ndt7.nameValueTy (Verif.Ndt7.nameValueVal x) j) : pairDoc x j := by
  obtain ⟨kvs, h, rfl⟩ := h
  exact ⟨_, described_must h shape_text fun _ h => described_must h shape_text fun _ h => described_nil h, rfl⟩

private theorem app_doc {a : AppInfo} {j : Json} (h : Shape ft Verif.Ndt7.appInfoTy a.toVal j) : appDoc a j := by
  obtain ⟨kvs, h, rfl⟩ := h
  exact ⟨_, described_must h shape_int fun _ h => described_must h shape_int fun _ h => described_nil h, rfl⟩

private theorem conn_doc {c : ConnectionInfo} {j : Json} (h : Shape ft Verif.Ndt7.connInfoTy c.toVal j) : connDoc c j := by
  obtain ⟨kvs, h, rfl⟩ := h
  refine ⟨_, described_must h shape_text fun _ h => described_must h shape_text fun _ h => may_text h fun _ h => ?_, rfl⟩
  refine described_may h (fun h => by cases h) (fun _ => ⟨_, rfl, shape_time⟩) fun _ h => described_nil h

private theorem bbr_doc {b : BbrSample} {j : Json} (h : Shape ft Verif.Ndt7.bbrInfoTy b.toVal j) : bbrDoc b j := by
  obtain ⟨kvs, h, rfl⟩ := h
  exact ⟨_, described_must h shape_int fun _ h => described_must h shape_int fun _ h => described_must h shape_int fun _ h => described_must h shape_int fun _ h =>
    described_must h shape_int fun _ h => described_nil h, rfl⟩

private theorem tcp_doc {t : TcpSample} {j : Json} (hl : K.fields.length = (K.ints t.info).length) (h : Shape ft (Verif.Ndt7.tcpInfoTy K) (t.toVal K) j) : tcpDoc K t j := by
  obtain ⟨kvs, h, rfl⟩ := h
  exact ⟨_, ints_described (fun _ h => described_must h shape_int fun _ h => described_nil h) hl h, rfl⟩

private theorem measurement_doc {m : Measurement} {j : Json} (ht : Typed K m) (h : Shape ft (Verif.Ndt7.measurementTy K) (m.toVal K) j) : measurementDoc K m j := by
  obtain ⟨kvs, h, rfl⟩ := h
  exact ⟨_, may_ptr h (fun _ _ _ => app_doc) fun _ h => may_ptr h (fun _ _ _ => conn_doc) fun _ h => may_ptr h (fun _ _ _ => bbr_doc) fun _ h =>
    may_ptr h (fun t e _ => tcp_doc (ht.tcp t e).1.fits.length_eq) fun _ h => described_nil h, rfl⟩

private theorem archival_doc {d : ArchivalData} {j : Json} (ht : DataTyped K d) (h : Shape ft (Verif.Ndt7.archivalTy K) (d.toVal K) j) : archivalDoc K d j := by
  obtain ⟨kvs, h, rfl⟩ := h
  exact ⟨_, described_must h shape_text fun _ h => described_must h shape_time fun _ h => described_must h shape_time fun _ h =>
    described_must h (fun _ => slice_orNull fun m hm _ => measurement_doc (ht.server m hm).1) fun _ h =>
    described_must h (fun _ => slice_orNull fun m hm _ => measurement_doc (ht.client m hm)) fun _ h =>
    may_slice h (fun _ _ _ => pair_doc) fun _ h => may_slice h (fun _ _ _ => pair_doc) fun _ h => described_nil h, rfl⟩

private theorem result_doc {r : Result} {j : Json} (ht : ResultTyped K r) (h : Shape ft (Verif.Ndt7.resultTy K) (r.toVal K) j) : resultDoc K r j := by
  obtain ⟨kvs, h, rfl⟩ := h
  exact ⟨_, described_must h shape_text fun _ h => described_must h shape_text fun _ h => described_must h shape_text fun _ h => described_must h shape_int fun _ h =>
    described_must h shape_text fun _ h => described_must h shape_int fun _ h => described_must h shape_time fun _ h => described_must h shape_time fun _ h =>
    may_ptr h (fun d e _ => archival_doc (ht.upload d e)) fun _ h => may_ptr h (fun d e _ => archival_doc (ht.download d e)) fun _ h => described_nil h, rfl⟩

private theorem control_doc {r : Record} {j : Json} (h : Shape ft (.ptr Verif.Ndt5.controlTy) (Verif.Ndt5.controlVal r) j) : controlDoc r j := by
  obtain ⟨kvs, h, rfl⟩ := h
  exact ⟨_, described_must h shape_text fun _ h => described_must h shape_text fun _ h => described_must h shape_text fun _ h =>
    may_slice h (fun _ _ _ => pair_doc) fun _ h => may_slice h (fun _ _ _ => pair_doc) fun _ h => described_nil h, rfl⟩

private theorem upload_doc {c : C2SRecord} {j : Json} (h : Shape ft Verif.Ndt5.c2sTy (c.toVal z) j) : uploadDoc ft z c j := by
  obtain ⟨kvs, h, rfl⟩ := h
  exact ⟨_, described_must h shape_text fun _ h => described_must h shape_int fun _ h => described_must h shape_text fun _ h => described_must h shape_int fun _ h =>
    described_must h shape_text fun _ h => described_must h shape_time fun _ h => described_must h shape_time fun _ h => described_must h shape_float fun _ h =>
    may_text h fun _ h => described_nil h, rfl⟩

private theorem info_doc {t : TcpInfo} {j : Json} (hl : K.fields.length = (K.ints t).length) (h : Shape ft (.struct K.tys) (Verif.Ndt5.tcpVal K t) j) :
    object [tcpMembers K t] j := by
  obtain ⟨kvs, h, rfl⟩ := h
  refine ⟨_, ?_, rfl⟩
  have := ints_described (fun _ h => described_nil (ft := ft) h) (kvs := kvs) hl (by simpa [Layout.tys] using h)
  exact this

private theorem download_doc {d : S2CRecord} {j : Json} (ht : DownloadTyped K z d) (h : Shape ft (Verif.Ndt5.s2cTy K) (d.toVal K z) j) : downloadDoc ft K z d j := by
  obtain ⟨kvs, h, rfl⟩ := h
  exact ⟨_, described_must h shape_text fun _ h => described_must h shape_text fun _ h => described_must h shape_int fun _ h => described_must h shape_text fun _ h =>
    described_must h shape_int fun _ h => described_must h shape_time fun _ h => described_must h shape_time fun _ h => described_must h shape_float fun _ h =>
    described_must h shape_int fun _ h => described_must h shape_int fun _ h => described_must h shape_int fun _ h => described_must h shape_int fun _ h =>
    described_must h shape_float fun _ h => may_ptr h (fun t e _ => info_doc (ht.tcp t e).length_eq) fun _ h => may_text h fun _ h => described_nil h, rfl⟩

private theorem record_doc {r : Record} {j : Json} (ht : RecordTyped K z r) (h : Shape ft (Verif.Ndt5.recordTy K) (r.toVal K z) j) : recordDoc ft K z r j := by
  obtain ⟨kvs, h, rfl⟩ := h
  exact ⟨_, described_must h shape_text fun _ h => described_must h shape_text fun _ h => described_must h shape_text fun _ h => described_must h shape_int fun _ h =>
    described_must h shape_text fun _ h => described_must h shape_int fun _ h => described_must h shape_time fun _ h => described_must h shape_time fun _ h =>
    described_may h (fun h => by cases h) (fun _ => ⟨_, rfl, fun _ => control_doc⟩) fun _ h =>
    may_ptr h (fun _ _ _ => upload_doc) fun _ h => may_ptr h (fun d e _ => download_doc (ht.download d e)) fun _ h => described_nil h, rfl⟩

/-! ## The documents -/

private theorem marshal_shape {t : Ty} {n : Nat} {v : Val} {ws out : Bytes} (hc : Ty.Clear n t) (hn : n ≤ maxNesting) (hf : NoFloat t) (ht : HasTy t v)
    (hw : ∀ c ∈ ws, isWs c = true) (h : marshal Verif.Ndt7.noFloats t v = some out) : ∃ j, IsJson (out ++ ws) j ∧ Shape Verif.Ndt7.noFloats t v j := by
  unfold marshal at h
  cases hj : toJson Verif.Ndt7.noFloats t v with
  | none => rw [hj] at h; cases h
  | some j =>
    rw [hj] at h
    cases h
    have hs := (toJson_isSome_iff (ft := Verif.Ndt7.noFloats) t ht).1 (by rw [hj]; rfl)
    have hx := expressible_of_sound (ft := Verif.Ndt7.noFloats) t hf ht hs
    exact ⟨j.fixed, parseJson_iff.1 (parseJson_text (toJson_ok t hc hx hj) hn hw), toJson_shape t hc hx hj⟩

/-- C88: every measurement message that the server sends is one JSON document with the documented members, which hold the measurement. -/
theorem C88_message_document (hK : LayoutOk K) {m : Measurement} (ht : Typed K m) {text : Bytes} (hw : Verif.Ndt7.encodeMeasurement K m = some text) :
    ∃ j, IsJson text j ∧ measurementDoc K m j := by
  unfold Verif.Ndt7.encodeMeasurement at hw
  obtain ⟨out, h1, rfl⟩ := Option.map_eq_some_iff.1 hw
  obtain ⟨j, h2, h3⟩ := marshal_shape (ws := [10]) (Verif.Ndt7.measurementTy_clear hK 0) (by decide) (Verif.Ndt7.measurementTy_noFloat K) (Verif.Ndt7.measurement_hasTy ht) (by decide) h1
  exact ⟨j, h2, measurement_doc ht h3⟩

/-- C88: every result of ndt7 that is written is one JSON document with the documented members, which hold the result. -/
theorem C88_result_document (hK : LayoutOk K) {r : Result} (ht : ResultTyped K r) {text : Bytes} (hw : Verif.Ndt7.encodeResult K r = some text) :
    ∃ j, IsJson text j ∧ resultDoc K r j := by
  obtain ⟨j, h2, h3⟩ := marshal_shape (ws := []) (Verif.Ndt7.resultTy_clear hK 0) (by decide) (Verif.Ndt7.resultTy_noFloat K) (Verif.Ndt7.result_hasTy ht) (by simp) hw
  rw [List.append_nil] at h2
  exact ⟨j, h2, result_doc ht h3⟩

/-- C88: every record of ndt5 that is written is one JSON document with the members that the tables of ndt5 have, which hold the record. -/
theorem C88_record_document (hK : LayoutOk K) (hft : FloatsOk ft) {r : Record} (ht : RecordTyped K z r) {text : Bytes} (hw : Verif.Ndt5.encodeRecord ft K z r = some text) :
    ∃ j, IsJson text j ∧ recordDoc ft K z r j := by
  have hf := (C84_written_iff (ft := ft) ht).1 (by rw [hw]; rfl)
  obtain ⟨j, hj, hp⟩ := written_json hK hft ht hw
  exact ⟨_, parseJson_iff.1 hp, record_doc ht (toJson_shape _ (recordTy_clear hK) (record_expressible hft ht hf) hj)⟩

/-! ## Examples -/

/-- The message of `exMeasurement` is such a document. -/
example : ∃ text j, Verif.Ndt7.encodeMeasurement exLayout exMeasurement = some text ∧ IsJson text j ∧ measurementDoc exLayout exMeasurement j := by
  have ht : Typed exLayout exMeasurement := by
    refine ⟨?_, ?_, ?_⟩
    · rintro a ⟨⟩; decide
    · rintro a ⟨⟩; decide
    · rintro a ⟨⟩; exact ⟨⟨.cons (by decide) (.cons (by decide) .nil), rfl⟩, by decide⟩
  obtain ⟨text, h1, -⟩ := C80_message_reads_back exLayout_ok ht (by rintro a ⟨⟩; decide +kernel)
  obtain ⟨j, h2, h3⟩ := C88_message_document exLayout_ok ht h1
  exact ⟨text, j, h1, h2, h3⟩

/-- Documents with another value, under another name, or with a member more or less are not. -/
example : ¬ measurementDoc exLayout { app := some ⟨1, 2⟩ } (.obj []) ∧
    ¬ measurementDoc exLayout {} (.obj [(str "AppInfo", .null)]) ∧
    ¬ measurementDoc exLayout { app := some ⟨1, 2⟩ } (.obj [(str "AppInfo", .obj [(str "NumBytes", .num (str "2")), (str "ElapsedTime", .num (str "2"))])]) ∧
    ¬ measurementDoc exLayout { app := some ⟨1, 2⟩ } (.obj [(str "AppInfo", .obj [(str "ElapsedTime", .num (str "2")), (str "NumBytes", .num (str "1"))])]) := by
  refine ⟨?_, ?_, ?_, ?_⟩
  · rintro ⟨kvs, h, e⟩
    cases e
    cases h
  · rintro ⟨kvs, h, e⟩
    cases e
    cases h
  · rintro ⟨kvs, h, e⟩
    cases e
    cases h with
    | cons h _ =>
      obtain ⟨-, kvs, h, e⟩ := h
      cases e
      cases h with
      | cons h _ =>
        obtain ⟨-, raw, h, e⟩ := h
        cases e
        have h := signedVal_iff.2 h
        revert h
        decide +kernel
  · rintro ⟨kvs, h, e⟩
    cases e
    cases h with
    | cons h _ =>
      obtain ⟨-, kvs, h, e⟩ := h
      cases e
      cases h with
      | cons h _ =>
        have := h.1
        revert this
        decide +kernel

/-- A result with a download, measured by both sides. -/
def exResultDoc : Result where
  gitShortCommit := str "773d318"
  version := str "v0.9.1"
  serverIP := str "::1"
  serverPort := 443
  clientIP := str "192.0.2.1"
  clientPort := 40910
  startTime := 1600000000120000000
  endTime := 1600000020000000000
  download := some { uuid := str "u", startTime := 1600000000120000000, endTime := 1600000020000000000, serverMeasurements := [{ app := some ⟨1, 2⟩ }],
                     clientMetadata := [⟨str "client_name", str "x"⟩] }

/-- It is written as such a document. -/
example : ∃ text j, Verif.Ndt7.encodeResult exLayout exResultDoc = some text ∧ IsJson text j ∧ resultDoc exLayout exResultDoc j := by
  have year : ∀ t : Int, Stamp.Writable ⟨t, 0⟩ → FourDigitYear t := fun t h => Verif.Ndt7.utc_writable.1 h
  have ht : ResultTyped exLayout exResultDoc := by
    refine ⟨by decide, year _ (by decide +kernel), year _ (by decide +kernel), ?_, ?_⟩
    · rintro d ⟨⟩
    · rintro d ⟨⟩
      refine ⟨year _ (by decide +kernel), year _ (by decide +kernel), ?_, ?_⟩
      · intro m hm
        simp at hm
        subst hm
        exact ⟨⟨by rintro a ⟨⟩; decide, by rintro a ⟨⟩, by rintro a ⟨⟩⟩, by rintro a ⟨⟩⟩
      · intro m hm; cases hm
  obtain ⟨text, h1, -⟩ := C80_result_reads_back exLayout_ok ht (by intro m hm; cases hm)
  obtain ⟨j, h2, h3⟩ := C88_result_document exLayout_ok ht h1
  exact ⟨text, j, h1, h2, h3⟩

/-- The record of `exNdt5` is such a document, however floating point numbers are written. -/
example (hft : FloatsOk ft) :
    ∃ text j, Verif.Ndt5.encodeRecord ft exLayout 60 exNdt5 = some text ∧ IsJson text j ∧ recordDoc ft exLayout 60 exNdt5 j := by
  obtain ⟨h, hf⟩ := exNdt5_ok
  obtain ⟨text, h1, -⟩ := C84_record_reads_back exLayout_ok hft h hf
  obtain ⟨j, h2, h3⟩ := C88_record_document exLayout_ok hft h h1
  exact ⟨text, j, h1, h2, h3⟩

end Verif.Props
