import Verif.Spec.Ndt7Wire
import Verif.Go.MarshalTimes

/-! # Lemmas on the JSON of ndt7 -/

namespace Verif.Ndt7
open Verif.Go Verif.Spec
open Verif.Ndt5 (TcpInfo NameValue)

theorem layout_clear {K : Layout} (hK : LayoutOk K) : ∀ n, Fields.Clear n (K.tys ++ [field "ElapsedTime" int64]) := by
  intro n
  have : ∀ l : List (Bytes × Bool × Nat), (∀ f ∈ l, AsciiName f.1) → (∀ f ∈ l, 1 ≤ f.2.2 ∧ f.2.2 ≤ 64) →
      Fields.Clear n ((l.map fun f => ((f.1, false, .int f.2.1 f.2.2) : TyField)) ++ [field "ElapsedTime" int64]) := by
    intro l
    induction l with
    | nil =>
      intro _ _
      cases n <;> exact ⟨by decide +kernel, (by decide : 1 ≤ 64 ∧ 64 ≤ 64), trivial⟩
    | cons f l ih =>
      intro h1 h2
      refine ⟨h1 f (by simp), ?_, ih (fun f hf => h1 f (by simp [hf])) (fun f hf => h2 f (by simp [hf]))⟩
      cases n <;> exact h2 f (by simp)
  exact this K.fields hK.ascii hK.bits

theorem tcpTy_clear {K : Layout} (hK : LayoutOk K) (n : Nat) : Ty.Clear (n + 1) (tcpInfoTy K) := by
  refine ⟨?_, layout_clear hK n⟩
  have h : (K.tys.map Prod.fst) = K.fields.map Prod.fst := by simp [Layout.tys, Function.comp_def]
  rw [List.map_append, h]
  refine List.nodup_append.2 ⟨hK.distinct, by simp, ?_⟩
  intro a ha b hb hab
  simp [field] at hb
  subst hb
  exact hK.fresh (hab ▸ ha)

theorem measurementTy_clear {K : Layout} (hK : LayoutOk K) (n : Nat) : Ty.Clear (n + 2) (measurementTy K) := by
  refine ⟨by simp [optional]; decide +kernel, ?_⟩
  have ht := tcpTy_clear hK n
  simp only [Fields.Clear, optional, Ty.Clear, appInfoTy, connInfoTy, bbrInfoTy, field, int64, uint32, Ty.Plain, tcpInfoTy] at ht ⊢
  refine ⟨by decide +kernel, ⟨trivial, by decide +kernel, by decide +kernel⟩, by decide +kernel, ⟨trivial, by decide +kernel, ?_⟩, by decide +kernel, ⟨trivial, by decide +kernel, ?_⟩,
    by decide +kernel, ⟨trivial, ht⟩, trivial⟩
  · simp; decide +kernel
  · simp; decide +kernel

theorem nameValueTy_clear (n : Nat) : Ty.Clear (n + 1) nameValueTy := by
  simp only [nameValueTy, field, Ty.Clear, Fields.Clear]
  decide +kernel

theorem archivalTy_clear {K : Layout} (hK : LayoutOk K) (n : Nat) : Ty.Clear (n + 4) (archivalTy K) := by
  have hm := measurementTy_clear hK n
  have hn := nameValueTy_clear (n + 1)
  refine ⟨by simp only [optional, field, List.map_cons, List.map_nil]; decide +kernel, ?_⟩
  simp only [Fields.Clear, optional, field, Ty.Clear]
  exact ⟨by decide +kernel, trivial, by decide +kernel, trivial, by decide +kernel, trivial, by decide +kernel, hm, by decide +kernel, hm, by decide +kernel, hn,
    by decide +kernel, hn, trivial⟩

theorem resultTy_clear {K : Layout} (hK : LayoutOk K) (n : Nat) : Ty.Clear (n + 5) (resultTy K) := by
  have ha := archivalTy_clear hK n
  refine ⟨by simp only [optional, field, List.map_cons, List.map_nil]; decide +kernel, ?_⟩
  simp only [Fields.Clear, optional, field, Ty.Clear, int64]
  exact ⟨by decide +kernel, trivial, by decide +kernel, trivial, by decide +kernel, trivial, by decide +kernel, by decide, by decide +kernel, trivial,
    by decide +kernel, by decide, by decide +kernel, trivial, by decide +kernel, trivial, by decide +kernel, ⟨trivial, ha⟩, by decide +kernel, ⟨trivial, ha⟩, trivial⟩

theorem inInt64_range {n : Int} (h : InInt64 n) : IntRange true 64 n := by
  unfold InInt64 at h
  simp only [IntRange, if_true]
  omega

theorem tcp_hasTys {K : Layout} {t : TcpSample} (h : Holds K t.info) (he : InInt64 t.elapsed) :
    HasTys (K.tys ++ [field "ElapsedTime" int64]) ((K.ints t.info).map .int ++ [.int t.elapsed]) := by
  have key : ∀ {fs : List (Bytes × Bool × Nat)} {ns : List Int}, List.Forall₂ (fun f n => IntRange f.2.1 f.2.2 n) fs ns →
      HasTys ((fs.map fun f => ((f.1, false, .int f.2.1 f.2.2) : TyField)) ++ [field "ElapsedTime" int64]) (ns.map .int ++ [.int t.elapsed]) := by
    intro fs ns h
    induction h with
    | nil => exact ⟨inInt64_range he, trivial⟩
    | cons h1 _ ih => exact ⟨h1, ih⟩
  exact key h.fits

theorem uint32_range (x : UInt32) : IntRange false 32 (x.toNat : Int) := by
  have := x.toNat_lt
  simp only [IntRange]
  simp
  omega

theorem int64_range (x : Int64) : IntRange true 64 x.toInt := by
  have h1 := x.toInt_lt
  have h2 := x.le_toInt
  simp only [IntRange, if_true]
  omega

theorem measurement_hasTy {K : Layout} {m : Measurement} (h : Typed K m) : HasTy (measurementTy K) (m.toVal K) := by
  obtain ⟨h1, h2, h3⟩ := h
  obtain ⟨a, c, b, t⟩ := m
  simp only at h1 h2 h3
  simp only [measurementTy, Measurement.toVal, HasTy, HasTys, optional, and_true]
  refine ⟨?_, ?_, ?_, ?_⟩
  · cases a with
    | none => trivial
    | some a => exact ⟨inInt64_range (h1 a rfl).1, inInt64_range (h1 a rfl).2, trivial⟩
  · cases c with
    | none => trivial
    | some c => exact ⟨trivial, trivial, trivial, trivial, trivial⟩
  · cases b with
    | none => trivial
    | some b => exact ⟨int64_range _, uint32_range _, uint32_range _, uint32_range _, inInt64_range (h2 b rfl), trivial⟩
  · cases t with
    | none => trivial
    | some t => exact tcp_hasTys (h3 t rfl).1 (h3 t rfl).2

theorem ints_sounds (ns : List Int) (e : Int) : Sounds (ns.map .int ++ [.int e]) := by
  rw [sounds_iff]
  intro v hv
  rcases List.mem_append.1 hv with h | h
  · obtain ⟨n, -, rfl⟩ := List.mem_map.1 h; trivial
  · simp at h; subst h; trivial

theorem measurement_sound {K : Layout} {m : Measurement} : Sound (m.toVal K) ↔ TimeOk m := by
  obtain ⟨a, c, b, t⟩ := m
  have ha : Sound (ptrVal AppInfo.toVal a) := by cases a <;> simp [ptrVal, AppInfo.toVal, Sound, Sounds]
  have hb : Sound (ptrVal BbrSample.toVal b) := by cases b <;> simp [ptrVal, BbrSample.toVal, Sound, Sounds]
  have ht : Sound (ptrVal (TcpSample.toVal K) t) := by
    cases t with
    | none => trivial
    | some t => exact ints_sounds _ _
  simp only [Measurement.toVal, Sound, Sounds, ha, hb, ht, TimeOk]
  cases c <;> simp [ptrVal, ConnectionInfo.toVal, Sound, Sounds]

theorem slice_sound {α : Type} {f : α → Val} {l : List α} : Sound (sliceVal f l) ↔ ∀ a ∈ l, Sound (f a) := by
  unfold sliceVal
  split
  · rename_i h
    rw [List.isEmpty_iff] at h
    subst h
    simp [Sound]
  · simp [Sound, sounds_iff]

theorem slice_hasTy {α : Type} {f : α → Val} {t : Ty} {l : List α} (h : ∀ a ∈ l, HasTy t (f a)) : HasTy (.slice t) (sliceVal f l) := by
  unfold sliceVal
  split
  · trivial
  · intro v hv
    obtain ⟨a, ha, rfl⟩ := List.mem_map.1 hv
    exact h a ha

theorem nameValue_sound (x : NameValue) : Sound (nameValueVal x) := ⟨trivial, trivial, trivial⟩

theorem utc_writable {t : Int} : Stamp.Writable ⟨t, 0⟩ ↔ FourDigitYear t := by
  simp [Stamp.Writable, Stamp.wall]

theorem data_sound {K : Layout} {d : ArchivalData} (h : DataTyped K d) : Sound (d.toVal K) ↔ ∀ m ∈ d.clientMeasurements, TimeOk m := by
  simp only [ArchivalData.toVal, Sound, Sounds, slice_sound, measurement_sound, utc_writable, h.start, h.stop, nameValue_sound, true_and, and_true, implies_true]
  exact ⟨fun h' => h'.2, fun h' => ⟨fun m hm => (h.server m hm).2, h'⟩⟩

theorem data_hasTy {K : Layout} {d : ArchivalData} (h : DataTyped K d) : HasTy (archivalTy K) (d.toVal K) := by
  simp only [archivalTy, ArchivalData.toVal, HasTy, HasTys, field, optional, and_true, true_and]
  exact ⟨slice_hasTy fun m hm => measurement_hasTy (h.server m hm).1, slice_hasTy fun m hm => measurement_hasTy (h.client m hm),
    slice_hasTy fun _ _ => ⟨trivial, trivial, trivial⟩, slice_hasTy fun _ _ => ⟨trivial, trivial, trivial⟩⟩

theorem result_hasTy {K : Layout} {r : Result} (h : ResultTyped K r) : HasTy (resultTy K) (r.toVal K) := by
  obtain ⟨⟨p1, p2⟩, h2, h3, h4, h5⟩ := h
  simp only [resultTy, Result.toVal, HasTy, HasTys, field, optional, and_true, true_and, int64]
  refine ⟨inInt64_range p1, inInt64_range p2, ?_, ?_⟩
  · cases hu : r.upload with
    | none => trivial
    | some d => exact data_hasTy (h4 d hu)
  · cases hu : r.download with
    | none => trivial
    | some d => exact data_hasTy (h5 d hu)

theorem result_sound {K : Layout} {r : Result} (h : ResultTyped K r) : Sound (r.toVal K) ↔ ∀ m ∈ fromClient r, TimeOk m := by
  obtain ⟨-, h2, h3, h4, h5⟩ := h
  simp only [Result.toVal, Sound, Sounds, utc_writable, h2, h3, true_and, and_true, fromClient, List.mem_append, or_imp, forall_and]
  refine and_congr ?_ ?_
  · cases hu : r.upload with
    | none => simp [ptrVal, Sound]
    | some d => simpa [ptrVal, Sound] using data_sound (h4 d hu)
  · cases hu : r.download with
    | none => simp [ptrVal, Sound]
    | some d => simpa [ptrVal, Sound] using data_sound (h5 d hu)

/-! ## Reading back -/

mutual
/-- Types without floating point numbers. -/
def NoFloat : Ty → Prop
  | .float => False
  | .ptr t => NoFloat t
  | .slice t => NoFloat t
  | .struct fs => NoFloats fs
  | _ => True
def NoFloats : List TyField → Prop
  | [] => True
  | (_, _, t) :: fs => NoFloat t ∧ NoFloats fs
end

mutual
theorem expressible_of_sound {ft : FloatText} : ∀ (t : Ty) {v : Val}, NoFloat t → HasTy t v → Sound v → Expressible ft t v
  | .string, v, _, ht, _ => by cases v <;> simp [HasTy] at ht; trivial
  | .int _ _, v, _, ht, _ => by cases v <;> simp [HasTy] at ht; trivial
  | .float, _, h, _, _ => by simp [NoFloat] at h
  | .time, v, _, ht, hs => by cases v <;> simp [HasTy] at ht; exact hs
  | .ptr t, v, hf, ht, hs => by
    cases v <;> simp [HasTy] at ht
    · trivial
    · exact expressible_of_sound t hf ht hs
  | .slice t, v, hf, ht, hs => by
    cases v <;> simp [HasTy] at ht
    · trivial
    · intro v hv
      exact expressible_of_sound t hf (ht v hv) (sounds_iff.1 hs v hv)
  | .struct fs, v, hf, ht, hs => by
    cases v <;> simp [HasTy] at ht
    exact expressibles_of_sounds fs hf ht hs
theorem expressibles_of_sounds {ft : FloatText} : ∀ (fs : List TyField) {vs : List Val}, NoFloats fs → HasTys fs vs → Sounds vs → Expressibles ft fs vs
  | [], vs, _, ht, _ => by cases vs <;> simp [HasTys] at ht; trivial
  | (_, _, t) :: fs, vs, hf, ht, hs => by
    cases vs with
    | nil => simp [HasTys] at ht
    | cons v vs => exact ⟨expressible_of_sound t hf.1 ht.1 hs.1, expressibles_of_sounds fs hf.2 ht.2 hs.2⟩
end

theorem layout_noFloats (K : Layout) : NoFloats (K.tys ++ [field "ElapsedTime" int64]) := by
  unfold Layout.tys
  induction K.fields with
  | nil => exact ⟨trivial, trivial⟩
  | cons f l ih => exact ⟨trivial, ih⟩

theorem measurementTy_noFloat (K : Layout) : NoFloat (measurementTy K) :=
  ⟨⟨trivial, trivial, trivial⟩, ⟨trivial, trivial, trivial, trivial, trivial⟩, ⟨trivial, trivial, trivial, trivial, trivial, trivial⟩, layout_noFloats K, trivial⟩

theorem archivalTy_noFloat (K : Layout) : NoFloat (archivalTy K) :=
  ⟨trivial, trivial, trivial, measurementTy_noFloat K, measurementTy_noFloat K, ⟨trivial, trivial, trivial⟩, ⟨trivial, trivial, trivial⟩, trivial⟩

theorem resultTy_noFloat (K : Layout) : NoFloat (resultTy K) :=
  ⟨trivial, trivial, trivial, trivial, trivial, trivial, trivial, trivial, archivalTy_noFloat K, archivalTy_noFloat K, trivial⟩

/-- What is written is read back. -/
theorem unmarshal_marshal {t : Ty} {n : Nat} {v : Val} {ws : Bytes} (hc : Ty.Clear n t) (hn : n ≤ maxNesting) (hf : NoFloat t) (ht : HasTy t v) (hs : Sound v)
    (hw : ∀ c ∈ ws, isWs c = true) : ∃ text, marshal noFloats t v = some text ∧ unmarshal noFloats t (text ++ ws) = some (asRead t v) := by
  have hx := expressible_of_sound (ft := noFloats) t hf ht hs
  obtain ⟨j, hj⟩ := Option.isSome_iff_exists.1 ((toJson_isSome_iff (ft := noFloats) t ht).2 hs)
  refine ⟨j.text, by simp [marshal, hj], ?_⟩
  unfold unmarshal
  rw [parseJson_text (toJson_ok t hc hx hj) hn hw]
  exact fromJson_toJson t hc ht hx hj

theorem asReads_ints {e : Int} : ∀ {fs : List (Bytes × Bool × Nat)} {ns : List Int}, List.Forall₂ (fun f n => IntRange f.2.1 f.2.2 n) fs ns →
    asReads ((fs.map fun f => ((f.1, false, .int f.2.1 f.2.2) : TyField)) ++ [field "ElapsedTime" int64]) (ns.map .int ++ [.int e]) = ns.map .int ++ [.int e] := by
  intro fs ns h
  induction h with
  | nil => rfl
  | cons _ _ ih => exact congrArg _ ih

theorem asRead_measurement {K : Layout} {m : Measurement} (h : Typed K m) : asRead (measurementTy K) (m.toVal K) = (seen m).toVal K := by
  obtain ⟨a, c, b, t⟩ := m
  have ht := h.tcp
  simp only [measurementTy, Measurement.toVal, asRead, optional, asReads, seen, Val.struct.injEq, List.cons.injEq, and_true]
  refine ⟨?_, ?_, ?_, ?_⟩
  · cases a <;> rfl
  · cases c <;> rfl
  · cases b <;> rfl
  · cases t with
    | none => rfl
    | some t =>
      simp only [ptrVal, tcpInfoTy, TcpSample.toVal, asRead, Val.ref.injEq, Val.struct.injEq]
      exact asReads_ints (ht t rfl).1.fits

theorem slice_asRead {α : Type} {f : α → Val} {g : α → α} {t : Ty} {l : List α} (h : ∀ a ∈ l, asRead t (f a) = f (g a)) :
    asRead (.slice t) (sliceVal f l) = sliceVal f (l.map g) := by
  cases l with
  | nil => rfl
  | cons a l =>
    simp only [sliceVal, asRead, List.isEmpty_cons, Bool.false_eq_true, if_false, List.map_cons, Val.list.injEq, List.cons.injEq]
    refine ⟨h a (by simp), ?_⟩
    simp only [List.map_map, List.map_inj_left]
    intro b hb
    exact h b (by simp [hb])

theorem slice_optional {α : Type} {f : α → Val} {t : Ty} {name : Bytes} {fs : List TyField} {l : List α} {vs : List Val} :
    asReads ((name, true, t) :: fs) (sliceVal f l :: vs) = asRead t (sliceVal f l) :: asReads fs vs := by
  cases l with
  | nil => simp [sliceVal, asReads]
  | cons a l => simp [sliceVal, asReads]

theorem asRead_data {K : Layout} {d : ArchivalData} (h : DataTyped K d) : asRead (archivalTy K) (d.toVal K) = (seenData d).toVal K := by
  simp only [archivalTy, ArchivalData.toVal, asRead, optional, field, seenData]
  have e1 := slice_asRead (f := Measurement.toVal K) (g := seen) fun m hm => asRead_measurement (h.server m hm).1
  have e2 := slice_asRead (f := Measurement.toVal K) (g := seen) fun m hm => asRead_measurement (h.client m hm)
  have e3 := slice_asRead (f := nameValueVal) (g := seenPair) (t := nameValueTy) (l := d.clientMetadata) fun _ _ => rfl
  have e4 := slice_asRead (f := nameValueVal) (g := seenPair) (t := nameValueTy) (l := d.serverMetadata) fun _ _ => rfl
  congr 1
  simp only [asReads]
  rw [e1, e2]
  congr 5
  have := slice_optional (f := nameValueVal) (name := str "ClientMetadata") (t := .slice nameValueTy) (fs := [(str "ServerMetadata", true, .slice nameValueTy)])
    (l := d.clientMetadata) (vs := [sliceVal nameValueVal d.serverMetadata])
  simp only [asReads] at this
  rw [this, e3]
  congr 1
  have := slice_optional (f := nameValueVal) (name := str "ServerMetadata") (t := .slice nameValueTy) (fs := []) (l := d.serverMetadata) (vs := [])
  simp only [asReads] at this
  rw [this, e4]

theorem asRead_result {K : Layout} {r : Result} (h : ResultTyped K r) : asRead (resultTy K) (r.toVal K) = (seenResult r).toVal K := by
  simp only [resultTy, Result.toVal, asRead, optional, field, seenResult, asReads, int64]
  have key : ∀ o : Option ArchivalData, (∀ d, o = some d → DataTyped K d) → ∀ (n : Bytes) (fs : List TyField) (vs : List Val),
      asReads ((n, true, .ptr (archivalTy K)) :: fs) (ptrVal (ArchivalData.toVal K) o :: vs) = ptrVal (ArchivalData.toVal K) (o.map seenData) :: asReads fs vs := by
    intro o ho n fs vs
    cases o with
    | none => rfl
    | some d =>
      have := asRead_data (ho d rfl)
      simp only [asReads, ptrVal, asRead, Option.map_some, this]
  have k1 := key r.upload h.upload (str "Upload") [(str "Download", true, .ptr (archivalTy K))] [ptrVal (ArchivalData.toVal K) r.download]
  rw [key r.download h.download] at k1
  simp only [asReads] at k1
  rw [k1]

theorem measurementOfVal_toVal {K : Layout} {m : Measurement} (h : Typed K m) : measurementOfVal K (m.toVal K) = m := by
  obtain ⟨a, c, b, t⟩ := m
  have ht := h.tcp
  simp only [Measurement.toVal, measurementOfVal, Measurement.mk.injEq]
  refine ⟨?_, ?_, ?_, ?_⟩
  · cases a <;> rfl
  · cases c <;> rfl
  · cases b with
    | none => rfl
    | some b => simp [ptrVal, BbrSample.toVal, bbrOfVal]
  · cases t with
    | none => rfl
    | some t =>
      simp only [ptrVal, TcpSample.toVal, tcpOfVal, List.dropLast_concat, List.map_map, List.getLast?_concat, Option.map_some, Option.getD_some, Val.toInt]
      have : (K.ints t.info).map (Val.toInt ∘ Val.int) = K.ints t.info := by
        simp [Function.comp_def, Val.toInt]
      rw [this, (ht t rfl).1.same]

/-! ## What is read fits the types -/

theorem range_inInt64 {n : Int} (h : IntRange true 64 n) : InInt64 n := by
  simp only [IntRange, if_true] at h
  unfold InInt64
  omega

theorem hasTys_ints : ∀ {fs : List (Bytes × Bool × Nat)} {vs : List Val},
    HasTys ((fs.map fun f => ((f.1, false, .int f.2.1 f.2.2) : TyField)) ++ [field "ElapsedTime" int64]) vs →
    ∃ ns e, vs = ns.map .int ++ [.int e] ∧ List.Forall₂ (fun f n => IntRange f.2.1 f.2.2 n) fs ns ∧ InInt64 e := by
  intro fs
  induction fs with
  | nil =>
    intro vs h
    cases vs with
    | nil => simp [HasTys, field] at h
    | cons v vs =>
      simp only [List.map_nil, List.nil_append, field, HasTys] at h
      obtain ⟨h1, h2⟩ := h
      cases vs with
      | cons w vs => simp [HasTys] at h2
      | nil =>
        cases v <;> simp [HasTy, int64] at h1
        exact ⟨[], _, rfl, .nil, range_inInt64 h1⟩
  | cons f fs ih =>
    intro vs h
    cases vs with
    | nil => simp [HasTys] at h
    | cons v vs =>
      simp only [List.map_cons, List.cons_append, HasTys] at h
      obtain ⟨h1, h2⟩ := h
      obtain ⟨ns, e, rfl, hf, he⟩ := ih h2
      cases v <;> simp [HasTy] at h1
      rename_i n
      exact ⟨n :: ns, e, rfl, .cons h1 hf, he⟩

/-- The four parts of a measurement value. -/
theorem measurement_shape {K : Layout} {v : Val} (h : HasTy (measurementTy K) v) : ∃ a c b t, v = .struct [a, c, b, t] ∧ HasTy (.ptr appInfoTy) a ∧
    HasTy (.ptr connInfoTy) c ∧ HasTy (.ptr bbrInfoTy) b ∧ HasTy (.ptr (tcpInfoTy K)) t := by
  cases v <;> simp only [measurementTy, HasTy] at h
  rename_i vs
  rcases vs with _ | ⟨a, _ | ⟨c, _ | ⟨b, _ | ⟨t, _ | ⟨x, vs⟩⟩⟩⟩⟩ <;> simp only [HasTys, optional, and_false] at h
  exact ⟨a, c, b, t, rfl, h.1, h.2.1, h.2.2.1, h.2.2.2.1⟩

theorem conn_shape {c : Val} (h : HasTy (.ptr connInfoTy) c) : c = .nil ∨ ∃ a s u t, c = .ref (.struct [.str a, .str s, .str u, .time t]) := by
  cases c <;> simp only [HasTy] at h
  · exact .inl rfl
  · rename_i v
    cases v <;> simp only [connInfoTy, HasTy] at h
    rename_i vs
    rcases vs with _ | ⟨a, _ | ⟨c, _ | ⟨b, _ | ⟨t, _ | ⟨x, vs⟩⟩⟩⟩⟩ <;> simp only [HasTys, optional, field, and_false] at h
    obtain ⟨h1, h2, h3, h4, -⟩ := h
    cases a <;> simp only [HasTy] at h1
    cases c <;> simp only [HasTy] at h2
    cases b <;> simp only [HasTy] at h3
    cases t <;> simp only [HasTy] at h4
    exact .inr ⟨_, _, _, _, rfl⟩

theorem measurementOfVal_typed {K : Layout} (hK : LayoutOk K) {v : Val} (h : HasTy (measurementTy K) v) : Typed K (measurementOfVal K v) := by
  obtain ⟨a, c, b, t, rfl, ha, hc, hb, ht⟩ := measurement_shape h
  constructor
  · intro x hx
    simp only [measurementOfVal] at hx
    unfold appOfVal at hx
    split at hx
    · cases hx
      simp only [HasTy, appInfoTy, HasTys, field, int64] at ha
      exact ⟨range_inInt64 ha.1, range_inInt64 ha.2.1⟩
    · cases hx
  · intro x hx
    simp only [measurementOfVal] at hx
    unfold bbrOfVal at hx
    split at hx
    · cases hx
      simp only [HasTy, bbrInfoTy, HasTys, field, int64] at hb
      exact range_inInt64 hb.2.2.2.2.1
    · cases hx
  · intro x hx
    simp only [measurementOfVal] at hx
    unfold tcpOfVal at hx
    split at hx
    · rename_i vs
      cases hx
      simp only [HasTy, tcpInfoTy] at ht
      obtain ⟨ns, e, rfl, hf, he⟩ := hasTys_ints ht
      have h1 : ns.map (Val.toInt ∘ Val.int) = ns := by simp [Function.comp_def, Val.toInt]
      simp only [List.dropLast_concat, List.map_map, List.getLast?_concat, Option.map_some, Option.getD_some, Val.toInt, h1]
      refine ⟨⟨?_, ?_⟩, he⟩
      · rw [hK.made ns hf]; exact hf
      · rw [hK.made ns hf]
    · cases hx

theorem measurementOfVal_times {K : Layout} {P : Stamp → Prop} {v : Val} (h : HasTy (measurementTy K) v) (hp : AllTimes P v) :
    ∀ c, (measurementOfVal K v).conn = some c → P ⟨c.startTime, c.startZone⟩ := by
  obtain ⟨a, c, b, t, rfl, ha, hc, hb, ht⟩ := measurement_shape h
  intro x hx
  simp only [measurementOfVal] at hx
  rcases conn_shape hc with rfl | ⟨_, _, _, t, rfl⟩
  · cases hx
  · cases hx
    simp only [AllTimes, AllTimesL] at hp
    exact hp.2.1.2.2.2.1

theorem decode_val {K : Layout} (hK : LayoutOk K) {body : Bytes} {m : Measurement} (h : decodeMeasurement K body = some m) :
    ∃ v, unmarshal noFloats (measurementTy K) body = some v ∧ HasTy (measurementTy K) v ∧ m = measurementOfVal K v := by
  unfold decodeMeasurement at h
  rw [Option.map_eq_some_iff] at h
  obtain ⟨v, hv, rfl⟩ := h
  refine ⟨v, hv, ?_, rfl⟩
  unfold unmarshal at hv
  split at hv
  · cases hv
  · rename_i j hj
    have hc := measurementTy_clear hK 0
    exact (fromJson_fits _ hc (zeroVal_hasTy _ hc) (parseJson_noPlus hj)).2 v hv

end Verif.Ndt7
