import Verif.Spec.SchemaLoad
import Verif.Props.Schema
import Verif.Props.Wire

/-!
# C63: the generated schema takes the texts that the server writes
-/

namespace Verif.Props
open Verif.Go Verif.Data Verif.Spec Verif.Ndt7
open Verif.Ndt5 (TcpInfo NameValue)

mutual
/-- The type of `Go/Marshal.lean` as the generator sees it: `uint64` has no column type. -/
def goType : Ty → GoType
  | .string => .string
  | .int signed bits => if signed = true ∨ bits < 64 then .integer else .unsupported
  | .float => .float
  | .time => .timestamp
  | .ptr t => .pointer (goType t)
  | .slice t => .slice (goType t)
  | .struct fs => .struct (goFields fs)
def goFields : List TyField → List (Bytes × GoType)
  | [] => []
  | (n, _, t) :: fs => (n, goType t) :: goFields fs
end

theorem takes_required {n : Bytes} {t : ColType} {r : Bool} {cs : List Column} {j : Json} (h : Takes (.mk n t false r cs) j) (hj : j ≠ .null) :
    Takes (.mk n t false true cs) j := by
  cases h with
  | null => exact absurd rfl hj
  | text => exact .text ..
  | int _ _ _ i h1 h2 => exact .int _ _ _ i h1 h2
  | float => exact .float ..
  | time _ _ _ _ h => exact .time _ _ _ _ h
  | record _ _ _ _ col h1 h2 h3 => exact .record _ _ _ _ col h1 h2 h3

private theorem fixedElems_eq (vs : List Json) : fixedElems vs = vs.map Json.fixed := by
  induction vs with
  | nil => simp [fixedElems]
  | cons v vs ih => simp [fixedElems, ih]

private theorem name_removed (c : Column) : Column.name (removeRequired1 c) = Column.name c := by
  cases c; rfl

private theorem plain_of_infer {n : Bytes} {t : Ty} {c : Column} (h : inferField n (.slice (goType t)) = some c) : Ty.Plain t := by
  cases t <;> simp only [Ty.Plain]
  · rename_i t; simp [goType, inferField] at h
  · rename_i t; simp [goType, inferField] at h

private theorem mapM_mem {α β : Type} {f : α → Option β} : ∀ {l : List α} {bs : List β}, l.mapM f = some bs → ∀ {b : β}, b ∈ bs → ∃ a ∈ l, f a = some b := by
  intro l
  induction l with
  | nil => intro bs h b hb; simp at h; subst h; cases hb
  | cons a l ih =>
    intro bs h b hb
    rw [List.mapM_cons] at h
    cases h1 : f a with
    | none => simp [h1] at h
    | some c =>
      cases h2 : l.mapM f with
      | none => simp [h1, h2] at h
      | some cs =>
        simp [h1, h2] at h
        subst h
        rcases List.mem_cons.1 hb with rfl | hb
        · exact ⟨a, by simp, h1⟩
        · obtain ⟨x, hx, hf⟩ := ih h2 hb
          exact ⟨x, by simp [hx], hf⟩

mutual
theorem takes_of_toJson {ft : FloatText} : ∀ (t : Ty) {d : Nat} {v : Val} {j : Json} {n : Bytes} {c : Column}, Ty.Clear d t → HasTy t v → toJson ft t v = some j →
    inferField n (goType t) = some c → Takes (removeRequired1 c) j.fixed
  | .string, d, v, j, n, c, hc, ht, hj, hi => by
    cases v <;> simp [HasTy] at ht
    simp [toJson] at hj; subst hj
    simp [goType, inferField] at hi; subst hi
    simp only [Json.fixed, removeRequired1]; exact .text ..
  | .int s b, d, v, j, n, c, hc, ht, hj, hi => by
    cases v <;> simp [HasTy] at ht
    rename_i i
    simp [toJson] at hj; subst hj
    simp only [goType] at hi
    split at hi
    · rename_i hsb
      simp [inferField] at hi; subst hi
      simp only [Json.fixed, removeRequired1]
      simp only [Ty.Clear] at hc
      have hle : ∀ k : Nat, k ≤ 63 → (2 : Int) ^ k ≤ 2 ^ 63 := fun k hk => by
        have := Nat.pow_le_pow_right (show 0 < 2 by decide) hk
        exact_mod_cast this
      unfold IntRange at ht
      cases s with
      | true =>
        simp only [if_true] at ht
        have := hle (b - 1) (by omega)
        exact .int _ _ _ _ (by omega) (by omega)
      | false =>
        simp at ht hsb
        have := hle b (by omega)
        exact .int _ _ _ _ (by omega) (by omega)
    · simp [inferField] at hi
  | .float, d, v, j, n, c, hc, ht, hj, hi => by
    cases v <;> simp [HasTy] at ht
    rename_i x
    cases x <;> simp [toJson] at hj
    subst hj
    simp [goType, inferField] at hi; subst hi
    simp only [Json.fixed, removeRequired1]; exact .float ..
  | .time, d, v, j, n, c, hc, ht, hj, hi => by
    cases v <;> simp [HasTy] at ht
    rename_i t
    simp only [toJson] at hj
    split at hj
    · rename_i hw
      cases hj
      simp [goType, inferField] at hi; subst hi
      simp only [Json.fixed, removeRequired1]
      rw [toValid_ascii (formatRFC3339_ascii t)]
      exact .time _ _ _ _ ⟨_, _, parseRFC3339_iff.1 (parseRFC3339_format hw)⟩
    · cases hj
  | .ptr t, d, v, j, n, c, hc, ht, hj, hi => by
    have hp : ∃ fs, t = .struct fs := by
      cases t with
      | struct fs => exact ⟨fs, rfl⟩
      | int s b => simp only [goType] at hi; split at hi <;> simp [inferField] at hi
      | _ => simp [goType, inferField] at hi
    obtain ⟨fs, rfl⟩ := hp
    simp [goType, inferField] at hi
    obtain ⟨cs, h1, rfl⟩ := hi
    cases v <;> simp [HasTy] at ht
    · simp [toJson] at hj; subst hj
      simp only [Json.fixed, removeRequired1]; exact .null ..
    · rename_i v
      simp only [toJson] at hj
      simp only [Ty.Clear] at hc
      exact takes_of_toJson (.struct fs) (n := n) (c := .mk n .record false true cs) hc.2 ht hj (by simp [goType, inferField, h1])
  | .slice t, d, v, j, n, c, hc, ht, hj, hi => by
    have hplain := plain_of_infer hi
    have hel : ∃ ct cs, removeRequired1 c = .mk n ct true false cs ∧ ∃ c', inferField n (goType t) = some c' ∧ removeRequired1 c' = .mk n ct false false cs := by
      cases t <;> simp only [goType] at hi ⊢ <;> try simp only [Ty.Plain] at hplain
      · simp [inferField] at hi; subst hi; exact ⟨_, _, rfl, _, by simp only [inferField]; rfl, rfl⟩
      · split at hi
        · rename_i h; simp [inferField] at hi; subst hi; exact ⟨_, _, rfl, _, by rw [if_pos h]; simp only [inferField]; rfl, rfl⟩
        · simp [inferField] at hi
      · simp [inferField] at hi; subst hi; exact ⟨_, _, rfl, _, by simp only [inferField]; rfl, rfl⟩
      · simp [inferField] at hi; subst hi; exact ⟨_, _, rfl, _, by simp only [inferField]; rfl, rfl⟩
      · simp [inferField] at hi
        obtain ⟨cs, h1, rfl⟩ := hi
        exact ⟨_, _, rfl, _, by simp only [inferField, h1]; rfl, rfl⟩
    obtain ⟨ct, cs, h1, c', h2, h3⟩ := hel
    rw [h1]
    cases v <;> simp [HasTy] at ht
    · simp [toJson] at hj; subst hj
      simp only [Json.fixed]; exact .null ..
    · rename_i vs
      simp only [toJson] at hj
      cases hm : vs.mapM (toJson ft t) with
      | none => rw [hm] at hj; simp at hj
      | some js =>
        rw [hm] at hj
        simp at hj; subst hj
        cases d with
        | zero => simp [Ty.Clear] at hc
        | succ d =>
          simp only [Ty.Clear] at hc
          simp only [Json.fixed, fixedElems_eq]
          refine .array _ _ _ _ _ ?_
          intro w hw
          obtain ⟨j, hjm, rfl⟩ := List.mem_map.1 hw
          obtain ⟨v, hv, hvj⟩ : ∃ v ∈ vs, toJson ft t v = some j := by
            exact mapM_mem hm hjm
          have := takes_of_toJson t (n := n) hc (ht v hv) hvj h2
          rw [h3] at this
          exact takes_required this (toJson_plain hplain hvj)
  | .struct fs, d, v, j, n, c, hc, ht, hj, hi => by
    cases v <;> simp [HasTy] at ht
    rename_i vs
    simp only [toJson] at hj
    cases hm : toMembers ft fs vs with
    | none => rw [hm] at hj; simp at hj
    | some kvs =>
      rw [hm] at hj
      simp at hj; subst hj
      simp [goType, inferField] at hi
      obtain ⟨cs, h1, rfl⟩ := hi
      cases d with
      | zero => simp [Ty.Clear] at hc
      | succ d =>
        simp only [Ty.Clear] at hc
        simp only [Json.fixed, removeRequired1]
        have key : ∀ kv, ∃ c, kv ∈ fixedMembers kvs → c ∈ removeRequired cs ∧ Column.name c = kv.1 ∧ Takes c kv.2 := by
          intro kv
          by_cases hm' : kv ∈ fixedMembers kvs
          · obtain ⟨c, h2⟩ := takes_of_toMembers fs hc.2 ht hm h1 kv hm'
            exact ⟨c, fun _ => h2⟩
          · exact ⟨.mk [] .string false false [], fun h => absurd h hm'⟩
        obtain ⟨col, hcol⟩ := Classical.axiomOfChoice key
        refine .record _ _ _ _ col (fun kv h => ⟨(hcol kv h).1, (hcol kv h).2.1⟩) (fun kv h => (hcol kv h).2.2) ?_
        intro c hc hr
        have := not_required hc
        cases c
        simp only [colRequired] at this
        simp only [Column.required] at hr
        rw [this] at hr
        cases hr

theorem takes_of_toMembers {ft : FloatText} : ∀ (fs : List TyField) {d : Nat} {vs : List Val} {kvs : List (Bytes × Json)} {cs : List Column}, Fields.Clear d fs → HasTys fs vs →
    toMembers ft fs vs = some kvs → inferFields (goFields fs) = some cs → ∀ kv ∈ fixedMembers kvs, ∃ c, c ∈ removeRequired cs ∧ Column.name c = kv.1 ∧ Takes c kv.2
  | [], d, vs, kvs, cs, hc, ht, hj, hi => by
    cases vs <;> simp [HasTys] at ht
    simp [toMembers] at hj; subst hj
    simp [fixedMembers]
  | (n, o, t) :: fs, d, vs, kvs, cs, hc, ht, hj, hi => by
    cases vs with
    | nil => simp [HasTys] at ht
    | cons v vs =>
      simp only [HasTys] at ht
      simp only [Fields.Clear] at hc
      simp only [goFields] at hi
      obtain ⟨c, cs', h1, h2, rfl⟩ := inferFields_cons hi
      simp only [toMembers] at hj
      split at hj
      · intro kv hkv
        obtain ⟨c, h3, h4⟩ := takes_of_toMembers fs hc.2.2 ht.2 hj h2 kv hkv
        exact ⟨c, by simp only [removeRequired]; exact List.mem_cons_of_mem _ h3, h4⟩
      · split at hj
        · rename_i j rest h3 h4
          cases hj
          intro kv hkv
          simp only [fixedMembers] at hkv
          rcases List.mem_cons.1 hkv with rfl | hkv
          · refine ⟨removeRequired1 c, by simp [removeRequired], ?_, takes_of_toJson t hc.2.1 ht.1 h3 h1⟩
            rw [name_removed, toValid_ascii hc.1]
            have := infer_name h1
            cases c
            simpa [Column.name, colName] using this
          · obtain ⟨c, h5, h6⟩ := takes_of_toMembers fs hc.2.2 ht.2 h4 h2 kv hkv
            exact ⟨c, by simp only [removeRequired]; exact List.mem_cons_of_mem _ h5, h6⟩
        · cases hj
end

/-- The fields of `tcp.LinuxTCPInfo` for the generator. -/
def tcpColumns (K : Layout) : List (Bytes × GoType) := K.fields.map fun f => (f.1, if f.2.1 = true ∨ f.2.2 < 64 then .integer else .unsupported)

/-- The fields of `inetdiag.BBRInfo` for the generator. -/
def bbrColumns : List (Bytes × GoType) := [(str "BW", .integer), (str "MinRTT", .integer), (str "PacingGain", .integer), (str "CwndGain", .integer)]

theorem goFields_tys (l : List (Bytes × Bool × Nat)) (fs : List TyField) : goFields (l.map (fun f => ((f.1, false, .int f.2.1 f.2.2) : TyField)) ++ fs) =
    l.map (fun f => (f.1, if f.2.1 = true ∨ f.2.2 < 64 then .integer else .unsupported)) ++ goFields fs := by
  induction l with
  | nil => rfl
  | cons f l ih => simp only [List.map_cons, List.cons_append, goFields, ih, goType]

private theorem goType_result (K : Layout) : goType (resultTy K) = ndt7Result (tcpColumns K) bbrColumns := by
  simp [resultTy, archivalTy, measurementTy, appInfoTy, connInfoTy, bbrInfoTy, tcpInfoTy, nameValueTy, goType, goFields, Ndt7.field, Ndt7.optional, Layout.tys, goFields_tys,
    ndt7Result, resultHead, archival7, measurement, appInfo, connectionInfo, nameValue, tcpColumns, bbrColumns, int64, uint32]

/-- C63 for ndt7, in full: every record that the server writes is taken by the table with the generated schema. -/
theorem C63_written_records_load {K : Layout} (hK : LayoutOk K) {f7 f5 : Bytes} {evs : List (Event genSig)} {x : GenExit} {schema : List Column} {a : Outcome (Option Err)}
    (h : Prog.Runs (generateSchemas (tcpColumns K) bbrColumns f7 f5) evs x) (hm : .call (.writeFile f7 schema) a ∈ evs) {r : Result} (ht : ResultTyped K r) {text : Bytes}
    (hw : encodeResult K r = some text) : TakesText schema text := by
  obtain ⟨sch, h1, rfl⟩ := written _ _ _ _ _ _ h f7 schema a hm
  rw [← goType_result] at h1
  unfold encodeResult marshal at hw
  cases hj : toJson noFloats (resultTy K) (r.toVal K) with
  | none => rw [hj] at hw; cases hw
  | some j =>
    rw [hj] at hw
    simp at hw
    subst hw
    have hs := (toJson_isSome_iff (ft := noFloats) _ (result_hasTy ht)).1 (by rw [hj]; rfl)
    have hx := expressible_of_sound (ft := noFloats) _ (resultTy_noFloat K) (result_hasTy ht) hs
    refine ⟨j.fixed, ?_, ?_⟩
    · have := parseJson_text (ws := []) (toJson_ok _ (resultTy_clear hK 0) hx hj) (by decide) (by simp)
      exact parseJson_iff.1 (by simpa using this)
    · have hi : inferField [] (goType (resultTy K)) = some (.mk [] .record false true sch) := by
        simp only [resultTy, goType, inferSchema] at h1 ⊢
        simp [inferField, h1]
      exact takes_required (takes_of_toJson _ (resultTy_clear hK 0) (result_hasTy ht) hj hi) (toJson_plain (t := resultTy K) trivial hj)

/-- The generator runs to its end for the example layout, and the example records are written. -/
example : (∃ s7 s5, Prog.Runs (generateSchemas (tcpColumns exLayout) bbrColumns (str "7") (str "5")) [.call (.writeFile (str "7") s7) (.ok none), .call (.writeFile (str "5") s5) (.ok none)] .ok) ∧
    (encodeResult exLayout exRecord).isSome = true := by
  have hs : inferSchema (ndt7Result (tcpColumns exLayout) bbrColumns) ≠ none := by
    simp [ndt7Result, inferSchema, resultHead, archival7, measurement, tcpColumns, exLayout, bbrColumns, inferFields, inferField, appInfo, connectionInfo, nameValue]
  obtain ⟨sch, hs⟩ := Option.ne_none_iff_exists'.1 hs
  refine ⟨⟨removeRequired sch, removeRequired sch, ?_⟩, by decide +kernel⟩
  unfold generateSchemas generate
  rw [hs]
  exact .call (S := genSig) _ _ (.ok none) _ _ (.call (S := genSig) _ _ (.ok none) _ _ (.ret _))

end Verif.Props
