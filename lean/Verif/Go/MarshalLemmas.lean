import Verif.Spec.Wire
import Verif.Go.NamesLemmas
import Verif.Go.JsonParse
import Verif.Go.TimeTextLemmas

/-!
# Lemmas about `json.Marshal` and `json.Unmarshal`
-/

namespace Verif.Go
open Verif.Spec

/-! ## Integers -/

theorem readInt_itoa {s : Bool} {b : Nat} {n : Int} (hb : 1 ≤ b ∧ b ≤ 64) (h : IntRange s b n) : readInt s b (itoa n) = some n := by
  unfold readInt
  cases s with
  | true =>
    simp only [IntRange, if_true] at h
    have hp : (2 : Int) ^ (b - 1) ≤ 2 ^ 63 := by
      have := Nat.pow_le_pow_right (n := 2) (by omega) (show b - 1 ≤ 63 by omega)
      exact_mod_cast this
    have : InInt64 n := ⟨by omega, by omega⟩
    simp only [if_true, atoi_itoa this]
    rw [if_pos]
    simpa [IntRange] using h
  | false =>
    have h0 := h
    simp only [IntRange] at h
    simp only [Bool.false_eq_true, if_false] at h
    obtain ⟨m, rfl⟩ : ∃ m : Nat, n = m := ⟨n.toNat, by omega⟩
    have hp : (2 : Nat) ^ b ≤ 2 ^ 64 := Nat.pow_le_pow_right (by omega) hb.2
    have hm : m < 2 ^ 64 := by
      have : m < 2 ^ b := by exact_mod_cast h.2
      omega
    simp only [Bool.false_eq_true, if_false]
    change (match (match parseNat (natDec m) with
      | some n => if n < 2 ^ 64 then some (n : Int) else none
      | none => none) with
      | some n => if IntRange false b n then some n else none
      | none => none) = _
    rw [parseNat_natDec]
    simp only [if_pos hm, if_pos h0]

theorem readInt_iff {s : Bool} {b : Nat} {raw : Bytes} {n : Int} (hb : 1 ≤ b ∧ b ≤ 64) (hp : raw.head? ≠ some 43) :
    readInt s b raw = some n ↔ IntLiteral s raw n ∧ IntRange s b n := by
  unfold readInt IntLiteral
  simp only [← parseNat_iff]
  cases s with
  | true =>
    have hpow : (2 : Int) ^ (b - 1) ≤ 2 ^ 63 := by
      have := Nat.pow_le_pow_right (n := 2) (by omega) (show b - 1 ≤ 63 by omega)
      exact_mod_cast this
    have hs : signedVal raw = some n ↔ (∃ m : Nat, parseNat raw = some m ∧ n = m) ∨ ∃ rest, ∃ m : Nat, raw = 45 :: rest ∧ parseNat rest = some m ∧ n = -(m : Int) := by
      cases raw with
      | nil => simp [signedVal, parseNat]
      | cons c rest =>
        have hc : c ≠ 43 := by simpa using hp
        by_cases hm : c = 45
        · subst hm
          have h45 : parseNat (45 :: rest) = none := by simp [parseNat, digitStep]
          simp only [signedVal, h45]
          simp
          constructor
          · rintro ⟨m, h1, h2⟩; exact ⟨m, h1, h2.symm⟩
          · rintro ⟨m, h1, h2⟩; exact ⟨m, h1, h2.symm⟩
        · simp only [signedVal, if_neg hc, if_neg hm]
          simp [hm]
          constructor
          · rintro ⟨m, h1, h2⟩; exact ⟨m, h1, h2.symm⟩
          · rintro ⟨m, h1, h2⟩; exact ⟨m, h1, h2.symm⟩
    simp only [if_true, atoi, true_and]
    rw [← hs]
    cases signedVal raw with
    | none => simp
    | some x =>
      simp only
      constructor
      · intro h
        split at h
        · rename_i hx
          split at hx
          · split at h
            · cases hx; cases h; exact ⟨rfl, by assumption⟩
            · cases h
          · cases hx
        · cases h
      · rintro ⟨h1, h2⟩
        cases h1
        have : InInt64 n := by
          simp only [IntRange, if_true] at h2
          exact ⟨by omega, by omega⟩
        rw [if_pos this]
        simp only
        rw [if_pos h2]
  | false =>
    simp only [Bool.false_eq_true, if_false, false_and, or_false]
    have hpow : (2 : Nat) ^ b ≤ 2 ^ 64 := Nat.pow_le_pow_right (by omega) hb.2
    cases parseNat raw with
    | none => simp
    | some m =>
      simp only [Option.some.injEq]
      constructor
      · intro h
        split at h
        · rename_i x hx
          split at hx
          · cases hx
            split at h
            · cases h; exact ⟨⟨m, rfl, rfl⟩, by assumption⟩
            · cases h
          · cases hx
        · cases h
      · rintro ⟨⟨_, rfl, rfl⟩, h2⟩
        have : m < 2 ^ 64 := by
          simp only [IntRange, Bool.false_eq_true, if_false] at h2
          have : m < 2 ^ b := by exact_mod_cast h2.2
          omega
        simp only [if_pos this, if_pos h2]

/-! ## Zero values -/

mutual
theorem zeroVal_hasTy : ∀ (t : Ty) {n : Nat}, Ty.Clear n t → HasTy t (zeroVal t)
  | .string, _, _ => trivial
  | .int s b, n, h => by
    simp only [zeroVal, HasTy, IntRange]
    have h1 : (0 : Int) < 2 ^ b := Int.pow_pos (by omega)
    have h2 : (0 : Int) < 2 ^ (b - 1) := Int.pow_pos (by omega)
    cases s
    · simp [h1]
    · simp only [if_true]; omega
  | .float, _, _ => trivial
  | .time, _, _ => trivial
  | .ptr _, _, _ => trivial
  | .slice _, _, _ => trivial
  | .struct fs, n, h => by
    cases n with
    | zero => simp [Ty.Clear] at h
    | succ n =>
      simp only [Ty.Clear] at h
      exact zeroVals_hasTys fs h.2
theorem zeroVals_hasTys : ∀ (fs : List TyField) {n : Nat}, Fields.Clear n fs → HasTys fs (zeroVals fs)
  | [], _, _ => trivial
  | (_, _, t) :: fs, n, h => by
    simp only [Fields.Clear] at h
    exact ⟨zeroVal_hasTy t h.2.1, zeroVals_hasTys fs h.2.2⟩
end

/-! ## Lists -/

theorem mapM_fixed {f : Val → Option Json} {g : Json → Option Val} {h : Val → Val} {vs : List Val} {js : List Json}
    (H : ∀ v ∈ vs, ∀ j, f v = some j → g j.fixed = some (h v)) (hm : vs.mapM f = some js) : (fixedElems js).mapM g = some (vs.map h) := by
  induction vs generalizing js with
  | nil => simp at hm; subst hm; rfl
  | cons v vs ih =>
    rw [List.mapM_cons] at hm
    cases hv : f v with
    | none => simp [hv] at hm
    | some j =>
      cases hr : vs.mapM f with
      | none => simp [hv, hr] at hm
      | some js' =>
        simp [hv, hr] at hm
        subst hm
        have h1 := H v (by simp) j hv
        have h2 := ih (fun w hw => H w (by simp [hw])) hr
        simp [fixedElems, List.mapM_cons, h1, h2]

theorem mapM_ok {f : Val → Option Json} {vs : List Val} {js : List Json} {n : Nat}
    (H : ∀ v ∈ vs, ∀ j, f v = some j → j.Ok n) (hm : vs.mapM f = some js) : okElems n js := by
  induction vs generalizing js with
  | nil => simp at hm; subst hm; trivial
  | cons v vs ih =>
    rw [List.mapM_cons] at hm
    cases hv : f v with
    | none => simp [hv] at hm
    | some j =>
      cases hr : vs.mapM f with
      | none => simp [hv, hr] at hm
      | some js' =>
        simp [hv, hr] at hm
        subst hm
        exact ⟨H v (by simp) j hv, ih (fun w hw => H w (by simp [hw])) hr⟩

theorem mapM_isSome_iff {α β : Type} {f : α → Option β} {l : List α} : (l.mapM f).isSome = true ↔ ∀ x ∈ l, (f x).isSome = true := by
  induction l with
  | nil => simp
  | cons x l ih =>
    rw [List.mapM_cons]
    cases hx : f x with
    | none => simp [hx]
    | some y =>
      cases hl : l.mapM f with
      | none => simp [hx, hl] at ih ⊢; exact ih
      | some ys => simp [hx, hl] at ih ⊢; exact ih

/-! ## The encoder produces well-formed JSON, and succeeds exactly on what can be expressed -/

mutual
theorem toJson_ok {ft : FloatText} : ∀ (t : Ty) {n : Nat} {v : Val} {j : Json}, Ty.Clear n t → Expressible ft t v → toJson ft t v = some j → j.Ok n
  | .string, n, v, j, _, _, h => by
    cases v <;> simp [toJson] at h
    subst h; cases n <;> trivial
  | .int _ _, n, v, j, _, _, h => by
    cases v <;> simp [toJson] at h
    subst h
    cases n <;> exact numText_itoa _
  | .float, n, v, j, _, hx, h => by
    cases v <;> simp [toJson] at h
    rename_i x
    obtain ⟨q, rfl, h1, -⟩ := hx
    simp at h
    subst h
    cases n <;> exact numText_iff.2 h1
  | .time, n, v, j, _, _, h => by
    cases v <;> simp [toJson] at h
    obtain ⟨-, h⟩ := h
    subst h; cases n <;> trivial
  | .ptr t, n, v, j, hc, hx, h => by
    simp only [Ty.Clear] at hc
    cases v <;> simp [toJson] at h
    · subst h; cases n <;> trivial
    · exact toJson_ok t hc.2 hx h
  | .slice t, n, v, j, hc, hx, h => by
    cases n with
    | zero => simp [Ty.Clear] at hc
    | succ n =>
      simp only [Ty.Clear] at hc
      cases v <;> simp [toJson] at h
      · subst h; trivial
      · rename_i vs
        obtain ⟨js, h1, rfl⟩ := h
        exact mapM_ok (fun v hv j hj => toJson_ok t hc (hx v hv) hj) h1
  | .struct fs, n, v, j, hc, hx, h => by
    cases n with
    | zero => simp [Ty.Clear] at hc
    | succ n =>
      simp only [Ty.Clear] at hc
      cases v <;> simp [toJson] at h
      rename_i vs
      obtain ⟨kvs, h1, rfl⟩ := h
      exact toMembers_ok fs hc.2 hx h1
theorem toMembers_ok {ft : FloatText} : ∀ (fs : List TyField) {n : Nat} {vs : List Val} {kvs : List (Bytes × Json)}, Fields.Clear n fs →
    Expressibles ft fs vs → toMembers ft fs vs = some kvs → okMembers n kvs
  | [], n, vs, kvs, _, _, h => by
    cases vs <;> simp [toMembers] at h
    subst h; trivial
  | (name, opt, t) :: fs, n, vs, kvs, hc, hx, h => by
    simp only [Fields.Clear] at hc
    cases vs with
    | nil => simp [toMembers] at h
    | cons v vs =>
      simp only [toMembers] at h
      split at h
      · exact toMembers_ok fs hc.2.2 hx.2 h
      · split at h
        · rename_i j rest hj hr
          cases h
          exact ⟨toJson_ok t hc.2.1 hx.1 hj, toMembers_ok fs hc.2.2 hx.2 hr⟩
        · cases h
end

mutual
theorem toJson_isSome {ft : FloatText} : ∀ (t : Ty) {v : Val}, HasTy t v → Expressible ft t v → (toJson ft t v).isSome = true
  | .string, v, ht, _ => by cases v <;> simp [HasTy] at ht; rfl
  | .int _ _, v, ht, _ => by cases v <;> simp [HasTy] at ht; rfl
  | .float, v, ht, hx => by
    cases v <;> simp [HasTy] at ht
    obtain ⟨q, rfl, -⟩ := hx
    rfl
  | .time, v, ht, hx => by
    cases v <;> simp [HasTy] at ht
    simp only [Expressible] at hx
    simp [toJson, hx]
  | .ptr t, v, ht, hx => by
    cases v <;> simp [HasTy] at ht
    · rfl
    · exact toJson_isSome t ht hx
  | .slice t, v, ht, hx => by
    cases v <;> simp [HasTy] at ht
    · rfl
    · simp only [toJson, Option.isSome_map]
      exact mapM_isSome_iff.2 fun v hv => toJson_isSome t (ht v hv) (hx v hv)
  | .struct fs, v, ht, hx => by
    cases v <;> simp [HasTy] at ht
    simp only [toJson, Option.isSome_map]
    exact toMembers_isSome fs ht hx
theorem toMembers_isSome {ft : FloatText} : ∀ (fs : List TyField) {vs : List Val}, HasTys fs vs → Expressibles ft fs vs → (toMembers ft fs vs).isSome = true
  | [], vs, ht, _ => by cases vs <;> simp [HasTys] at ht; rfl
  | (name, opt, t) :: fs, vs, ht, hx => by
    cases vs with
    | nil => simp [HasTys] at ht
    | cons v vs =>
      simp only [toMembers]
      split
      · exact toMembers_isSome fs ht.2 hx.2
      · have h1 := toJson_isSome t ht.1 hx.1
        have h2 := toMembers_isSome fs ht.2 hx.2
        obtain ⟨j, hj⟩ := Option.isSome_iff_exists.1 h1
        obtain ⟨r, hr⟩ := Option.isSome_iff_exists.1 h2
        rw [hj, hr]
        rfl
end

/-! ## Round trip -/

theorem toJson_plain {ft : FloatText} {t : Ty} {v : Val} {j : Json} (hp : Ty.Plain t) (h : toJson ft t v = some j) : j.fixed ≠ .null := by
  cases t <;> simp [Ty.Plain] at hp <;> cases v <;> simp [toJson] at h
  · subst h; simp [Json.fixed]
  · subst h; simp [Json.fixed]
  · rename_i x
    cases x <;> simp at h
    subst h; simp [Json.fixed]
  · obtain ⟨-, h⟩ := h
    subst h; simp [Json.fixed]
  · obtain ⟨kvs, -, rfl⟩ := h
    simp [Json.fixed]

theorem fromJson_ptr {ft : FloatText} {t : Ty} {j : Json} (hj : j ≠ .null) :
    fromJson ft (.ptr t) .nil j = (fromJson ft t (zeroVal t) j).map .ref := by
  cases j <;> first | exact absurd rfl hj | simp [fromJson]

theorem findField_exact {fs : List TyField} (hn : (fs.map Prod.fst).Nodup) {pre suf : List TyField} {f : TyField} (he : fs = pre ++ f :: suf) :
    findField fs f.1 = some pre.length := by
  have : fs.findIdx? (fun g => g.1 == f.1) = some pre.length := by
    subst he
    rw [List.findIdx?_append]
    have h1 : pre.findIdx? (fun g => g.1 == f.1) = none := by
      rw [List.findIdx?_eq_none_iff]
      intro x hx
      simp only [List.map_append, List.map_cons, List.nodup_append, List.nodup_cons] at hn
      have := hn.2.2 x.1 (List.mem_map_of_mem hx) f.1 (by simp)
      simpa using this
    rw [h1, List.findIdx?_cons]
    simp
  unfold findField
  rw [this]

theorem setField_append {ft : FloatText} {pre suf : List TyField} {name : Bytes} {opt : Bool} {t : Ty} {pv : List Val} {v v' : Val} {sv : List Val} {j : Json}
    (hl : pv.length = pre.length) (h : fromJson ft t v j = some v') :
    setField ft (pre ++ (name, opt, t) :: suf) pre.length (pv ++ v :: sv) j = some (pv ++ v' :: sv) := by
  induction pre generalizing pv with
  | nil =>
    have : pv = [] := List.length_eq_zero_iff.1 hl
    subst this
    simp [setField, h]
  | cons p pre ih =>
    cases pv with
    | nil => simp at hl
    | cons w pv =>
      simp only [List.cons_append, List.length_cons, setField]
      rw [ih (by simpa using hl)]
      rfl

theorem toValid_ascii {b : Bytes} (h : ∀ c ∈ b, c < 0x80) : toValid b = b := by
  apply toValid_of_valid
  have h1 : chunks ((b.map Chunk.ascii).flatMap Chunk.raw) = b.map Chunk.ascii := chunks_flatMap
    (by
      intro c hc
      obtain ⟨x, hx, rfl⟩ := List.mem_map.1 hc
      exact h x hx)
    (by
      intro x hx
      obtain ⟨y, _, h'⟩ := List.mem_map.1 hx
      cases h')
  have h2 : (b.map Chunk.ascii).flatMap Chunk.raw = b := by
    clear h h1
    induction b with
    | nil => rfl
    | cons c t ih => simp [Chunk.raw, ih]
  rw [h2] at h1
  intro x hx
  rw [h1] at hx
  obtain ⟨y, _, h'⟩ := List.mem_map.1 hx
  cases h'

theorem isDigit_lt {c : UInt8} (h : IsDigit c) : c < 0x80 := by
  have := h.2
  rw [UInt8.le_iff_toNat_le] at this
  rw [UInt8.lt_iff_toNat_lt]
  simp at this ⊢
  omega

theorem formatRFC3339_ascii (t : Stamp) : ∀ c ∈ formatRFC3339 t, c < 0x80 := by
  have hz : ∀ c ∈ zoneText t.zone, c < 0x80 := by
    intro c hc
    unfold zoneText at hc
    split at hc
    · simp at hc; subst hc; decide
    · simp only [List.mem_cons, List.mem_append] at hc
      rcases hc with rfl | hc | rfl | hc
      · split <;> decide
      · exact isDigit_lt (padDec_isDigit c hc)
      · decide
      · exact isDigit_lt (padDec_isDigit c hc)
  have hf : ∀ n, ∀ c ∈ fracText n, c < 0x80 := by
    intro n c hc
    unfold fracText at hc
    simp only at hc
    split at hc
    · cases hc
    · simp only [List.mem_cons] at hc
      rcases hc with rfl | hc
      · decide
      · obtain ⟨k, hk⟩ := trimZeros_append (padDec 9 n)
        exact isDigit_lt (padDec_isDigit (w := 9) (n := n) c (by rw [hk]; exact List.mem_append_left _ hc))
  intro c hc
  simp only [formatRFC3339, List.mem_append, List.mem_cons] at hc
  rcases hc with hc | rfl | hc | rfl | hc | rfl | hc | rfl | hc | rfl | hc | hc | hc
  all_goals first
    | decide
    | exact isDigit_lt (padDec_isDigit c hc)
    | exact hf _ c hc
    | exact hz c hc

mutual
/-- What `json.Marshal` writes, `json.Unmarshal` reads back. -/
theorem fromJson_toJson {ft : FloatText} : ∀ (t : Ty) {n : Nat} {v : Val} {j : Json}, Ty.Clear n t → HasTy t v → Expressible ft t v → toJson ft t v = some j →
    fromJson ft t (zeroVal t) j.fixed = some (asRead t v)
  | .string, n, v, j, _, _, _, h => by
    cases v <;> simp [toJson] at h
    subst h
    simp [Json.fixed, fromJson, asRead]
  | .int s b, n, v, j, hc, ht, _, h => by
    cases v <;> simp [toJson] at h
    subst h
    have hb : 1 ≤ b ∧ b ≤ 64 := by cases n <;> simpa [Ty.Clear] using hc
    simp only [HasTy] at ht
    simp [Json.fixed, fromJson, asRead, readInt_itoa hb ht]
  | .float, n, v, j, _, _, hx, h => by
    cases v <;> simp [toJson] at h
    obtain ⟨q, rfl, -, h2⟩ := hx
    simp at h
    subst h
    simp [Json.fixed, fromJson, asRead, h2]
  | .time, n, v, j, _, _, hx, h => by
    cases v <;> simp [toJson] at h
    obtain ⟨hw, h⟩ := h
    subst h
    simp [Json.fixed, fromJson, asRead, toValid_ascii (formatRFC3339_ascii _), parseRFC3339_format hw]
  | .ptr t, n, v, j, hc, ht, hx, h => by
    have hc : Ty.Plain t ∧ Ty.Clear n t := by cases n <;> simpa [Ty.Clear] using hc
    cases v <;> simp [HasTy] at ht
    · simp [toJson] at h
      subst h
      simp [Json.fixed, fromJson, asRead]
    · simp only [toJson] at h
      simp only [zeroVal]
      rw [fromJson_ptr (toJson_plain hc.1 h), fromJson_toJson t hc.2 ht hx h]
      simp [asRead]
  | .slice t, n, v, j, hc, ht, hx, h => by
    cases n with
    | zero => simp [Ty.Clear] at hc
    | succ n =>
      simp only [Ty.Clear] at hc
      cases v <;> simp [HasTy] at ht
      · simp [toJson] at h
        subst h
        simp [Json.fixed, fromJson, asRead]
      · simp only [toJson, Option.map_eq_some_iff] at h
        obtain ⟨js, h1, rfl⟩ := h
        have := mapM_fixed (g := fromJson ft t (zeroVal t)) (h := asRead t) (fun v hv j hj => fromJson_toJson t hc (ht v hv) (hx v hv) hj) h1
        simp [Json.fixed, fromJson, asRead, this]
  | .struct fs, n, v, j, hc, ht, hx, h => by
    cases n with
    | zero => simp [Ty.Clear] at hc
    | succ n =>
      simp only [Ty.Clear] at hc
      cases v <;> simp [HasTy] at ht
      simp only [toJson, Option.map_eq_some_iff] at h
      obtain ⟨kvs, h1, rfl⟩ := h
      have := setFields_toMembers (pre := []) (pv := []) fs hc.2 hc.1 rfl ht hx h1
      simp only [Json.fixed, fromJson, zeroVal, asRead]
      simp only [List.nil_append] at this
      exact congrArg (Option.map Val.struct) this
theorem setFields_toMembers {ft : FloatText} {pre : List TyField} {pv : List Val} : ∀ (fs : List TyField) {n : Nat} {vs : List Val} {kvs : List (Bytes × Json)},
    Fields.Clear n fs → ((pre ++ fs).map Prod.fst).Nodup → pv.length = pre.length → HasTys fs vs → Expressibles ft fs vs → toMembers ft fs vs = some kvs →
    (fixedMembers kvs).foldlM (fun (vs : List Val) (kv : Bytes × Json) => match findField (pre ++ fs) kv.1 with
          | some i => setField ft (pre ++ fs) i vs kv.2
          | none => some vs) (pv ++ zeroVals fs) = some (pv ++ asReads fs vs)
  | [], n, vs, kvs, _, _, _, ht, _, h => by
    cases vs <;> simp [HasTys] at ht
    simp [toMembers] at h
    subst h
    simp [fixedMembers, zeroVals, asReads]
  | (name, opt, t) :: fs, n, vs, kvs, hc, hn, hl, ht, hx, h => by
    simp only [Fields.Clear] at hc
    cases vs with
    | nil => simp [HasTys] at ht
    | cons v vs =>
      have hn' : (((pre ++ [(name, opt, t)]) ++ fs).map Prod.fst).Nodup := by simpa using hn
      have ih := fun w kvs => setFields_toMembers (ft := ft) (pre := pre ++ [(name, opt, t)]) (pv := pv ++ [w]) fs (vs := vs) (kvs := kvs) hc.2.2 hn' (by simp [hl]) ht.2 hx.2
      simp only [List.append_assoc, List.cons_append, List.nil_append] at ih
      simp only [toMembers] at h
      split at h
      · rename_i ho
        obtain ⟨rfl, he⟩ := ho
        have h0 : asReads ((name, true, t) :: fs) (v :: vs) = zeroVal t :: asReads fs vs := by
          have ht1 := ht.1
          cases t <;> cases v <;> simp [HasTy] at ht1 <;> simp [Val.isEmpty] at he <;> simp [asReads, asRead, zeroVal]
          all_goals subst he
          all_goals rfl
        rw [h0]
        simp only [zeroVals]
        exact ih (zeroVal t) _ h
      · rename_i ho
        split at h
        · rename_i j rest hj hr
          cases h
          have hv := fromJson_toJson t hc.2.1 ht.1 hx.1 hj
          have h0 : asReads ((name, opt, t) :: fs) (v :: vs) = asRead t v :: asReads fs vs := by
            simp only [asReads]
            split
            · rename_i h1
              exact absurd ⟨rfl, rfl⟩ ho
            · rfl
          rw [h0]
          simp only [fixedMembers, List.foldlM_cons, toValid_ascii hc.1, zeroVals]
          rw [findField_exact hn rfl]
          simp only
          rw [setField_append hl hv]
          exact ih (asRead t v) _ hr
        · cases h
end

/-! ## What the decoder accepts -/

mutual
/-- No number of the value begins with a plus sign. -/
def Json.NoPlus : Json → Prop
  | .num raw => raw.head? ≠ some 43
  | .arr vs => noPlusElems vs
  | .obj kvs => noPlusMembers kvs
  | _ => True
def noPlusElems : List Json → Prop
  | [] => True
  | v :: vs => v.NoPlus ∧ noPlusElems vs
def noPlusMembers : List (Bytes × Json) → Prop
  | [] => True
  | (_, v) :: kvs => v.NoPlus ∧ noPlusMembers kvs
end

theorem noPlusElems_mem {vs : List Json} (h : noPlusElems vs) : ∀ v ∈ vs, v.NoPlus := by
  induction vs with
  | nil => simp
  | cons v vs ih =>
    intro w hw
    rcases List.mem_cons.1 hw with rfl | hw
    · exact h.1
    · exact ih h.2 w hw

theorem noPlusMembers_mem {kvs : List (Bytes × Json)} (h : noPlusMembers kvs) : ∀ kv ∈ kvs, kv.2.NoPlus := by
  induction kvs with
  | nil => simp
  | cons v vs ih =>
    intro w hw
    rcases List.mem_cons.1 hw with rfl | hw
    · exact h.1
    · exact ih h.2 w hw

theorem numInt_head {s i rest : Bytes} (h : numInt s = some (i, rest)) : ∃ c t, i = c :: t ∧ IsDigit c := by
  unfold numInt at h
  split at h
  · cases h; exact ⟨48, [], rfl, by decide⟩
  · split at h
    · cases h
    · rename_i ds r hne hs
      cases h
      unfold spanDigits at hs
      rw [List.span_eq_takeWhile_dropWhile] at hs
      injection hs with h1 h2
      cases i with
      | nil => exact absurd rfl hne
      | cons c t =>
        refine ⟨c, t, rfl, ?_⟩
        have : c ∈ s.takeWhile fun c => decide (IsDigit c) := by rw [h1]; simp
        simpa using List.mem_takeWhile_imp this

theorem parseNum_head {s raw rest : Bytes} (h : parseNum s = some (raw, rest)) : raw.head? ≠ some 43 := by
  unfold parseNum at h
  split at h
  rename_i sign s1 hs
  split at h
  · cases h
  · rename_i i s2 hi
    obtain ⟨c, t, rfl, hc⟩ := numInt_head hi
    have hc43 : c ≠ 43 := by rintro rfl; exact absurd hc (by decide)
    split at h
    · cases h
    · split at h
      · cases h
      · cases h
        split at hs
        · cases hs; simp
        · cases hs; simp [hc43]

mutual
theorem parseValue_noPlus : ∀ {f d : Nat} {s : Bytes} {v : Json} {r : Bytes}, parseValue f d s = some (v, r) → v.NoPlus
  | 0, _, _, _, _, h => by simp [parseValue] at h
  | f + 1, d, s, v, r, h => by
    unfold parseValue at h
    split at h
    · cases h
    · repeat' split at h
      all_goals first
        | (cases h; done)
        | (simp only [Option.map_eq_some_iff, Prod.mk.injEq] at h
           obtain ⟨p, hp, rfl, rfl⟩ := h
           first
             | trivial
             | exact parseMembers_noPlus hp
             | exact parseElems_noPlus hp
             | exact parseNum_head hp)
        | (cases h; trivial)
theorem parseMembers_noPlus : ∀ {f d : Nat} {s : Bytes} {v : List (Bytes × Json)} {r : Bytes}, parseMembers f d s = some (v, r) → noPlusMembers v
  | 0, _, _, _, _, h => by simp [parseMembers] at h
  | f + 1, d, s, v, r, h => by
    unfold parseMembers at h
    split at h
    · split at h
      · cases h
      · split at h
        · split at h
          · cases h
          · rename_i w r2 hv
            split at h
            · cases h; exact ⟨parseValue_noPlus hv, trivial⟩
            · simp only [Option.map_eq_some_iff, Prod.mk.injEq] at h
              obtain ⟨p, hp, rfl, rfl⟩ := h
              exact ⟨parseValue_noPlus hv, parseMembers_noPlus hp⟩
            · cases h
        · cases h
    · cases h
theorem parseElems_noPlus : ∀ {f d : Nat} {s : Bytes} {v : List Json} {r : Bytes}, parseElems f d s = some (v, r) → noPlusElems v
  | 0, _, _, _, _, h => by simp [parseElems] at h
  | f + 1, d, s, v, r, h => by
    unfold parseElems at h
    split at h
    · cases h
    · rename_i w r2 hv
      split at h
      · cases h; exact ⟨parseValue_noPlus hv, trivial⟩
      · simp only [Option.map_eq_some_iff, Prod.mk.injEq] at h
        obtain ⟨p, hp, rfl, rfl⟩ := h
        exact ⟨parseValue_noPlus hv, parseElems_noPlus hp⟩
      · cases h
end

theorem parseJson_noPlus {s : Bytes} {v : Json} (h : parseJson s = some v) : v.NoPlus := by
  unfold parseJson at h
  split at h
  · cases h
  · rename_i w r hw
    split at h
    · cases h; exact parseValue_noPlus hw
    · cases h

/-- The fold over the members of an object succeeds if each step does and keeps what the steps need. -/
theorem foldlM_isSome {α β : Type} {f : β → α → Option β} {P : β → Prop} {Q : α → Prop} (l : List α) (b : β) (hP : P b)
    (hkeep : ∀ b a b', a ∈ l → P b → f b a = some b' → P b') (hstep : ∀ b a, a ∈ l → P b → ((f b a).isSome = true ↔ Q a)) :
    ((l.foldlM f b).isSome = true ↔ ∀ a ∈ l, Q a) ∧ ∀ b', l.foldlM f b = some b' → P b' := by
  induction l generalizing b with
  | nil => simp; exact hP
  | cons a l ih =>
    rw [List.foldlM_cons]
    have hs := hstep b a (by simp) hP
    cases hf : f b a with
    | none =>
      simp [hf] at hs ⊢
      exact fun h => absurd h hs
    | some b1 =>
      have hP1 := hkeep b a b1 (by simp) hP hf
      have := ih b1 hP1 (fun b a b' ha => hkeep b a b' (by simp [ha])) (fun b a ha => hstep b a (by simp [ha]))
      simp [hf] at hs
      simp only [Option.bind_eq_bind, Option.bind_some]
      refine ⟨?_, this.2⟩
      rw [this.1]
      simp [hs]

theorem fromJson_ptr_ref {ft : FloatText} {t : Ty} {v : Val} {j : Json} (hj : j ≠ .null) :
    fromJson ft (.ptr t) (.ref v) j = (fromJson ft t v j).map .ref := by
  cases j <;> first | exact absurd rfl hj | simp [fromJson]

/-- The names of the fields of a clear structure are ASCII. -/
theorem clear_ascii {n : Nat} : ∀ {fs : List TyField}, Fields.Clear n fs → ∀ f ∈ fs, AsciiName f.1
  | (_, _, _) :: _, h, f, hf => by
    simp only [Fields.Clear] at h
    rcases List.mem_cons.1 hf with rfl | hf
    · exact h.1
    · exact clear_ascii h.2.2 f hf

theorem findField_iff {fs : List TyField} (hn : (fs.map Prod.fst).Nodup) (ha : ∀ f ∈ fs, AsciiName f.1) {key : Bytes} {i : Nat} : findField fs key = some i ↔ Names fs key i := by
  unfold findField Names
  constructor
  · intro h
    split at h
    · rename_i k hk
      cases h
      rw [List.findIdx?_eq_some_iff_getElem] at hk
      obtain ⟨h1, h2, h3⟩ := hk
      exact ⟨fs[i], List.getElem?_eq_getElem h1, .inl (by simpa using h2)⟩
    · rename_i hk
      rw [List.findIdx?_eq_none_iff] at hk
      rw [List.findIdx?_eq_some_iff_getElem] at h
      obtain ⟨h1, h2, h3⟩ := h
      refine ⟨fs[i], List.getElem?_eq_getElem h1, .inr ⟨fun g hg => by simpa using hk g hg, (foldName_iff (ha _ (List.getElem_mem h1))).1 (by simpa using h2), ?_⟩⟩
      intro k g hki hg
      obtain ⟨hlt, rfl⟩ := List.getElem?_eq_some_iff.1 hg
      rw [← foldName_iff (ha _ (List.getElem_mem hlt))]
      simpa using h3 k hki
  · rintro ⟨f, hf, h⟩
    obtain ⟨hlt, rfl⟩ := List.getElem?_eq_some_iff.1 hf
    rcases h with h | ⟨h1, h2, h3⟩
    · have : fs.findIdx? (fun f => f.1 == key) = some i := by
        rw [List.findIdx?_eq_some_iff_getElem]
        refine ⟨hlt, by simpa using h, ?_⟩
        intro k hk
        simp only [beq_iff_eq]
        intro he
        exact List.pairwise_iff_getElem.1 hn k i (by simp; omega) (by simpa using hlt) hk (by simp [he, h])
      rw [this]
    · have : fs.findIdx? (fun f => f.1 == key) = none := by
        rw [List.findIdx?_eq_none_iff]
        intro g hg
        simpa using h1 g hg
      rw [this]
      simp only
      rw [List.findIdx?_eq_some_iff_getElem]
      refine ⟨hlt, by simpa using (foldName_iff (ha _ (List.getElem_mem hlt))).2 h2, ?_⟩
      intro k hk
      have hk' : k < fs.length := by omega
      have := h3 k fs[k] hk (List.getElem?_eq_getElem hk')
      rw [← foldName_iff (ha _ (List.getElem_mem hk'))] at this
      simpa using this

mutual
/-- The decoder accepts exactly what fits the type, and gives values of the type. -/
theorem fromJson_fits {ft : FloatText} : ∀ (t : Ty) {n : Nat} {old : Val} {j : Json}, Ty.Clear n t → HasTy t old → j.NoPlus →
    ((fromJson ft t old j).isSome = true ↔ Fits ft t j) ∧ ∀ v, fromJson ft t old j = some v → HasTy t v
  | .string, n, old, j, _, ho, _ => by
    cases j <;> simp [fromJson, Fits] <;> simp_all [HasTy]
  | .int s b, n, old, j, hc, ho, hj => by
    have hb : 1 ≤ b ∧ b ≤ 64 := by cases n <;> simpa [Ty.Clear] using hc
    cases j with
    | num raw =>
      have hi := fun m => readInt_iff (n := m) (s := s) hb hj
      simp only [fromJson, Fits, Option.isSome_map, Option.isSome_iff_exists, Option.map_eq_some_iff]
      constructor
      · constructor
        · rintro ⟨m, hm⟩
          exact .inr ⟨raw, m, rfl, ((hi m).1 hm).1, ((hi m).1 hm).2⟩
        · rintro (h | ⟨r, m, h1, h2, h3⟩)
          · cases h
          · cases h1
            exact ⟨m, (hi m).2 ⟨h2, h3⟩⟩
      · rintro v ⟨m, hm, rfl⟩
        exact ((hi m).1 hm).2
    | _ => simp [fromJson, Fits] <;> simp_all
  | .float, n, old, j, _, ho, _ => by
    cases j <;> simp [fromJson, Fits, Option.isSome_iff_exists] <;> simp_all [HasTy]
  | .time, n, old, j, _, ho, _ => by
    have ht : ∀ s, (∃ t, parseRFC3339 s = some t) ↔ ∃ ns z, IsTimeText s ns z :=
      fun s => ⟨fun ⟨t, h⟩ => ⟨_, _, parseRFC3339_iff.1 h⟩, fun ⟨ns, z, h⟩ => ⟨⟨ns, z⟩, parseRFC3339_iff.2 h⟩⟩
    cases j <;> simp [fromJson, Fits, Option.isSome_iff_exists, ht] <;> simp_all [HasTy]
  | .ptr t, n, old, j, hc, ho, hj => by
    have hc : Ty.Plain t ∧ Ty.Clear n t := by cases n <;> simpa [Ty.Clear] using hc
    by_cases hn : j = .null
    · subst hn
      simp [fromJson, Fits, HasTy]
    · cases old <;> simp [HasTy] at ho
      · have := fromJson_fits (ft := ft) t (old := zeroVal t) hc.2 (zeroVal_hasTy t hc.2) hj
        rw [fromJson_ptr hn, Option.isSome_map, this.1]
        simp only [Fits, hn, false_or, true_and, Option.map_eq_some_iff]
        rintro v ⟨w, hw, rfl⟩
        exact this.2 w hw
      · rename_i w0
        have := fromJson_fits (ft := ft) t (old := w0) hc.2 ho hj
        rw [fromJson_ptr_ref hn, Option.isSome_map, this.1]
        simp only [Fits, hn, false_or, true_and, Option.map_eq_some_iff]
        rintro v ⟨w, hw, rfl⟩
        exact this.2 w hw
  | .slice t, n, old, j, hc, ho, hj => by
    cases n with
    | zero => simp [Ty.Clear] at hc
    | succ n =>
      simp only [Ty.Clear] at hc
      cases j with
      | arr js =>
        have ih := fun w (hw : w ∈ js) => fromJson_fits (ft := ft) t (old := zeroVal t) (j := w) hc (zeroVal_hasTy t hc) (noPlusElems_mem hj w hw)
        simp only [fromJson, Fits, Option.isSome_map, mapM_isSome_iff, Option.map_eq_some_iff]
        constructor
        · constructor
          · intro h
            exact .inr ⟨js, rfl, fun w hw => (ih w hw).1.1 (h w hw)⟩
          · rintro (h | ⟨js', h1, h2⟩)
            · cases h
            · cases h1
              exact fun w hw => (ih w hw).1.2 (h2 w hw)
        · rintro v ⟨vs, hvs, rfl⟩
          simp only [HasTy]
          clear hj
          induction js generalizing vs with
          | nil => simp at hvs; subst hvs; simp
          | cons w js ihl =>
            rw [List.mapM_cons] at hvs
            cases hw : fromJson ft t (zeroVal t) w with
            | none => simp [hw] at hvs
            | some x =>
              cases hr : js.mapM (fromJson ft t (zeroVal t)) with
              | none => simp [hw, hr] at hvs
              | some xs =>
                simp [hw, hr] at hvs
                subst hvs
                intro y hy
                rcases List.mem_cons.1 hy with rfl | hy
                · exact (ih w (by simp)).2 _ hw
                · exact ihl (fun w hw => ih w (by simp [hw])) xs hr y hy
      | _ => simp [fromJson, Fits, HasTy]
  | .struct fs, n, old, j, hc, ho, hj => by
    cases n with
    | zero => simp [Ty.Clear] at hc
    | succ n =>
      simp only [Ty.Clear] at hc
      cases old <;> simp [HasTy] at ho
      rename_i vs
      cases j with
      | obj kvs =>
        have key := foldlM_isSome (P := HasTys fs) (Q := fun kv : Bytes × Json => ∀ i, Names fs kv.1 i → FitsField ft fs i kv.2)
          (f := fun (vs : List Val) (kv : Bytes × Json) => match findField fs kv.1 with
            | some i => setField ft fs i vs kv.2
            | none => some vs) kvs vs ho
          (by
            intro b a b' ha hb hf
            split at hf
            · rename_i i hi
              exact (setField_fits fs hc.2 hb (noPlusMembers_mem hj a ha)).2 b' hf
            · cases hf; exact hb)
          (by
            intro b a ha hb
            split
            · rename_i i hi
              rw [(setField_fits (i := i) fs hc.2 hb (noPlusMembers_mem hj a ha)).1]
              constructor
              · intro h i' hi'
                rw [← findField_iff hc.1 (clear_ascii hc.2), hi] at hi'
                cases hi'
                exact h
              · intro h
                exact h i ((findField_iff hc.1 (clear_ascii hc.2)).1 hi)
            · rename_i hi
              simp [← findField_iff hc.1 (clear_ascii hc.2), hi])
        constructor
        · simp only [fromJson, Option.isSome_map, Fits]
          refine key.1.trans ⟨fun h => .inr ⟨kvs, rfl, h⟩, ?_⟩
          rintro (h | ⟨kvs', h1, h2⟩)
          · cases h
          · cases h1; exact h2
        · intro v hv
          simp only [fromJson, Option.map_eq_some_iff] at hv
          obtain ⟨vs', h1, rfl⟩ := hv
          exact key.2 vs' h1
      | _ => simp [fromJson, Fits, HasTy] <;> exact ho
theorem setField_fits {ft : FloatText} : ∀ (fs : List TyField) {n i : Nat} {vs : List Val} {j : Json}, Fields.Clear n fs → HasTys fs vs → j.NoPlus →
    ((setField ft fs i vs j).isSome = true ↔ FitsField ft fs i j) ∧ ∀ vs', setField ft fs i vs j = some vs' → HasTys fs vs'
  | [], n, i, vs, j, _, _, _ => by
    simp [setField, FitsField]
  | (name, opt, t) :: fs, n, i, vs, j, hc, ho, hj => by
    simp only [Fields.Clear] at hc
    cases vs with
    | nil => simp [HasTys] at ho
    | cons v vs =>
      cases i with
      | zero =>
        have := fromJson_fits (ft := ft) t hc.2.1 ho.1 hj
        simp only [setField, FitsField, Option.isSome_map, this.1, true_and, Option.map_eq_some_iff]
        rintro vs' ⟨w, hw, rfl⟩
        exact ⟨this.2 w hw, ho.2⟩
      | succ i =>
        have := setField_fits (ft := ft) (i := i) fs hc.2.2 ho.2 hj
        simp only [setField, FitsField, Option.isSome_map, this.1, true_and, Option.map_eq_some_iff]
        rintro vs' ⟨w, hw, rfl⟩
        exact ⟨ho.1, this.2 w hw⟩
end

end Verif.Go
