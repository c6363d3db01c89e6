import Verif.Go.MarshalLemmas

/-!
# Which values can be written as JSON, and which times can be read
-/

namespace Verif.Go
open Verif.Spec

theorem sounds_iff {vs : List Val} : Sounds vs ↔ ∀ v ∈ vs, Sound v := by
  induction vs with
  | nil => simp [Sounds]
  | cons v vs ih => simp [Sounds, ih]

theorem allTimesL_iff {P : Stamp → Prop} {vs : List Val} : AllTimesL P vs ↔ ∀ v ∈ vs, AllTimes P v := by
  induction vs with
  | nil => simp [AllTimesL]
  | cons v vs ih => simp [AllTimesL, ih]

theorem sound_of_isEmpty {v : Val} (h : v.isEmpty = true) : Sound v := by
  cases v <;> simp [Val.isEmpty] at h <;> simp [Sound, h, Sounds]

mutual
/-- Marshalling succeeds exactly for the values without infinities, NaN and times that cannot be written. -/
theorem toJson_isSome_iff {ft : FloatText} : ∀ (t : Ty) {v : Val}, HasTy t v → ((toJson ft t v).isSome = true ↔ Sound v)
  | .string, v, ht => by cases v <;> simp [HasTy] at ht; simp [toJson, Sound]
  | .int _ _, v, ht => by cases v <;> simp [HasTy] at ht; simp [toJson, Sound]
  | .float, v, ht => by
    cases v <;> simp [HasTy] at ht
    rename_i x
    cases x <;> simp [toJson, Sound]
  | .time, v, ht => by
    cases v <;> simp [HasTy] at ht
    rename_i t
    by_cases hw : t.Writable <;> simp [toJson, Sound, hw]
  | .ptr t, v, ht => by
    cases v <;> simp [HasTy] at ht
    · simp [toJson, Sound]
    · simp only [toJson, Sound]
      exact toJson_isSome_iff t ht
  | .slice t, v, ht => by
    cases v <;> simp [HasTy] at ht
    · simp [toJson, Sound]
    · simp only [toJson, Option.isSome_map, Sound]
      rw [mapM_isSome_iff, sounds_iff]
      exact forall_congr' fun v => forall_congr' fun hv => toJson_isSome_iff t (ht v hv)
  | .struct fs, v, ht => by
    cases v <;> simp [HasTy] at ht
    simp only [toJson, Option.isSome_map, Sound]
    exact toMembers_isSome_iff fs ht
theorem toMembers_isSome_iff {ft : FloatText} : ∀ (fs : List TyField) {vs : List Val}, HasTys fs vs → ((toMembers ft fs vs).isSome = true ↔ Sounds vs)
  | [], vs, ht => by cases vs <;> simp [HasTys] at ht; simp [toMembers, Sounds]
  | (name, opt, t) :: fs, vs, ht => by
    cases vs with
    | nil => simp [HasTys] at ht
    | cons v vs =>
      have h1 := toJson_isSome_iff (ft := ft) t ht.1
      have h2 := toMembers_isSome_iff (ft := ft) fs ht.2
      simp only [toMembers, Sounds]
      split
      · rename_i he
        rw [h2]
        simp [sound_of_isEmpty he.2]
      · rw [← h1, ← h2]
        cases toJson ft t v <;> cases toMembers ft fs vs <;> simp
end

mutual
theorem zeroVal_times {P : Stamp → Prop} (hz : P Stamp.zero) : ∀ t : Ty, AllTimes P (zeroVal t)
  | .string => trivial
  | .int _ _ => trivial
  | .float => trivial
  | .time => hz
  | .ptr _ => trivial
  | .slice _ => trivial
  | .struct fs => by simp only [zeroVal, AllTimes]; exact zeroVals_times hz fs
theorem zeroVals_times {P : Stamp → Prop} (hz : P Stamp.zero) : ∀ fs : List TyField, AllTimesL P (zeroVals fs)
  | [] => trivial
  | (_, _, t) :: fs => ⟨zeroVal_times hz t, zeroVals_times hz fs⟩
end

theorem mapM_all {α β : Type} {f : α → Option β} {Q : β → Prop} : ∀ {l : List α} {r : List β}, l.mapM f = some r → (∀ a ∈ l, ∀ b, f a = some b → Q b) → ∀ b ∈ r, Q b := by
  intro l
  induction l with
  | nil => intro r h _; simp at h; subst h; simp
  | cons a l ih =>
    intro r h hq
    rw [List.mapM_cons] at h
    cases ha : f a with
    | none => simp [ha] at h
    | some b =>
      cases hl : l.mapM f with
      | none => simp [ha, hl] at h
      | some bs =>
        simp [ha, hl] at h
        subst h
        intro x hx
        rcases List.mem_cons.1 hx with rfl | hx
        · exact hq a (by simp) _ ha
        · exact ih hl (fun a' h' => hq a' (by simp [h'])) x hx

theorem foldlM_keep {α β : Type} {f : β → α → Option β} {P : β → Prop} : ∀ (l : List α) (b b' : β), P b → (∀ b a b', a ∈ l → P b → f b a = some b' → P b') →
    l.foldlM f b = some b' → P b' := by
  intro l
  induction l with
  | nil => intro b b' h _ hf; simp at hf; exact hf ▸ h
  | cons a l ih =>
    intro b b' h hk hf
    rw [List.foldlM_cons] at hf
    cases ha : f b a with
    | none => simp [ha] at hf
    | some b1 =>
      simp [ha] at hf
      exact ih b1 b' (hk b a b1 (by simp) h ha) (fun b a b' h' => hk b a b' (by simp [h'])) hf

mutual
/-- Every time in a value that was read is the zero time, was there before, or was read by `parseRFC3339`. -/
theorem fromJson_times {ft : FloatText} {P : Stamp → Prop} (hz : P Stamp.zero) (hp : ∀ s t, parseRFC3339 s = some t → P t) :
    ∀ (t : Ty) {old : Val} {j : Json} {v : Val}, AllTimes P old → fromJson ft t old j = some v → AllTimes P v
  | .string, old, j, v, ho, h => by
    cases j <;> simp [fromJson] at h <;> subst h
    · exact ho
    · trivial
  | .int s b, old, j, v, ho, h => by
    cases j <;> simp [fromJson] at h
    · subst h; exact ho
    · obtain ⟨n, -, rfl⟩ := h; trivial
  | .float, old, j, v, ho, h => by
    cases j <;> simp [fromJson] at h
    · subst h; exact ho
    · obtain ⟨n, -, rfl⟩ := h; trivial
  | .time, old, j, v, ho, h => by
    cases j <;> simp [fromJson] at h
    · subst h; exact ho
    · obtain ⟨n, hn, rfl⟩ := h; exact hp _ _ hn
  | .ptr t, old, j, v, ho, h => by
    by_cases hn : j = .null
    · subst hn; simp [fromJson] at h; subst h; trivial
    · by_cases hr : ∃ w, old = .ref w
      · obtain ⟨w, rfl⟩ := hr
        rw [fromJson_ptr_ref hn, Option.map_eq_some_iff] at h
        obtain ⟨x, hx, rfl⟩ := h
        simp only [AllTimes] at ho ⊢
        exact fromJson_times hz hp t ho hx
      · have he : fromJson ft (.ptr t) old j = (fromJson ft t (zeroVal t) j).map .ref := by
          cases old <;> first | exact absurd ⟨_, rfl⟩ hr | (cases j <;> first | exact absurd rfl hn | simp [fromJson])
        rw [he, Option.map_eq_some_iff] at h
        obtain ⟨x, hx, rfl⟩ := h
        simp only [AllTimes]
        exact fromJson_times hz hp t (zeroVal_times hz t) hx
  | .slice t, old, j, v, ho, h => by
    cases j <;> simp only [fromJson] at h <;> try cases h
    · trivial
    · rw [Option.map_eq_some_iff] at h
      obtain ⟨vs, hvs, rfl⟩ := h
      simp only [AllTimes, allTimesL_iff]
      exact mapM_all hvs fun a _ b hb => fromJson_times hz hp t (zeroVal_times hz t) hb
  | .struct fs, old, j, v, ho, h => by
    cases j <;> simp only [fromJson] at h <;> try cases h
    · exact ho
    · cases old <;> simp only [reduceCtorEq] at h
      rename_i kvs vs
      rw [Option.map_eq_some_iff] at h
      obtain ⟨vs', hvs, rfl⟩ := h
      simp only [AllTimes] at ho ⊢
      refine foldlM_keep (P := AllTimesL P) kvs vs vs' ho ?_ hvs
      intro b a b' _ hb hf
      split at hf
      · exact setField_times hz hp fs hb hf
      · cases hf; exact hb
theorem setField_times {ft : FloatText} {P : Stamp → Prop} (hz : P Stamp.zero) (hp : ∀ s t, parseRFC3339 s = some t → P t) :
    ∀ (fs : List TyField) {i : Nat} {vs vs' : List Val} {j : Json}, AllTimesL P vs → setField ft fs i vs j = some vs' → AllTimesL P vs'
  | [], i, vs, vs', j, _, h => by simp [setField] at h
  | (name, opt, t) :: fs, i, vs, vs', j, ho, h => by
    cases vs with
    | nil => cases i <;> simp [setField] at h
    | cons v vs =>
      cases i with
      | zero =>
        simp only [setField, Option.map_eq_some_iff] at h
        obtain ⟨w, hw, rfl⟩ := h
        exact ⟨fromJson_times hz hp t ho.1 hw, ho.2⟩
      | succ i =>
        simp only [setField, Option.map_eq_some_iff] at h
        obtain ⟨w, hw, rfl⟩ := h
        exact ⟨ho.1, setField_times hz hp fs ho.2 hw⟩
end

/-- Every time in a value that was read has a year of four digits and a zone at most 25 hours from UTC. -/
theorem unmarshal_times {ft : FloatText} {t : Ty} {data : Bytes} {v : Val} (h : unmarshal ft t data = some v) :
    AllTimes (fun t => FourDigitYear t.wall ∧ t.zone.natAbs ≤ 1500) v := by
  have hz : FourDigitYear Stamp.zero.wall ∧ Stamp.zero.zone.natAbs ≤ 1500 := by
    unfold FourDigitYear
    decide +kernel
  unfold unmarshal at h
  split at h
  · cases h
  · exact fromJson_times hz (fun _ _ h => parseRFC3339_year h) t (zeroVal_times hz t) h

end Verif.Go
