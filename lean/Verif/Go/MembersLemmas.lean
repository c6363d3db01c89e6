import Verif.Spec.ClientMessage
import Verif.Go.MarshalLemmas
import Verif.Go.NamesLemmas
import Mathlib.Data.List.Forall2

/-!
# Decoding an object whose members come in any order
-/

namespace Verif.Go
open Verif.Spec

variable {ft : FloatText}

theorem setField_eq : ∀ {fs : List TyField} {i : Nat} {vs : List Val} {j : Json} {f : TyField} {v : Val}, fs[i]? = some f → vs[i]? = some v →
    setField ft fs i vs j = (fromJson ft f.2.2 v j).map fun w => vs.set i w
  | f :: fs, 0, v :: vs, j, _, _, hf, hv => by
    simp at hf hv
    subst hf hv
    rfl
  | f :: fs, i + 1, v :: vs, j, _, _, hf, hv => by
    simp at hf hv
    simp only [setField]
    rw [setField_eq hf hv, Option.map_map]
    rfl
  | [], _, _, _, _, _, hf, _ => by simp at hf
  | _ :: _, 0, [], _, _, _, _, hv => by simp at hv
  | _ :: _, _ + 1, [], _, _, _, _, hv => by simp at hv

/-- Fields whose names differ in more than case. -/
def Apart (fs : List TyField) : Prop := fs.Pairwise fun f g => foldName f.1 ≠ foldName g.1

instance (fs : List TyField) : Decidable (Apart fs) := inferInstanceAs (Decidable (fs.Pairwise fun f g => foldName f.1 ≠ foldName g.1))

private theorem apart_index {fs : List TyField} (h : Apart fs) {i k : Nat} {f g : TyField} (hi : fs[i]? = some f) (hk : fs[k]? = some g) (he : foldName f.1 = foldName g.1) : i = k := by
  obtain ⟨h1, rfl⟩ := List.getElem?_eq_some_iff.1 hi
  obtain ⟨h2, rfl⟩ := List.getElem?_eq_some_iff.1 hk
  rcases Nat.lt_trichotomy i k with hlt | heq | hlt
  · exact absurd he (List.pairwise_iff_getElem.1 h i k h1 h2 hlt)
  · exact heq
  · exact absurd he.symm (List.pairwise_iff_getElem.1 h k i h2 h1 hlt)

private theorem findField_some {fs : List TyField} (h : Apart fs) {i : Nat} {f : TyField} {key : Bytes} (hi : fs[i]? = some f) (he : foldName f.1 = foldName key) :
    findField fs key = some i := by
  obtain ⟨h1, rfl⟩ := List.getElem?_eq_some_iff.1 hi
  unfold findField
  split
  · rename_i k hk
    rw [List.findIdx?_eq_some_iff_getElem] at hk
    obtain ⟨h2, h3, -⟩ := hk
    simp at h3
    rw [apart_index h (List.getElem?_eq_getElem h2) hi (by rw [h3, he])]
  · rw [List.findIdx?_eq_some_iff_getElem]
    refine ⟨h1, by simpa using he, ?_⟩
    intro k hk
    simp only [beq_iff_eq]
    intro hc
    have := apart_index h (List.getElem?_eq_getElem (by omega)) hi (hc.trans he.symm)
    omega

private theorem findField_none {fs : List TyField} {key : Bytes} (h : ∀ f ∈ fs, foldName f.1 ≠ foldName key) : findField fs key = none := by
  unfold findField
  split
  · rename_i k hk
    rw [List.findIdx?_eq_some_iff_getElem] at hk
    obtain ⟨h2, h3, -⟩ := hk
    simp at h3
    exact absurd (by rw [h3]) (h _ (List.getElem_mem h2))
  · rw [List.findIdx?_eq_none_iff]
    intro f hf
    simpa using h f hf

private theorem only_cons {kv : Bytes × Json} {kvs : List (Bytes × Json)} {name : Bytes} {j : Json} (h : Only (kv :: kvs) name j) :
    (SameName name kv.1 ∧ j = kv.2 ∧ Missing kvs name) ∨ (¬ SameName name kv.1 ∧ Only kvs name j) := by
  obtain ⟨pre, key, post, he, h1, h2, h3⟩ := h
  cases pre with
  | nil =>
    simp at he
    obtain ⟨rfl, rfl⟩ := he
    exact .inl ⟨h1, rfl, h3⟩
  | cons a pre =>
    simp at he
    obtain ⟨rfl, rfl⟩ := he
    exact .inr ⟨h2 _ (by simp), pre, key, post, rfl, h1, fun x hx => h2 x (by simp [hx]), h3⟩

/-- What a field is when the members have been read into it. -/
def FieldReads (ft : FloatText) (kvs : List (Bytes × Json)) (name : Bytes) (t : Ty) (old v : Val) : Prop :=
  (Missing kvs name ∧ v = old) ∨ ∃ j, Only kvs name j ∧ fromJson ft t old j = some v

private theorem fold_reads {fs : List TyField} (ha : Apart fs) (hn : ∀ f ∈ fs, AsciiName f.1) : ∀ (kvs : List (Bytes × Json)) (olds vs : List Val),
    olds.length = fs.length → vs.length = fs.length →
    (∀ (i : Nat) (f : TyField) (o v : Val), fs[i]? = some f → olds[i]? = some o → vs[i]? = some v → FieldReads ft kvs f.1 f.2.2 o v) →
    kvs.foldlM (fun (vs : List Val) (kv : Bytes × Json) => match findField fs kv.1 with
      | some i => setField ft fs i vs kv.2
      | none => some vs) olds = some vs
  | [], olds, vs, h1, h2, h => by
    simp only [List.foldlM_nil]
    refine congrArg some ?_
    refine List.ext_getElem (by omega) ?_
    intro i hi hi'
    have := h i fs[i] olds[i] vs[i] (List.getElem?_eq_getElem _) (List.getElem?_eq_getElem _) (List.getElem?_eq_getElem _)
    rcases this with ⟨-, h⟩ | ⟨j, ⟨pre, key, post, he, -⟩, -⟩
    · exact h.symm
    · cases pre <;> simp at he
  | kv :: kvs, olds, vs, h1, h2, h => by
    rw [List.foldlM_cons]
    by_cases hex : ∃ (i : Nat) (f : TyField), fs[i]? = some f ∧ foldName f.1 = foldName kv.1
    · obtain ⟨i, f, hf, he⟩ := hex
      have hi : i < fs.length := (List.getElem?_eq_some_iff.1 hf).1
      have ho : olds[i]? = some olds[i] := List.getElem?_eq_getElem _
      have hv : vs[i]? = some vs[i] := List.getElem?_eq_getElem _
      rw [findField_some ha hf he]
      simp only
      rw [setField_eq hf ho]
      have hmem : f ∈ fs := List.mem_of_getElem? hf
      have hs : SameName f.1 kv.1 := (foldName_iff (hn f hmem)).1 he
      rcases h i f _ _ hf ho hv with ⟨hm, -⟩ | ⟨j, hj, hr⟩
      · exact absurd hs (hm kv (by simp))
      · rcases only_cons hj with ⟨-, rfl, hm⟩ | ⟨hc, -⟩
        · rw [hr]
          simp only [Option.map_some, Option.bind_eq_bind, Option.bind_some]
          refine fold_reads ha hn kvs _ vs (by simpa using h1) h2 ?_
          intro k g o w hg hok hw
          by_cases hki : k = i
          · subst hki
            rw [hf] at hg
            cases hg
            rw [List.getElem?_set_self (by omega)] at hok
            cases hok
            rw [hv] at hw
            cases hw
            exact .inl ⟨hm, rfl⟩
          · rw [List.getElem?_set_ne (by omega)] at hok
            have hns : ¬ SameName g.1 kv.1 := by
              intro hc
              exact hki (apart_index ha hg hf (((foldName_iff (hn g (List.mem_of_getElem? hg))).2 hc).trans he.symm))
            rcases h k g o w hg hok hw with ⟨hm, e⟩ | ⟨j, hj, hr⟩
            · exact .inl ⟨fun x hx => hm x (by simp [hx]), e⟩
            · rcases only_cons hj with ⟨hc, -⟩ | ⟨-, hj⟩
              · exact absurd hc hns
              · exact .inr ⟨j, hj, hr⟩
        · exact absurd hs hc
    · have hnone : ∀ f ∈ fs, foldName f.1 ≠ foldName kv.1 := by
        intro f hf he
        obtain ⟨i, hi⟩ := List.mem_iff_getElem?.1 hf
        exact hex ⟨i, f, hi, he⟩
      rw [findField_none hnone]
      simp only [Option.bind_eq_bind, Option.bind_some]
      refine fold_reads ha hn kvs olds vs h1 h2 ?_
      intro k g o w hg hok hw
      have hns : ¬ SameName g.1 kv.1 := fun hc => hex ⟨k, g, hg, (foldName_iff (hn g (List.mem_of_getElem? hg))).2 hc⟩
      rcases h k g o w hg hok hw with ⟨hm, e⟩ | ⟨j, hj, hr⟩
      · exact .inl ⟨fun x hx => hm x (by simp [hx]), e⟩
      · rcases only_cons hj with ⟨hc, -⟩ | ⟨-, hj⟩
        · exact absurd hc hns
        · exact .inr ⟨j, hj, hr⟩

theorem zeroVals_eq (fs : List TyField) : zeroVals fs = fs.map fun f => zeroVal f.2.2 := by
  induction fs with
  | nil => rfl
  | cons f fs ih => obtain ⟨a, b, c⟩ := f; simp [zeroVals, ih]

/-- An object is read into a new structure field by field. -/
theorem fromJson_object {fs : List TyField} {vs : List Val} {kvs : List (Bytes × Json)} (ha : Apart fs) (hn : ∀ f ∈ fs, AsciiName f.1)
    (h : List.Forall₂ (fun (f : TyField) v => FieldReads ft kvs f.1 f.2.2 (zeroVal f.2.2) v) fs vs) :
    fromJson ft (.struct fs) (zeroVal (.struct fs)) (.obj kvs) = some (.struct vs) := by
  simp only [fromJson, zeroVal]
  refine congrArg (Option.map Val.struct) (fold_reads (ft := ft) ha hn kvs (zeroVals fs) vs (by simp [zeroVals_eq]) h.length_eq.symm ?_)
  intro i f o v hf ho hv
  rw [zeroVals_eq, List.getElem?_map, hf] at ho
  simp at ho
  subst ho
  obtain ⟨h1, rfl⟩ := List.getElem?_eq_some_iff.1 hf
  obtain ⟨h2, rfl⟩ := List.getElem?_eq_some_iff.1 hv
  exact (List.forall₂_iff_get.1 h).2 i h1 h2

end Verif.Go
