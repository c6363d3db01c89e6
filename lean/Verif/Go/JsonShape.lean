import Verif.Spec.Documents
import Verif.Go.MarshalLemmas
import Verif.Go.JsonGrammar
import Verif.Go.TimeTextLemmas
import Verif.Go.DecimalLemmas

/-!
# What `json.Marshal` writes, member by member
-/

namespace Verif.Go
open Verif.Spec

variable {ft : FloatText}

mutual
/-- The JSON value that a reader sees for a Go value. -/
def Shape (ft : FloatText) : Ty → Val → Json → Prop
  | .string, .str s, j => Doc.text s j
  | .int _ _, .int n, j => Doc.int n j
  | .float, .float x, j => Doc.float ft x j
  | .time, .time t, j => Doc.time t.ns t.zone j
  | .ptr t, .ref v, j => Shape ft t v j
  | .slice t, .list vs, j => Doc.array (Shape ft t) vs j
  | .struct fs, .struct vs, j => ∃ kvs, Shapes ft fs vs kvs ∧ j = .obj kvs
  | _, _, j => j = .null
/-- The members for the fields of a structure. -/
def Shapes (ft : FloatText) : List TyField → List Val → List (Bytes × Json) → Prop
  | (name, opt, t) :: fs, v :: vs, kvs =>
    if opt = true ∧ v.isEmpty = true then Shapes ft fs vs kvs else ∃ j rest, Shape ft t v j ∧ Shapes ft fs vs rest ∧ kvs = (name, j) :: rest
  | _, _, kvs => kvs = []
end

private theorem fixedElems_eq (js : List Json) : fixedElems js = js.map Json.fixed := by
  induction js with
  | nil => rfl
  | cons j js ih => simp [fixedElems, ih]

private theorem mapM_shape {P : Val → Json → Prop} {f : Val → Option Json} : ∀ {vs : List Val} {js : List Json}, (∀ v ∈ vs, ∀ j, f v = some j → P v j.fixed) →
    vs.mapM f = some js → List.Forall₂ P vs (js.map Json.fixed)
  | [], js, _, h => by simp at h; subst h; exact .nil
  | v :: vs, js, hp, h => by
    rw [List.mapM_cons] at h
    cases hv : f v with
    | none => simp [hv] at h
    | some j =>
      cases hs : vs.mapM f with
      | none => simp [hv, hs] at h
      | some js' =>
        simp [hv, hs] at h
        subst h
        exact .cons (hp v (by simp) j hv) (mapM_shape (fun v hv => hp v (by simp [hv])) hs)

mutual
/-- `json.Marshal` writes a value of this shape. -/
theorem toJson_shape : ∀ (t : Ty) {n : Nat} {v : Val} {j : Json}, Ty.Clear n t → Expressible ft t v → toJson ft t v = some j → Shape ft t v j.fixed
  | .string, n, v, j, _, _, h => by
    cases v <;> simp [toJson] at h
    subst h
    exact ⟨_, toValid_iff.1 rfl, rfl⟩
  | .int _ _, n, v, j, _, _, h => by
    cases v <;> simp [toJson] at h
    subst h
    exact ⟨_, signedVal_iff.1 (signedVal_itoa _), rfl⟩
  | .float, n, v, j, _, hx, h => by
    cases v <;> simp [toJson] at h
    obtain ⟨q, rfl, h1, h2⟩ := hx
    simp at h
    subst h
    exact ⟨_, h2, rfl⟩
  | .time, n, v, j, _, _, h => by
    cases v <;> simp [toJson] at h
    obtain ⟨hw, rfl⟩ := h
    refine ⟨_, parseRFC3339_iff.1 (parseRFC3339_format hw), ?_⟩
    simp only [Json.fixed]
    rw [toValid_ascii (formatRFC3339_ascii _)]
  | .ptr t, n, v, j, hc, hx, h => by
    cases v <;> simp [toJson] at h
    · subst h; rfl
    · simp only [Ty.Clear] at hc
      exact toJson_shape t hc.2 hx h
  | .slice t, n, v, j, hc, hx, h => by
    cases n with
    | zero => simp [Ty.Clear] at hc
    | succ n =>
      simp only [Ty.Clear] at hc
      cases v <;> simp [toJson] at h
      · subst h; rfl
      · obtain ⟨js, h1, rfl⟩ := h
        refine ⟨_, mapM_shape (fun v hv j hj => toJson_shape t hc (hx v hv) hj) h1, ?_⟩
        rw [Json.fixed, fixedElems_eq]
  | .struct fs, n, v, j, hc, hx, h => by
    cases n with
    | zero => simp [Ty.Clear] at hc
    | succ n =>
      simp only [Ty.Clear] at hc
      cases v <;> simp [toJson] at h
      obtain ⟨kvs, h1, rfl⟩ := h
      exact ⟨_, toMembers_shape fs hc.2 hx h1, rfl⟩
theorem toMembers_shape : ∀ (fs : List TyField) {n : Nat} {vs : List Val} {kvs : List (Bytes × Json)}, Fields.Clear n fs → Expressibles ft fs vs →
    toMembers ft fs vs = some kvs → Shapes ft fs vs (fixedMembers kvs)
  | [], n, vs, kvs, _, _, h => by
    cases vs <;> simp [toMembers] at h
    subst h; rfl
  | (name, opt, t) :: fs, n, vs, kvs, hc, hx, h => by
    cases vs with
    | nil => simp [toMembers] at h
    | cons v vs =>
      simp only [toMembers] at h
      simp only [Fields.Clear] at hc
      simp only [Expressibles] at hx
      simp only [Shapes]
      split at h
      · rename_i he
        rw [if_pos he]
        exact toMembers_shape fs hc.2.2 hx.2 h
      · rename_i he
        rw [if_neg he]
        split at h
        · rename_i j rest hj hr
          cases h
          refine ⟨_, _, toJson_shape t hc.2.1 hx.1 hj, toMembers_shape fs hc.2.2 hx.2 hr, ?_⟩
          simp only [fixedMembers]
          rw [toValid_ascii hc.1]
        · cases h
end

/-- Members that are as described. -/
abbrev Described (ms : Doc.Members) (kvs : List (Bytes × Json)) : Prop := List.Forall₂ (fun (m : Bytes × (Json → Prop)) (kv : Bytes × Json) => kv.1 = m.1 ∧ m.2 kv.2) ms kvs

theorem described_nil {kvs : List (Bytes × Json)} (h : Shapes ft [] [] kvs) : Described [] kvs := by
  simp only [Shapes] at h
  subst h; exact .nil

/-- A field without `omitempty`. -/
theorem described_must {name : String} {t : Ty} {v : Val} {fs : List TyField} {vs : List Val} {P : Json → Prop} {ms : Doc.Members} {kvs : List (Bytes × Json)}
    (h : Shapes ft ((str name, false, t) :: fs) (v :: vs) kvs) (hp : ∀ j, Shape ft t v j → P j) (hr : ∀ kvs, Shapes ft fs vs kvs → Described ms kvs) :
    Described (Doc.must name P ++ ms) kvs := by
  simp only [Shapes] at h
  simp at h
  obtain ⟨j, h1, rest, h2, rfl⟩ := h
  exact .cons ⟨rfl, hp j h1⟩ (hr _ h2)

/-- A field with `omitempty`. -/
theorem described_may {name : Bytes} {t : Ty} {v : Val} {fs : List TyField} {vs : List Val} {d ms : Doc.Members} {kvs : List (Bytes × Json)}
    (h : Shapes ft ((name, true, t) :: fs) (v :: vs) kvs) (h0 : v.isEmpty = true → d = [])
    (h1 : v.isEmpty = false → ∃ P, d = [(name, P)] ∧ ∀ j, Shape ft t v j → P j) (hr : ∀ kvs, Shapes ft fs vs kvs → Described ms kvs) :
    Described (d ++ ms) kvs := by
  simp only [Shapes] at h
  cases he : v.isEmpty with
  | true =>
    rw [if_pos (by simp [he])] at h
    rw [h0 he]
    exact hr _ h
  | false =>
    rw [if_neg (by simp [he])] at h
    obtain ⟨j, rest, h2, h3, rfl⟩ := h
    obtain ⟨P, rfl, hp⟩ := h1 he
    exact .cons ⟨rfl, hp j h2⟩ (hr _ h3)

end Verif.Go
