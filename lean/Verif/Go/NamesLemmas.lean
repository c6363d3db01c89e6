import Verif.Go.Marshal
import Verif.Spec.Names

/-! # Lemmas on names that differ only in case -/

namespace Verif.Go
open Verif.Spec

/-- Upper case for ASCII letters. -/
def up (b : UInt8) : UInt8 := if 97 ≤ b ∧ b ≤ 122 then b - 32 else b

theorem up_same : ∀ c d : UInt8, up c = up d ↔ (d = c ∨ (97 ≤ c ∧ c ≤ 122 ∧ d = c - 32) ∨ (65 ≤ c ∧ c ≤ 90 ∧ d = c + 32)) := by
  intro c d
  unfold up
  constructor
  · intro h
    split at h <;> split at h
    all_goals (simp only [← UInt8.toNat_inj, UInt8.le_iff_toNat_le, UInt8.toNat_sub, UInt8.toNat_add, UInt8.reduceToNat] at *; omega)
  · rintro (rfl | ⟨h1, h2, rfl⟩ | ⟨h1, h2, rfl⟩)
    · rfl
    all_goals (split <;> split)
    all_goals (simp only [← UInt8.toNat_inj, UInt8.le_iff_toNat_le, UInt8.toNat_sub, UInt8.toNat_add, UInt8.reduceToNat] at * <;> omega)

theorem up_ascii {c : UInt8} (h : c < 0x80) : up c < 0x80 := by
  unfold up
  split
  all_goals (simp only [UInt8.lt_iff_toNat_lt, UInt8.le_iff_toNat_le, UInt8.toNat_sub, UInt8.reduceToNat] at *; omega)

private theorem chunks_cons (b : UInt8) (t : Bytes) : chunks (b :: t) = headChunk b t :: chunks ((b :: t).drop (headChunk b t).raw.length) := by
  have := headChunk_raw b t
  rw [← chunksF_fuel (f := t.length + 1) (s := b :: t) (by simp)]
  simp only [chunksF]
  rw [chunksF_fuel]
  simp; omega

private theorem foldName_chunk {c : Chunk} (hc : c.WF) (hb : ∀ b, c ≠ .bad b) (t : Bytes) : foldName (c.raw ++ t) = foldChunk c ++ foldName t := by
  unfold foldName
  rw [← chunksF_fuel (f := (c.raw ++ t).length + 1) (by omega), chunksF_append hc hb, chunksF_fuel (by simp)]
  rfl

private theorem foldName_nil : foldName [] = [] := rfl

private theorem foldName_name {name : Bytes} (h : AsciiName name) : foldName name = name.map up := by
  induction name with
  | nil => rfl
  | cons c name ih =>
    have h1 := foldName_chunk (c := .ascii c) (h c (by simp)) (by simp) name
    simp only [Chunk.raw, List.singleton_append] at h1
    rw [h1, ih fun b hb => h b (by simp [hb])]
    rfl

private theorem long_s_wf : Chunk.WF (.multi [0xC5, 0xBF]) := headChunk_wf 0xC5 [0xBF]
private theorem kelvin_wf : Chunk.WF (.multi [0xE2, 0x84, 0xAA]) := headChunk_wf 0xE2 [0x84, 0xAA]

/-- Folding finds the names that are equal up to case. -/
theorem foldName_iff {name : Bytes} (h : AsciiName name) {key : Bytes} : foldName name = foldName key ↔ SameName name key := by
  rw [foldName_name h]
  constructor
  · intro he
    induction name generalizing key with
    | nil =>
      cases key with
      | nil => exact .nil
      | cons b t =>
        exfalso
        unfold foldName at he
        rw [chunks_cons] at he
        have hwf := headChunk_wf b t
        have hr := headChunk_raw b t
        cases hc : headChunk b t with
        | ascii c => simp [hc, foldChunk] at he
        | bad c => simp [hc, foldChunk] at he
        | multi bs =>
          rw [hc] at hr
          simp only [hc, foldChunk, List.flatMap_cons] at he
          split at he
          · cases he
          · split at he
            · cases he
            · cases bs with
              | nil => simp [Chunk.raw] at hr
              | cons => cases he
    | cons c name ih =>
      have hc0 := up_ascii (h c (by simp))
      have ih := @ih fun b hb => h b (by simp [hb])
      cases key with
      | nil => cases he
      | cons b t =>
        unfold foldName at he
        rw [chunks_cons] at he
        have hwf := headChunk_wf b t
        have hr := headChunk_raw b t
        have hk : b :: t = (headChunk b t).raw ++ (b :: t).drop (headChunk b t).raw.length := by
          conv_lhs => rw [← List.take_append_drop (headChunk b t).raw.length (b :: t), ← hr.1]
        rw [hk]
        revert he
        generalize (b :: t).drop (headChunk b t).raw.length = rest
        intro he
        cases hc : headChunk b t with
        | ascii d =>
          simp only [hc, foldChunk, List.map_cons, List.flatMap_cons, List.singleton_append, List.cons.injEq] at he
          refine .cons ?_ (ih he.2)
          rcases (up_same c d).1 he.1 with h | ⟨h1, h2, h⟩ | ⟨h1, h2, h⟩
          · exact .inl (by simp [Chunk.raw, h])
          · exact .inr (.inl ⟨h1, h2, by simp [Chunk.raw, h]⟩)
          · exact .inr (.inr (.inl ⟨h1, h2, by simp [Chunk.raw, h]⟩))
        | bad d =>
          simp only [hc, foldChunk, List.map_cons, List.flatMap_cons, List.singleton_append, List.cons.injEq] at he
          rw [hc] at hwf
          simp only [Chunk.WF] at hwf
          rw [he.1] at hc0
          exact absurd hc0 (UInt8.not_lt.2 hwf)
        | multi bs =>
          simp only [hc, foldChunk, List.map_cons, List.flatMap_cons] at he
          split at he
          · rename_i hb
            simp only [List.singleton_append, List.cons.injEq] at he
            refine .cons ?_ (ih he.2)
            refine .inr (.inr (.inr (.inr ⟨?_, hb⟩)))
            have : up c = up 75 := by rw [he.1]; rfl
            rcases (up_same c 75).1 this with h | ⟨h1, h2, h⟩ | ⟨h1, h2, h⟩
            · exact .inl h.symm
            · right
              simp only [← UInt8.toNat_inj, UInt8.le_iff_toNat_le, UInt8.toNat_sub, UInt8.reduceToNat] at *
              omega
            · simp only [← UInt8.toNat_inj, UInt8.le_iff_toNat_le, UInt8.toNat_add, UInt8.reduceToNat] at *
              omega
          · split at he
            · rename_i hb
              simp only [List.singleton_append, List.cons.injEq] at he
              refine .cons ?_ (ih he.2)
              refine .inr (.inr (.inr (.inl ⟨?_, hb⟩)))
              have : up c = up 83 := by rw [he.1]; rfl
              rcases (up_same c 83).1 this with h | ⟨h1, h2, h⟩ | ⟨h1, h2, h⟩
              · exact .inl h.symm
              · right
                simp only [← UInt8.toNat_inj, UInt8.le_iff_toNat_le, UInt8.toNat_sub, UInt8.reduceToNat] at *
                omega
              · simp only [← UInt8.toNat_inj, UInt8.le_iff_toNat_le, UInt8.toNat_add, UInt8.reduceToNat] at *
                omega
            · rw [hc] at hwf hr
              cases bs with
              | nil => simp [Chunk.raw] at hr
              | cons d bs =>
                simp only [List.cons_append, List.cons.injEq] at he
                exfalso
                have hd : d = b := by simpa [Chunk.raw] using (List.cons.inj hr.1).1
                subst hd
                unfold headChunk at hc
                rw [← he.1] at hc
                rw [if_pos hc0] at hc
                cases hc
  · intro hs
    induction hs with
    | nil => rfl
    | @cons c b name key hl _ ih =>
      have ih := ih fun b hb => h b (by simp [hb])
      have hc0 := h c (by simp)
      simp only [List.map_cons]
      have one : ∀ d : UInt8, d < 0x80 → up c = up d → up c :: name.map up = foldName ([d] ++ key) := by
        intro d hd he
        have := foldName_chunk (c := .ascii d) hd (by simp) key
        simp only [Chunk.raw] at this
        rw [this, ih, he]
        rfl
      rcases hl with rfl | ⟨h1, h2, rfl⟩ | ⟨h1, h2, rfl⟩ | ⟨h1, rfl⟩ | ⟨h1, rfl⟩
      · exact one c hc0 rfl
      · refine one _ ?_ ((up_same _ _).2 (.inr (.inl ⟨h1, h2, rfl⟩)))
        simp only [UInt8.lt_iff_toNat_lt, UInt8.le_iff_toNat_le, UInt8.toNat_sub, UInt8.reduceToNat] at *
        omega
      · refine one _ ?_ ((up_same _ _).2 (.inr (.inr ⟨h1, h2, rfl⟩)))
        simp only [UInt8.lt_iff_toNat_lt, UInt8.le_iff_toNat_le, UInt8.toNat_add, UInt8.reduceToNat] at *
        omega
      · have := foldName_chunk long_s_wf (by simp) key
        simp only [Chunk.raw] at this
        rw [this, ← ih]
        rcases h1 with rfl | rfl <;> rfl
      · have := foldName_chunk kelvin_wf (by simp) key
        simp only [Chunk.raw] at this
        rw [this, ← ih]
        rcases h1 with rfl | rfl <;> rfl

end Verif.Go
