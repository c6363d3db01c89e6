import Verif.Go.Utf8

/-!
# Unicode text is well-formed UTF-8 in Go's sense

`utf8Text` is the UTF-8 encoding of Lean characters using Lean's own encoder; this ties `ValidUtf8`
to an independent notion of text.
-/

namespace Verif.Go

/-- UTF-8 bytes of a sequence of Unicode characters, by Lean's own encoder. -/
def utf8Text (cs : List Char) : Bytes := cs.flatMap String.utf8EncodeChar

/-- The chunk of a character. -/
def charChunk (c : Char) : Chunk :=
  if c.val.toNat < 0x80 then .ascii (UInt8.ofNat c.val.toNat) else .multi (String.utf8EncodeChar c)

theorem ofNat_le {a : UInt8} {n : Nat} (h : n < 256) : a ≤ UInt8.ofNat n ↔ a.toNat ≤ n := by
  rw [UInt8.le_iff_toNat_le]; simp; omega

theorem le_ofNat {a : UInt8} {n : Nat} (h : n < 256) : UInt8.ofNat n ≤ a ↔ n ≤ a.toNat := by
  rw [UInt8.le_iff_toNat_le]; simp; omega

theorem encodeChar_eq (c : Char) : String.utf8EncodeChar c = encodeRune c.val.toNat := by
  have hv' : c.val.toNat < 0xD800 ∨ (0xDFFF < c.val.toNat ∧ c.val.toNat < 0x110000) := c.valid
  unfold String.utf8EncodeChar encodeRune
  simp only
  generalize c.val.toNat = n at *
  by_cases h1 : n < 0x80
  · rw [if_pos (by omega : n ≤ 0x7f), if_pos h1]
  rw [if_neg (by omega : ¬ n ≤ 0x7f), if_neg h1]
  by_cases h2 : n < 0x800
  · rw [if_pos (by omega : n ≤ 0x7ff), if_pos h2]
    rw [show n / 64 % 32 + 192 = 192 + n / 64 by omega, show n % 64 + 128 = 128 + n % 64 by omega]
  rw [if_neg (by omega : ¬ n ≤ 0x7ff), if_neg h2,
    if_neg (by omega : ¬ ((0xD800 ≤ n ∧ n < 0xE000) ∨ 0x110000 ≤ n))]
  by_cases h3 : n < 0x10000
  · rw [if_pos (by omega : n ≤ 0xffff), if_pos h3]
    rw [show n / 4096 % 16 + 224 = 224 + n / 4096 by omega, show n % 64 + 128 = 128 + n % 64 by omega,
      show n / 64 % 64 + 128 = 128 + n / 64 % 64 by omega]
  rw [if_neg (by omega : ¬ n ≤ 0xffff), if_neg h3]
  rw [show n / 262144 % 8 + 240 = 240 + n / 262144 by omega, show n % 64 + 128 = 128 + n % 64 by omega,
    show n / 64 % 64 + 128 = 128 + n / 64 % 64 by omega,
    show n / 4096 % 64 + 128 = 128 + n / 4096 % 64 by omega]

theorem isCont_ofNat {m : Nat} (h : m < 64) : isCont (UInt8.ofNat (0x80 + m)) = true := by
  simp only [isCont, Bool.and_eq_true, decide_eq_true_eq, UInt8.le_iff_toNat_le]
  simp; omega

/-- The encoding of a Unicode scalar value beyond ASCII is a well-formed multi-byte rune. -/
theorem encodeRune_wf {n : Nat} (h0 : 0x80 ≤ n) (hv : n < 0xD800 ∨ (0xDFFF < n ∧ n < 0x110000)) :
    (Chunk.multi (encodeRune n)).WF := by
  unfold encodeRune
  have ge : ∀ m, 0x80 ≤ m → m < 256 → 0x80 ≤ UInt8.ofNat m := by
    intro m h1 h2; rw [UInt8.le_iff_toNat_le]; simp; omega
  have nlt : ∀ m, 0x80 ≤ m → m < 256 → ¬ UInt8.ofNat m < 0x80 := by
    intro m h1 h2; rw [UInt8.lt_iff_toNat_lt]; simp; omega
  rw [if_neg (by omega)]
  by_cases h2 : n < 0x800
  · rw [if_pos h2]
    refine ⟨by simp, ?_, ?_⟩
    · intro b hb; simp only [List.mem_cons, List.not_mem_nil, or_false] at hb
      rcases hb with rfl | rfl <;> exact ge _ (by omega) (by omega)
    · intro t
      simp only [List.cons_append, List.nil_append, runeSize]
      rw [if_neg (nlt _ (by omega) (by omega)), if_pos]
      · rfl
      · simp only [Bool.and_eq_true, decide_eq_true_eq, isCont_ofNat (Nat.mod_lt n (by omega : 0 < 64)), and_true,
          UInt8.le_iff_toNat_le]
        simp; omega
  rw [if_neg h2, if_neg (by omega : ¬ ((0xD800 ≤ n ∧ n < 0xE000) ∨ 0x110000 ≤ n))]
  by_cases h3 : n < 0x10000
  · rw [if_pos h3]
    refine ⟨by simp, ?_, ?_⟩
    · intro b hb; simp only [List.mem_cons, List.not_mem_nil, or_false] at hb
      rcases hb with rfl | rfl | rfl <;> exact ge _ (by omega) (by omega)
    · intro t
      simp only [List.cons_append, List.nil_append, runeSize]
      rw [if_neg (nlt _ (by omega) (by omega)), if_neg, if_pos]
      · rfl
      · rw [isCont_ofNat (Nat.mod_lt n (by omega : 0 < 64)), Bool.and_true]
        simp only [lead3, isCont, Bool.and_eq_true, Bool.or_eq_true, decide_eq_true_eq, beq_iff_eq,
          UInt8.le_iff_toNat_le, ← UInt8.toNat_inj]
        simp
        omega
      · simp only [Bool.and_eq_true, decide_eq_true_eq, UInt8.le_iff_toNat_le]
        simp; omega
  · rw [if_neg h3]
    refine ⟨by simp, ?_, ?_⟩
    · intro b hb; simp only [List.mem_cons, List.not_mem_nil, or_false] at hb
      rcases hb with rfl | rfl | rfl | rfl <;> exact ge _ (by omega) (by omega)
    · intro t
      simp only [List.cons_append, List.nil_append, runeSize]
      rw [if_neg (nlt _ (by omega) (by omega)), if_neg, if_neg, if_pos]
      · rfl
      · rw [isCont_ofNat (Nat.mod_lt n (by omega : 0 < 64)), Bool.and_true,
          isCont_ofNat (Nat.mod_lt (n / 64) (by omega : 0 < 64)), Bool.and_true]
        simp only [lead4, isCont, Bool.and_eq_true, Bool.or_eq_true, decide_eq_true_eq, beq_iff_eq,
          UInt8.le_iff_toNat_le, ← UInt8.toNat_inj]
        simp
        omega
      · simp only [lead3, isCont, Bool.and_eq_true, Bool.or_eq_true, decide_eq_true_eq, beq_iff_eq,
          UInt8.le_iff_toNat_le, ← UInt8.toNat_inj]
        simp
        omega
      · simp only [Bool.and_eq_true, decide_eq_true_eq, UInt8.le_iff_toNat_le]
        simp; omega

theorem charChunk_wf (c : Char) : (charChunk c).WF := by
  unfold charChunk
  split
  · rename_i h
    show UInt8.ofNat _ < 0x80
    generalize c.val.toNat = n at *
    rw [UInt8.lt_iff_toNat_lt]; simp; omega
  · rename_i h
    rw [encodeChar_eq]
    exact encodeRune_wf (by omega) c.valid

theorem charChunk_raw (c : Char) : (charChunk c).raw = String.utf8EncodeChar c := by
  unfold charChunk
  split
  · rename_i h
    rw [encodeChar_eq, encodeRune, if_pos h]; rfl
  · rfl

/-- Every Unicode text is well-formed UTF-8 in Go's sense. -/
theorem utf8Text_valid (cs : List Char) : ValidUtf8 (utf8Text cs) := by
  have hraw : utf8Text cs = (cs.map charChunk).flatMap Chunk.raw := by
    unfold utf8Text
    induction cs with
    | nil => rfl
    | cons c cs ih => rw [List.flatMap_cons, List.map_cons, List.flatMap_cons, charChunk_raw, ih]
  have hb : ∀ b, Chunk.bad b ∉ cs.map charChunk := by
    intro b hb
    obtain ⟨c, _, hc⟩ := List.mem_map.1 hb
    unfold charChunk at hc
    split at hc <;> cases hc
  intro b
  rw [hraw, chunks_flatMap (by intro c hc; obtain ⟨d, _, rfl⟩ := List.mem_map.1 hc; exact charChunk_wf d) hb]
  exact hb b

/-- The bytes of a Lean string are the `utf8Text` of its characters. -/
theorem toUTF8_eq (t : String) : t.toUTF8.data.toList = utf8Text t.toList := by
  have : t.toUTF8 = t.toList.utf8Encode := by simp
  rw [this]
  simp [List.utf8Encode, utf8Text]

end Verif.Go
