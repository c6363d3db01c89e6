import Verif.Go.Bytes

/-!
# UTF-8 as seen by Go

Go's `unicode/utf8.DecodeRune` either recognises a well-formed rune of 1 to 4 bytes at the
start of the input or reports an invalid encoding of width 1.
-/

namespace Verif.Go

/-- A continuation byte (`10xxxxxx`). -/
def isCont (b : UInt8) : Bool := 0x80 ≤ b && b ≤ 0xBF

/-- First two bytes of a well-formed three-byte rune (`unicode/utf8` acceptRanges: no
overlong forms, no surrogates). -/
def lead3 (b0 b1 : UInt8) : Bool :=
  (b0 == 0xE0 && 0xA0 ≤ b1 && b1 ≤ 0xBF) ||
  (0xE1 ≤ b0 && b0 ≤ 0xEC && isCont b1) ||
  (b0 == 0xED && 0x80 ≤ b1 && b1 ≤ 0x9F) ||
  (0xEE ≤ b0 && b0 ≤ 0xEF && isCont b1)

/-- First two bytes of a well-formed four-byte rune (at most U+10FFFF, no overlong forms). -/
def lead4 (b0 b1 : UInt8) : Bool :=
  (b0 == 0xF0 && 0x90 ≤ b1 && b1 ≤ 0xBF) ||
  (0xF1 ≤ b0 && b0 ≤ 0xF3 && isCont b1) ||
  (b0 == 0xF4 && 0x80 ≤ b1 && b1 ≤ 0x8F)

/-- The width of the rune at the start of the input as found by `utf8.DecodeRune`;
0 when the encoding is invalid (where Go reports width 1 and U+FFFD) or the input is empty. -/
def runeSize : Bytes → Nat
  | [] => 0
  | b0 :: t =>
    if b0 < 0x80 then 1
    else match t with
      | [] => 0
      | b1 :: t1 =>
        if 0xC2 ≤ b0 && b0 ≤ 0xDF && isCont b1 then 2
        else match t1 with
          | [] => 0
          | b2 :: t2 =>
            if lead3 b0 b1 && isCont b2 then 3
            else match t2 with
              | [] => 0
              | b3 :: _ => if lead4 b0 b1 && isCont b2 && isCont b3 then 4 else 0

/-- What one step of a Go loop over the runes of a string sees. -/
inductive Chunk
  | ascii (b : UInt8)
  /-- a well-formed rune of two or more bytes -/
  | multi (bs : Bytes)
  /-- one byte that does not start a well-formed rune -/
  | bad (b : UInt8)
  deriving DecidableEq, Repr

/-- The bytes a chunk was read from. -/
def Chunk.raw : Chunk → Bytes
  | .ascii b => [b]
  | .multi bs => bs
  | .bad b => [b]

/-- U+FFFD, the replacement character. -/
def replacement : Bytes := [0xEF, 0xBF, 0xBD]

/-- The chunk with an invalid byte replaced by U+FFFD. -/
def Chunk.fixed : Chunk → Bytes
  | .ascii b => [b]
  | .multi bs => bs
  | .bad _ => replacement

/-- The first chunk of `b :: t`. -/
def headChunk (b : UInt8) (t : Bytes) : Chunk :=
  if b < 0x80 then .ascii b
  else match runeSize (b :: t) with
    | 0 => .bad b
    | n + 1 => .multi ((b :: t).take (n + 1))

/-- Decomposition of a string into runes; `fuel` bounds the number of runes. -/
def chunksF : Nat → Bytes → List Chunk
  | 0, _ => []
  | _ + 1, [] => []
  | f + 1, b :: t =>
    let c := headChunk b t
    c :: chunksF f ((b :: t).drop c.raw.length)

/-- Decomposition of a string into runes (`for len(s) > 0 { r, n := utf8.DecodeRune(s); s = s[n:] }`). -/
def chunks (s : Bytes) : List Chunk := chunksF s.length s

/-- The string with every invalid byte replaced by U+FFFD (`[]rune` conversion and back). -/
def toValid (s : Bytes) : Bytes := (chunks s).flatMap Chunk.fixed

/-- A string that is well-formed UTF-8 (`utf8.Valid`). -/
def ValidUtf8 (s : Bytes) : Prop := ∀ b, Chunk.bad b ∉ chunks s

/-- `utf8.AppendRune` for a code point given as a number; surrogates and numbers beyond U+10FFFF give U+FFFD. -/
def encodeRune (n : Nat) : Bytes :=
  if n < 0x80 then [UInt8.ofNat n]
  else if n < 0x800 then [UInt8.ofNat (0xC0 + n / 64), UInt8.ofNat (0x80 + n % 64)]
  else if (0xD800 ≤ n ∧ n < 0xE000) ∨ 0x110000 ≤ n then replacement
  else if n < 0x10000 then
    [UInt8.ofNat (0xE0 + n / 4096), UInt8.ofNat (0x80 + n / 64 % 64), UInt8.ofNat (0x80 + n % 64)]
  else
    [UInt8.ofNat (0xF0 + n / 262144), UInt8.ofNat (0x80 + n / 4096 % 64),
     UInt8.ofNat (0x80 + n / 64 % 64), UInt8.ofNat (0x80 + n % 64)]

/-! ## Lemmas -/

theorem runeSize_le (s : Bytes) : runeSize s ≤ s.length := by
  unfold runeSize
  repeat' split
  all_goals simp

theorem headChunk_raw (b : UInt8) (t : Bytes) :
    (headChunk b t).raw = (b :: t).take (headChunk b t).raw.length ∧ 0 < (headChunk b t).raw.length := by
  unfold headChunk
  split
  · simp [Chunk.raw]
  · split
    · simp [Chunk.raw]
    · rename_i n h
      have := runeSize_le (b :: t)
      simp only [Chunk.raw, List.length_take, List.length_cons] at *
      constructor
      · congr 1; omega
      · omega

theorem chunksF_raw {f : Nat} {s : Bytes} (h : s.length ≤ f) : (chunksF f s).flatMap Chunk.raw = s := by
  induction f generalizing s with
  | zero => simp at h; subst h; simp [chunksF]
  | succ f ih =>
    cases s with
    | nil => simp [chunksF]
    | cons b t =>
      simp only [chunksF, List.flatMap_cons]
      obtain ⟨h1, h2⟩ := headChunk_raw b t
      rw [ih (by simp at h ⊢; omega)]
      conv => lhs; lhs; rw [h1]
      exact List.take_append_drop _ _

/-- The decomposition loses nothing. -/
theorem chunks_raw (s : Bytes) : (chunks s).flatMap Chunk.raw = s := chunksF_raw (Nat.le_refl _)

/-- The chunk `c` is what `headChunk` finds, whatever follows it. -/
def Chunk.WF : Chunk → Prop
  | .ascii b => b < 0x80
  | .multi bs => 2 ≤ bs.length ∧ (∀ b ∈ bs, 0x80 ≤ b) ∧ ∀ t, runeSize (bs ++ t) = bs.length
  | .bad b => 0x80 ≤ b

theorem runeSize_take {b : UInt8} {t : Bytes} (hb : ¬ b < 0x80) {n : Nat} (h : runeSize (b :: t) = n + 1) :
    2 ≤ n + 1 ∧ (∀ x ∈ (b :: t).take (n + 1), 0x80 ≤ x) ∧
      ∀ u, runeSize ((b :: t).take (n + 1) ++ u) = n + 1 := by
  simp only [runeSize] at h
  have hb' : 0x80 ≤ b := UInt8.not_lt.1 hb
  rw [if_neg hb] at h
  have l3 : ∀ x y, lead3 x y = true → 0x80 ≤ y := by
    intro x y hxy
    simp [lead3, isCont] at hxy
    have : (128 : UInt8) ≤ 160 := by decide
    rcases hxy with ((hxy | hxy) | hxy) | hxy
    · exact UInt8.le_trans this hxy.1.2
    · exact hxy.2.1
    · exact hxy.1.2
    · exact hxy.2.1
  have l4 : ∀ x y, lead4 x y = true → 0x80 ≤ y := by
    intro x y hxy
    simp [lead4, isCont] at hxy
    have : (128 : UInt8) ≤ 144 := by decide
    rcases hxy with (hxy | hxy) | hxy
    · exact UInt8.le_trans this hxy.1.2
    · exact hxy.2.1
    · exact hxy.1.2
  have ic : ∀ y, isCont y = true → 0x80 ≤ y := by
    intro y hy; simp [isCont] at hy; exact hy.1
  split at h
  · cases h
  · rename_i b1 t1
    split at h
    · rename_i hc
      have hn : n = 1 := by omega
      subst hn
      simp only [Bool.and_eq_true] at hc
      refine ⟨by omega, ?_, ?_⟩
      · intro x hx; simp at hx
        rcases hx with rfl | rfl
        · exact hb'
        · exact ic _ hc.2
      · intro u; simp [runeSize, hb, hc]
    · rename_i hc2
      split at h
      · cases h
      · rename_i b2 t2
        split at h
        · rename_i hc
          have hn : n = 2 := by omega
          subst hn
          simp only [Bool.and_eq_true] at hc
          refine ⟨by omega, ?_, ?_⟩
          · intro x hx; simp at hx
            rcases hx with rfl | rfl | rfl
            · exact hb'
            · exact l3 _ _ hc.1
            · exact ic _ hc.2
          · intro u; simp [runeSize, hb, hc]; simp at hc2; exact hc2
        · rename_i hc3
          split at h
          · cases h
          · rename_i b3 t3
            split at h
            · rename_i hc
              have hn : n = 3 := by omega
              subst hn
              simp only [Bool.and_eq_true] at hc
              refine ⟨by omega, ?_, ?_⟩
              · intro x hx; simp at hx
                rcases hx with rfl | rfl | rfl | rfl
                · exact hb'
                · exact l4 _ _ hc.1.1
                · exact ic _ hc.1.2
                · exact ic _ hc.2
              · intro u
                simp at hc2 hc3
                simp only [List.take_succ_cons, List.take_zero, List.cons_append, List.nil_append, runeSize, hb, if_false]
                rw [if_neg (by simp; exact hc2), if_neg (by simp; exact hc3), if_pos (by simp [hc])]
            · cases h

theorem headChunk_wf (b : UInt8) (t : Bytes) : (headChunk b t).WF := by
  unfold headChunk
  split
  · assumption
  · rename_i hb
    split
    · exact UInt8.not_lt.1 hb
    · rename_i n h
      have hl := runeSize_le (b :: t)
      rw [h] at hl
      obtain ⟨h1, h2, h3⟩ := runeSize_take hb h
      have : ((b :: t).take (n + 1)).length = n + 1 := by
        rw [List.length_take]; omega
      refine ⟨by rw [this]; exact h1, h2, ?_⟩
      intro u; rw [this]; exact h3 u

theorem chunksF_wf {f : Nat} {s : Bytes} : ∀ c ∈ chunksF f s, c.WF := by
  induction f generalizing s with
  | zero => simp [chunksF]
  | succ f ih =>
    cases s with
    | nil => simp [chunksF]
    | cons b t =>
      intro c hc
      simp only [chunksF, List.mem_cons] at hc
      rcases hc with rfl | hc
      · exact headChunk_wf b t
      · exact ih c hc

theorem chunks_wf {s : Bytes} : ∀ c ∈ chunks s, c.WF := chunksF_wf

theorem flatMap_fixed_eq_raw {cs : List Chunk} (h : ∀ b, Chunk.bad b ∉ cs) :
    cs.flatMap Chunk.fixed = cs.flatMap Chunk.raw := by
  induction cs with
  | nil => rfl
  | cons c cs ih =>
    rw [List.flatMap_cons, List.flatMap_cons, ih (fun b hb => h b (List.mem_cons_of_mem _ hb))]
    congr 1
    cases c with
    | ascii => rfl
    | multi => rfl
    | bad b => exact absurd List.mem_cons_self (h b)

/-- Well-formed text is unchanged by the replacement of invalid bytes. -/
theorem toValid_of_valid {s : Bytes} (h : ValidUtf8 s) : toValid s = s := by
  unfold toValid
  rw [flatMap_fixed_eq_raw h, chunks_raw]

theorem chunksF_append {c : Chunk} (hc : c.WF) (hbad : ∀ b, c ≠ .bad b) {f : Nat} {t : Bytes} :
    chunksF (f + 1) (c.raw ++ t) = c :: chunksF f t := by
  cases c with
  | ascii b =>
    have hb : b < 0x80 := hc
    simp [chunksF, Chunk.raw, headChunk, hb]
  | bad b => exact absurd rfl (hbad b)
  | multi bs =>
    obtain ⟨h1, h2, h3⟩ := hc
    cases bs with
    | nil => simp at h1
    | cons b rest =>
      have hb : ¬ b < 0x80 := UInt8.not_lt.2 (h2 b (by simp))
      have h4 := h3 t
      have hh : headChunk b (rest ++ t) = .multi (b :: rest) := by
        unfold headChunk
        rw [if_neg hb]
        simp only [List.cons_append] at h4
        rw [h4]
        simp
      simp only [Chunk.raw, List.cons_append, chunksF, hh]
      simp

theorem chunksF_fuel {f : Nat} {s : Bytes} (h : s.length ≤ f) : chunksF f s = chunks s := by
  have key : ∀ g f (s : Bytes), s.length ≤ f → s.length ≤ g → chunksF f s = chunksF g s := by
    intro g
    induction g with
    | zero => intro f s hf hg; simp at hg; subst hg; cases f <;> simp [chunksF]
    | succ g ih =>
      intro f s hf hg
      cases s with
      | nil => cases f <;> simp [chunksF]
      | cons b t =>
        cases f with
        | zero => simp at hf
        | succ f =>
          simp only [chunksF]
          obtain ⟨h1, h2⟩ := headChunk_raw b t
          rw [ih f _ (by simp at hf ⊢; omega) (by simp at hg ⊢; omega)]
  exact key _ _ _ h (Nat.le_refl _)

/-- Any concatenation of well-formed runes is decomposed into exactly these runes. -/
theorem chunks_flatMap {cs : List Chunk} (hwf : ∀ c ∈ cs, c.WF) (hbad : ∀ b, Chunk.bad b ∉ cs) :
    chunks (cs.flatMap Chunk.raw) = cs := by
  induction cs with
  | nil => simp [chunks, chunksF]
  | cons c cs ih =>
    have hc := hwf c (by simp)
    have hb : ∀ b, c ≠ .bad b := fun b h => hbad b (by simp [h])
    rw [List.flatMap_cons, ← chunksF_fuel (f := (c.raw ++ cs.flatMap Chunk.raw).length + 1) (by omega),
      chunksF_append hc hb, chunksF_fuel (by simp),
      ih (fun c h => hwf c (by simp [h])) (fun b h => hbad b (by simp [h]))]

end Verif.Go
