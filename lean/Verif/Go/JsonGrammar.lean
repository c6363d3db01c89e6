import Verif.Go.JsonTree
import Verif.Go.Text
import Verif.Spec.Json

/-! # The parser reads exactly the grammar of JSON -/

namespace Verif.Go
open Verif.Spec

/-! ## UTF-8 -/

private theorem charOfNat {n : Nat} (hv : n < 0xD800 ∨ (0xDFFF < n ∧ n < 0x110000)) : ∃ c : Char, c.val.toNat = n := by
  have h : n.isValidChar := hv
  refine ⟨Char.ofNat n, ?_⟩
  rw [Char.ofNat, dif_pos h]
  simp [Char.ofNatAux]

private theorem encode_two {b0 b1 : UInt8} (h : (0xC2 ≤ b0 && b0 ≤ 0xDF && isCont b1) = true) : ∃ c : Char, [b0, b1] = String.utf8EncodeChar c := by
  simp only [isCont, Bool.and_eq_true, decide_eq_true_eq, UInt8.le_iff_toNat_le, UInt8.reduceToNat] at h
  obtain ⟨c, hc⟩ := charOfNat (n := (b0.toNat - 0xC0) * 64 + (b1.toNat - 0x80)) (by omega)
  refine ⟨c, ?_⟩
  rw [encodeChar_eq, hc]
  unfold encodeRune
  rw [if_neg (by omega), if_pos (by omega)]
  simp only [List.cons.injEq, ← UInt8.toNat_inj, UInt8.toNat_ofNat', and_true]
  omega

private theorem encode_three {b0 b1 b2 : UInt8} (h : (lead3 b0 b1 && isCont b2) = true) : ∃ c : Char, [b0, b1, b2] = String.utf8EncodeChar c := by
  simp only [lead3, isCont, Bool.and_eq_true, Bool.or_eq_true, decide_eq_true_eq, beq_iff_eq, UInt8.le_iff_toNat_le, ← UInt8.toNat_inj, UInt8.reduceToNat] at h
  obtain ⟨c, hc⟩ := charOfNat (n := (b0.toNat - 0xE0) * 4096 + (b1.toNat - 0x80) * 64 + (b2.toNat - 0x80)) (by omega)
  refine ⟨c, ?_⟩
  rw [encodeChar_eq, hc]
  unfold encodeRune
  rw [if_neg (by omega), if_neg (by omega), if_neg (by omega), if_pos (by omega)]
  simp only [List.cons.injEq, ← UInt8.toNat_inj, UInt8.toNat_ofNat', and_true]
  omega

private theorem encode_four {b0 b1 b2 b3 : UInt8} (h : (lead4 b0 b1 && isCont b2 && isCont b3) = true) : ∃ c : Char, [b0, b1, b2, b3] = String.utf8EncodeChar c := by
  simp only [lead4, isCont, Bool.and_eq_true, Bool.or_eq_true, decide_eq_true_eq, beq_iff_eq, UInt8.le_iff_toNat_le, ← UInt8.toNat_inj, UInt8.reduceToNat] at h
  obtain ⟨c, hc⟩ := charOfNat (n := (b0.toNat - 0xF0) * 262144 + (b1.toNat - 0x80) * 4096 + (b2.toNat - 0x80) * 64 + (b3.toNat - 0x80)) (by omega)
  refine ⟨c, ?_⟩
  rw [encodeChar_eq, hc]
  unfold encodeRune
  rw [if_neg (by omega), if_neg (by omega), if_neg (by omega), if_neg (by omega)]
  simp only [List.cons.injEq, ← UInt8.toNat_inj, UInt8.toNat_ofNat', and_true]
  omega

/-- The multi-byte runes that Go recognises are encodings of characters. -/
theorem multi_char {b : UInt8} {t : Bytes} (hb : ¬ b < 0x80) {n : Nat} (h : runeSize (b :: t) = n + 1) : ∃ c : Char, (b :: t).take (n + 1) = String.utf8EncodeChar c := by
  simp only [runeSize] at h
  rw [if_neg hb] at h
  split at h
  · cases h
  · split at h
    · rename_i hc
      have : n = 1 := by omega
      subst this
      exact encode_two hc
    · split at h
      · cases h
      · split at h
        · rename_i hc
          have : n = 2 := by omega
          subst this
          exact encode_three hc
        · split at h
          · cases h
          · split at h
            · rename_i hc
              have : n = 3 := by omega
              subst this
              exact encode_four hc
            · cases h

theorem ascii_char {b : UInt8} (hb : b < 0x80) : ∃ c : Char, c.val.toNat = b.toNat ∧ String.utf8EncodeChar c = [b] := by
  have hb' : b.toNat < 128 := by simpa [UInt8.lt_iff_toNat_lt] using hb
  obtain ⟨c, hc⟩ := charOfNat (n := b.toNat) (by omega)
  refine ⟨c, hc, ?_⟩
  rw [encodeChar_eq, hc]
  unfold encodeRune
  rw [if_pos hb']
  simp

/-- The first chunk is the encoding of a character, or there is none here. -/
theorem headChunk_cases (b : UInt8) (t : Bytes) :
    (∃ (c : Char) (t' : Bytes), b :: t = String.utf8EncodeChar c ++ t' ∧ (headChunk b t).raw = String.utf8EncodeChar c ∧ (headChunk b t).fixed = String.utf8EncodeChar c ∧
      (0x80 ≤ b ∨ headChunk b t = .ascii b)) ∨
    (NoRune (b :: t) ∧ headChunk b t = .bad b) := by
  unfold headChunk
  split
  · rename_i hb
    obtain ⟨c, -, hc⟩ := ascii_char hb
    exact .inl ⟨c, t, by simp [hc], by simp [Chunk.raw, hc], by simp [Chunk.fixed, hc], .inr rfl⟩
  · rename_i hb
    split
    · rename_i h0
      refine .inr ⟨?_, rfl⟩
      rintro c ⟨u, hu⟩
      have hwf := charChunk_wf c
      have hraw := charChunk_raw c
      unfold charChunk at hwf hraw
      split at hwf
      · rename_i hlt
        rw [if_pos hlt] at hraw
        simp only [Chunk.raw] at hraw
        rw [← hraw] at hu
        simp at hu
        rw [← hu.1] at hb
        simp only [Chunk.WF] at hwf
        exact hb hwf
      · simp only [Chunk.WF] at hwf
        have := hwf.2.2 u
        rw [hu, h0] at this
        omega
    · rename_i n h
      obtain ⟨c, hc⟩ := multi_char hb h
      exact .inl ⟨c, (b :: t).drop (n + 1), by rw [← hc, List.take_append_drop], by simp [Chunk.raw, hc], by simp [Chunk.fixed, hc], .inl (UInt8.not_lt.1 hb)⟩

/-- The chunk at the start of the encoding of a character. -/
theorem headChunk_char (c : Char) {b : UInt8} {t u : Bytes} (h : b :: t = String.utf8EncodeChar c ++ u) : headChunk b t = charChunk c := by
  have hwf := charChunk_wf c
  have hraw := charChunk_raw c
  rw [← hraw] at h
  unfold headChunk
  cases hc : charChunk c with
  | ascii d =>
    rw [hc] at h hwf
    simp [Chunk.raw] at h
    simp only [Chunk.WF] at hwf
    rw [h.1, if_pos hwf]
  | bad d => unfold charChunk at hc; split at hc <;> cases hc
  | multi bs =>
    rw [hc] at h hwf
    simp only [Chunk.raw] at h
    simp only [Chunk.WF] at hwf
    have hb : ¬ b < 0x80 := by
      cases bs with
      | nil => simp at hwf
      | cons x xs =>
        simp at h
        rw [h.1]
        exact UInt8.not_lt.2 (hwf.2.1 x (by simp))
    rw [if_neg hb, h, hwf.2.2 u]
    cases bs with
    | nil => simp at hwf
    | cons x xs => simp

theorem fffd_eq : fffd = replacement := by decide

theorem charChunk_fixed (c : Char) : (charChunk c).fixed = String.utf8EncodeChar c := by
  rw [← charChunk_raw]
  unfold charChunk
  split <;> rfl

theorem noRune_headChunk {b : UInt8} {t : Bytes} (h : NoRune (b :: t)) : headChunk b t = .bad b := by
  rcases headChunk_cases b t with ⟨c, t', h1, -⟩ | h1
  · exact absurd ⟨t', h1.symm⟩ (h c)
  · exact h1.2

private theorem chunks_cons' (b : UInt8) (t : Bytes) : chunks (b :: t) = headChunk b t :: chunks ((b :: t).drop (headChunk b t).raw.length) := by
  have := headChunk_raw b t
  rw [← chunksF_fuel (f := t.length + 1) (s := b :: t) (by simp)]
  simp only [chunksF]
  rw [chunksF_fuel]
  simp; omega

/-- Replacing bytes that are not UTF-8, as the specification describes it. -/
theorem toValid_iff {s t : Bytes} : toValid s = t ↔ Repaired s t := by
  have rec_eq : ∀ b s, toValid (b :: s) = (headChunk b s).fixed ++ toValid ((b :: s).drop (headChunk b s).raw.length) := by
    intro b s
    unfold toValid
    rw [chunks_cons']
    rfl
  constructor
  · rintro rfl
    have key : ∀ n (s : Bytes), s.length ≤ n → Repaired s (toValid s) := by
      intro n
      induction n with
      | zero => intro s h; simp at h; subst h; exact .nil
      | succ n ih =>
        intro s h
        cases s with
        | nil => exact .nil
        | cons b s =>
          rw [rec_eq]
          rcases headChunk_cases b s with ⟨c, t', h1, h2, h3, -⟩ | ⟨h1, h2⟩
          · rw [h3, h2]
            have hl := c.utf8Size_pos
            rw [h1, List.drop_left']
            · refine .char c (ih _ ?_)
              have := congrArg List.length h1
              simp at this h
              omega
            · rfl
          · rw [h2]
            simp only [Chunk.fixed, Chunk.raw, List.length_singleton, List.drop_one, List.tail_cons]
            rw [← fffd_eq]
            exact .bad h1 (ih _ (by simpa using h))
    exact key _ _ (Nat.le_refl _)
  · intro h
    induction h with
    | nil => rfl
    | @char s t c _ ih =>
      cases hc : String.utf8EncodeChar c ++ s with
      | nil => simp at hc
      | cons b u =>
        rw [rec_eq, headChunk_char c hc.symm, charChunk_fixed, charChunk_raw, ← hc, List.drop_left' rfl, ih]
    | @bad s t b hn _ ih =>
      rw [rec_eq, noRune_headChunk hn, fffd_eq]
      simp [Chunk.fixed, Chunk.raw, ih]

/-! ## Strings -/

theorem hexVal_iff {c : UInt8} {n : Nat} : hexVal c = some n ↔ IsHex c n := by
  unfold hexVal IsHex
  simp only [UInt8.le_iff_toNat_le, UInt8.reduceToNat]
  split
  · simp; omega
  · split
    · simp; omega
    · split
      · simp; omega
      · simp; omega

theorem hex4_iff {s : Bytes} {n : Nat} {rest : Bytes} : hex4 s = some (n, rest) ↔ ∃ h, s = h ++ rest ∧ IsHex4 h n := by
  constructor
  · intro h
    unfold hex4 at h
    split at h
    · split at h
      · rename_i a b c d r _ _ _ _ x y z w ha hb hc hd
        simp at h
        obtain ⟨h1, rfl⟩ := h
        exact ⟨[a, b, c, d], rfl, a, b, c, d, x, y, z, w, rfl, hexVal_iff.1 ha, hexVal_iff.1 hb, hexVal_iff.1 hc, hexVal_iff.1 hd, by omega⟩
      · cases h
    · cases h
  · rintro ⟨_, rfl, a, b, c, d, x, y, z, w, rfl, ha, hb, hc, hd, rfl⟩
    simp only [List.cons_append, List.nil_append, hex4, hexVal_iff.2 ha, hexVal_iff.2 hb, hexVal_iff.2 hc, hexVal_iff.2 hd]
    simp; omega

theorem isHex4_lt {h : Bytes} {n : Nat} (hh : IsHex4 h n) : n < 0x10000 := by
  obtain ⟨a, b, c, d, x, y, z, w, -, ha, hb, hc, hd, rfl⟩ := hh
  unfold IsHex at ha hb hc hd
  simp only [UInt8.le_iff_toNat_le, UInt8.reduceToNat] at ha hb hc hd
  omega

theorem lowSurrogate_iff {s : Bytes} {n : Nat} {rest : Bytes} : lowSurrogate s = some (n, rest) ↔ ∃ l, s = 92 :: 117 :: l ++ rest ∧ IsHex4 l n ∧ 0xDC00 ≤ n ∧ n < 0xE000 := by
  constructor
  · intro h
    unfold lowSurrogate at h
    split at h
    · split at h
      · split at h
        · rename_i hx hr
          cases h
          obtain ⟨l, rfl, hl⟩ := hex4_iff.1 hx
          exact ⟨l, rfl, hl, hr⟩
        · cases h
      · cases h
    · cases h
  · rintro ⟨l, rfl, hl, hr⟩
    simp only [List.cons_append, lowSurrogate, hex4_iff.2 ⟨l, rfl, hl⟩]
    rw [if_pos hr]

theorem lowSurrogate_none {s : Bytes} : lowSurrogate s = none ↔ ¬ StartsLow s := by
  constructor
  · rintro h ⟨l, n, s', h1, h2, h3⟩
    rw [lowSurrogate_iff.2 ⟨l, h1, h2, h3⟩] at h
    cases h
  · intro h
    cases hl : lowSurrogate s with
    | none => rfl
    | some p =>
      obtain ⟨n, r⟩ := p
      obtain ⟨l, h1, h2, h3⟩ := lowSurrogate_iff.1 hl
      exact absurd ⟨l, n, r, h1, h2, h3⟩ h

/-- A closing quote does not complete the escape of a low surrogate. -/
theorem startsLow_quote {s r : Bytes} : StartsLow (s ++ 34 :: r) ↔ StartsLow s := by
  constructor
  · rintro ⟨l, n, s', h1, hl, h2⟩
    have hlen : l.length = 4 := by obtain ⟨a, b, c, d, x, y, z, w, rfl, -⟩ := hl; rfl
    have hq : (34 : UInt8) ∉ (92 :: 117 :: l) := by
      obtain ⟨a, b, c, d, x, y, z, w, rfl, ha, hb, hc, hd, -⟩ := hl
      have : ∀ c n, IsHex c n → c ≠ 34 := by
        rintro c n h rfl
        unfold IsHex at h
        simp [UInt8.le_iff_toNat_le] at h
      simp [(this _ _ ha).symm, (this _ _ hb).symm, (this _ _ hc).symm, (this _ _ hd).symm]
    rcases List.append_eq_append_iff.1 h1 with ⟨a', h3, h4⟩ | ⟨c', h3, h4⟩
    · cases a' with
      | nil => simp at h3 h4; exact ⟨l, n, [], by simp [h3], hl, h2⟩
      | cons q a' =>
        simp at h4
        exact absurd (by rw [h3, ← h4.1]; simp) hq
    · exact ⟨l, n, c', h3, hl, h2⟩
  · rintro ⟨l, n, s', h1, h2⟩
    exact ⟨l, n, s' ++ 34 :: r, by rw [h1]; simp, h2⟩

/-- A closing quote does not complete a character. -/
theorem noRune_quote {b : UInt8} {s r : Bytes} : NoRune (b :: (s ++ 34 :: r)) ↔ NoRune (b :: s) := by
  constructor
  · rintro h c ⟨u, hu⟩
    exact h c ⟨u ++ 34 :: r, by rw [← List.append_assoc, hu]; simp⟩
  · rintro h c ⟨u, hu⟩
    rw [← List.cons_append] at hu
    rcases List.append_eq_append_iff.1 hu.symm with ⟨a', h3, h4⟩ | ⟨c', h3, h4⟩
    · cases a' with
      | nil => simp at h3; exact h c ⟨[], by simp [h3]⟩
      | cons q a' =>
        simp at h4
        have hwf := charChunk_wf c
        have hraw := charChunk_raw c
        cases hc : charChunk c with
        | ascii d =>
          rw [hc] at hraw
          simp only [Chunk.raw] at hraw
          rw [← hraw] at h3
          simp at h3
        | bad d => unfold charChunk at hc; split at hc <;> cases hc
        | multi bs =>
          rw [hc] at hraw hwf
          simp only [Chunk.raw] at hraw
          simp only [Chunk.WF] at hwf
          rw [← hraw] at h3
          have := hwf.2.1 34 (by rw [h3, ← h4.1]; simp)
          exact absurd this (by decide)
    · exact h c ⟨c', h3.symm⟩

theorem unescape_short {e x : UInt8} (h : (e, x) ∈ shortEscapes) (rest : Bytes) : unescape (e :: rest) = some ([x], rest) := by
  simp only [shortEscapes, List.mem_cons, Prod.mk.injEq, List.not_mem_nil, or_false] at h
  rcases h with ⟨rfl, rfl⟩ | ⟨rfl, rfl⟩ | ⟨rfl, rfl⟩ | ⟨rfl, rfl⟩ | ⟨rfl, rfl⟩ | ⟨rfl, rfl⟩ | ⟨rfl, rfl⟩ | ⟨rfl, rfl⟩ <;> simp [unescape]

/-- What an escape reads, without the backslash. -/
theorem unescape_cases {s out rest : Bytes} (h : unescape s = some (out, rest)) :
    (∃ e x, (e, x) ∈ shortEscapes ∧ s = e :: rest ∧ out = [x]) ∨ (∃ s', s = 117 :: s' ∧ unescapeU s' = some (out, rest)) := by
  unfold unescape at h
  split at h
  · cases h
  · rename_i c r
    split at h
    · rename_i hc
      cases h
      exact .inl ⟨c, c, by rcases hc with rfl | rfl | rfl <;> decide, rfl, rfl⟩
    all_goals try (split at h)
    · rename_i hc; cases h; subst hc; exact .inl ⟨_, 8, by decide, rfl, rfl⟩
    all_goals try (split at h)
    · rename_i hc; cases h; subst hc; exact .inl ⟨_, 12, by decide, rfl, rfl⟩
    all_goals try (split at h)
    · rename_i hc; cases h; subst hc; exact .inl ⟨_, 10, by decide, rfl, rfl⟩
    all_goals try (split at h)
    · rename_i hc; cases h; subst hc; exact .inl ⟨_, 13, by decide, rfl, rfl⟩
    all_goals try (split at h)
    · rename_i hc; cases h; subst hc; exact .inl ⟨_, 9, by decide, rfl, rfl⟩
    all_goals try (split at h)
    · rename_i hc; subst hc; exact .inr ⟨_, rfl, h⟩
    · cases h

private theorem encode_nat {c : Char} {n : Nat} (h : c.val.toNat = n) : encodeRune n = String.utf8EncodeChar c := by rw [encodeChar_eq, h]

/-- The first byte of a character. -/
theorem char_head {c : Char} {b : UInt8} {t u : Bytes} (h : b :: t = String.utf8EncodeChar c ++ u) : (c.val.toNat = b.toNat ∧ b < 0x80) ∨ (0x80 ≤ b ∧ 0x80 ≤ c.val.toNat) := by
  have hh := headChunk_char c h
  have hwf := headChunk_wf b t
  unfold charChunk at hh
  split at hh
  · rename_i hlt
    left
    unfold headChunk at hh
    split at hh
    · rename_i hb
      refine ⟨?_, hb⟩
      simp only [Chunk.ascii.injEq] at hh
      rw [hh, UInt8.toNat_ofNat']
      omega
    · split at hh <;> cases hh
  · rename_i hge
    right
    unfold headChunk at hh
    split at hh
    · cases hh
    · rename_i hb
      exact ⟨UInt8.not_lt.1 hb, by omega⟩

theorem parseStr_esc {f : Nat} {s out rest : Bytes} (h : unescape s = some (out, rest)) :
    parseStr (f + 1) (92 :: s) = (parseStr f rest).map fun p => (out ++ p.1, p.2) := by
  simp [parseStr, h]

theorem parseStr_raw {f : Nat} {b : UInt8} {t : Bytes} (h1 : b ≠ 34) (h2 : b ≠ 92) (h3 : ¬ b < 0x20) :
    parseStr (f + 1) (b :: t) = (parseStr f ((b :: t).drop (headChunk b t).raw.length)).map fun p => ((headChunk b t).fixed ++ p.1, p.2) := by
  simp [parseStr, h1, h2, h3]

theorem parseStr_sound {f : Nat} {s t r : Bytes} (h : parseStr f s = some (t, r)) : ∃ body, s = body ++ 34 :: r ∧ StringBody body t := by
  induction f generalizing s t with
  | zero => simp [parseStr] at h
  | succ f ih =>
    cases s with
    | nil => simp [parseStr] at h
    | cons b s =>
      simp only [parseStr] at h
      split at h
      · rename_i hb
        cases h
        exact ⟨[], by simp [hb], .nil⟩
      · rename_i hq
        split at h
        · rename_i hb
          subst hb
          split at h
          · cases h
          · rename_i out rest hu
            simp only [Option.map_eq_some_iff, Prod.mk.injEq] at h
            obtain ⟨⟨t', r'⟩, hp, rfl, rfl⟩ := h
            obtain ⟨body, rfl, hbody⟩ := ih hp
            simp only
            rcases unescape_cases hu with ⟨e, x, hm, rfl, rfl⟩ | ⟨s', rfl, hU⟩
            · exact ⟨92 :: e :: body, rfl, .short hm hbody⟩
            · unfold unescapeU at hU
              split at hU
              · cases hU
              · rename_i n rest' h4
                obtain ⟨h, rfl, hh⟩ := hex4_iff.1 h4
                split at hU
                · rename_i hsur
                  split at hU
                  · rename_i m rest'' hlow
                    split at hlow
                    · rename_i hhi
                      obtain ⟨l, rfl, hl, hl2⟩ := lowSurrogate_iff.1 hlow
                      simp only [Option.some.injEq, Prod.mk.injEq] at hU
                      obtain ⟨rfl, rfl⟩ := hU
                      obtain ⟨c, hc⟩ := charOfNat (n := 0x10000 + (n - 0xD800) * 1024 + (m - 0xDC00)) (by omega)
                      refine ⟨92 :: 117 :: h ++ (92 :: 117 :: l ++ body), by simp, ?_⟩
                      rw [encode_nat hc]
                      exact .pair c hh hl hsur.1 hhi hl2.1 hl2.2 hc hbody
                    · cases hlow
                  · rename_i hlow
                    cases hU
                    refine ⟨92 :: 117 :: h ++ body, by simp, ?_⟩
                    rw [← fffd_eq]
                    refine .lone hh hsur.1 hsur.2 ?_ hbody
                    rintro ⟨h1, h2⟩
                    rw [if_pos h1, lowSurrogate_none] at hlow
                    exact hlow (startsLow_quote.2 h2)
                · rename_i hsur
                  cases hU
                  obtain ⟨c, hc⟩ := charOfNat (n := n) (by have := isHex4_lt hh; omega)
                  refine ⟨92 :: 117 :: h ++ body, by simp, ?_⟩
                  rw [encode_nat hc]
                  exact .unicode c (by rw [hc]; exact hh) hbody
        · rename_i hbs
          split at h
          · cases h
          · rename_i hctl
            simp only [Option.map_eq_some_iff, Prod.mk.injEq] at h
            obtain ⟨⟨t', r'⟩, hp, rfl, rfl⟩ := h
            obtain ⟨body, he, hbody⟩ := ih hp
            simp only at he
            rcases headChunk_cases b s with ⟨c, t'', h1, h2, h3, h4⟩ | ⟨h1, h2⟩
            · rw [h2, h1, List.drop_left' rfl] at he
              rw [h3, h1, he]
              refine ⟨String.utf8EncodeChar c ++ body, by simp, .char c ?_ ?_ ?_ hbody⟩
              · have := char_head h1
                simp only [UInt8.lt_iff_toNat_lt, UInt8.le_iff_toNat_le, UInt32.le_iff_toNat_le, UInt8.reduceToNat, UInt32.reduceToNat] at *
                omega
              · rintro rfl
                have := char_head h1
                simp only [UInt8.le_iff_toNat_le, ← UInt8.toNat_inj, UInt8.reduceToNat] at *
                have e : ('"' : Char).val.toNat = 34 := rfl
                omega
              · rintro rfl
                have := char_head h1
                simp only [UInt8.le_iff_toNat_le, ← UInt8.toNat_inj, UInt8.reduceToNat] at *
                have e : ('\\' : Char).val.toNat = 92 := rfl
                omega
            · rw [h2] at he ⊢
              simp only [Chunk.raw, Chunk.fixed, List.length_singleton, List.drop_one, List.tail_cons] at he ⊢
              subst he
              rw [← fffd_eq]
              exact ⟨b :: body, rfl, .bad (noRune_quote.1 h1) hbody⟩

theorem stringBody_parse {body t : Bytes} (h : StringBody body t) {f : Nat} {r : Bytes} (hf : body.length < f) : parseStr f (body ++ 34 :: r) = some (t, r) := by
  induction h generalizing f with
  | nil =>
    cases f with
    | zero => omega
    | succ f => simp [parseStr]
  | @char s t c h1 h2 h3 _ ih =>
    cases f with
    | zero => omega
    | succ f =>
      cases he : String.utf8EncodeChar c ++ s ++ 34 :: r with
      | nil => simp at he
      | cons b u =>
        rw [List.append_assoc] at he
        have hh := char_head he.symm
        have h2' : c.val.toNat ≠ 34 := fun h => h2 (Char.ext (UInt32.toNat_inj.1 h))
        have h3' : c.val.toNat ≠ 92 := fun h => h3 (Char.ext (UInt32.toNat_inj.1 h))
        rw [parseStr_raw, headChunk_char c he.symm, charChunk_fixed, charChunk_raw, ← he, List.drop_left' rfl, ih]
        · rfl
        · have := c.utf8Size_pos
          simp at hf
          omega
        all_goals
          simp only [ne_eq, UInt8.lt_iff_toNat_lt, UInt8.le_iff_toNat_le, UInt32.le_iff_toNat_le, ← UInt8.toNat_inj, UInt8.reduceToNat, UInt32.reduceToNat] at *
          omega
  | @bad s t b hn _ ih =>
    cases f with
    | zero => omega
    | succ f =>
      have hh := noRune_headChunk (noRune_quote (r := r).2 hn)
      have hb : ¬ b < 0x80 := by
        intro hb
        obtain ⟨c, -, hc⟩ := ascii_char hb
        exact hn c ⟨s, by simp [hc]⟩
      rw [List.cons_append, parseStr_raw, hh]
      · simp only [Chunk.raw, Chunk.fixed, List.length_singleton, List.drop_one, List.tail_cons]
        rw [ih (by simpa using hf), fffd_eq]
        rfl
      all_goals
        simp only [ne_eq, UInt8.lt_iff_toNat_lt, ← UInt8.toNat_inj, UInt8.reduceToNat] at *
        omega
  | @short s t e x hm _ ih =>
    cases f with
    | zero => omega
    | succ f =>
      rw [List.cons_append, List.cons_append, parseStr_esc (unescape_short hm _), ih (by simp at hf; omega)]
      rfl
  | @unicode s t h c hh _ ih =>
    cases f with
    | zero => omega
    | succ f =>
      have hu : unescape (117 :: (h ++ (s ++ 34 :: r))) = some (String.utf8EncodeChar c, s ++ 34 :: r) := by
        have hv : c.val.toNat < 0xD800 ∨ (0xDFFF < c.val.toNat ∧ c.val.toNat < 0x110000) := c.valid
        simp only [unescape, unescapeU, hex4_iff.2 ⟨h, rfl, hh⟩]
        rw [if_neg (by decide), if_neg (by decide), if_neg (by decide), if_neg (by decide), if_neg (by decide), if_neg (by decide), if_pos (by trivial), if_neg (by omega), encodeChar_eq]
      simp only [List.cons_append, List.append_assoc]
      rw [parseStr_esc hu, ih (by simp at hf; omega)]
      rfl
  | @pair s t h l hi lo c hh hl h1 h2 h3 h4 hc _ ih =>
    cases f with
    | zero => omega
    | succ f =>
      have hu : unescape (117 :: (h ++ (92 :: 117 :: (l ++ (s ++ 34 :: r))))) = some (String.utf8EncodeChar c, s ++ 34 :: r) := by
        have hlow := lowSurrogate_iff.2 ⟨l, show 92 :: 117 :: (l ++ (s ++ 34 :: r)) = 92 :: 117 :: l ++ (s ++ 34 :: r) by simp, hl, h3, h4⟩
        simp only [unescape, unescapeU, hex4_iff.2 ⟨h, rfl, hh⟩]
        rw [if_neg (by decide), if_neg (by decide), if_neg (by decide), if_neg (by decide), if_neg (by decide), if_neg (by decide), if_pos (by trivial), if_pos (by omega), if_pos h2, hlow]
        simp only
        rw [encode_nat hc]
      simp only [List.cons_append, List.append_assoc]
      rw [parseStr_esc hu, ih (by simp at hf; omega)]
      rfl
  | @lone s t h n hh h1 h2 h3 _ ih =>
    cases f with
    | zero => omega
    | succ f =>
      have hu : unescape (117 :: (h ++ (s ++ 34 :: r))) = some (fffd, s ++ 34 :: r) := by
        have hlow : (if n < 0xDC00 then lowSurrogate (s ++ 34 :: r) else none) = none := by
          split
          · rename_i hlt
            rw [lowSurrogate_none, startsLow_quote]
            exact fun h => h3 ⟨hlt, h⟩
          · rfl
        simp only [unescape, unescapeU, hex4_iff.2 ⟨h, rfl, hh⟩]
        rw [if_neg (by decide), if_neg (by decide), if_neg (by decide), if_neg (by decide), if_neg (by decide), if_neg (by decide), if_pos (by trivial), if_pos ⟨h1, h2⟩, hlow, fffd_eq]
      simp only [List.cons_append, List.append_assoc]
      rw [parseStr_esc hu, ih (by simp at hf; omega)]
      rfl

/-! ## Numbers -/

theorem spanDigits_sound {s ds r : Bytes} (h : spanDigits s = (ds, r)) : s = ds ++ r ∧ ∀ c ∈ ds, IsDigit c := by
  unfold spanDigits at h
  rw [List.span_eq_takeWhile_dropWhile] at h
  cases h
  refine ⟨(List.takeWhile_append_dropWhile).symm, fun c hc => ?_⟩
  simpa using List.mem_takeWhile_imp hc

theorem numInt_sound {s i r : Bytes} (h : numInt s = some (i, r)) : s = i ++ r ∧ (i = [48] ∨ IsDigits i ∧ i.head? ≠ some 48) := by
  unfold numInt at h
  split at h
  · cases h; exact ⟨rfl, .inl rfl⟩
  · rename_i h48
    split at h
    · cases h
    · rename_i ds rest hne hs
      cases h
      obtain ⟨rfl, hd⟩ := spanDigits_sound hs
      refine ⟨rfl, .inr ⟨⟨fun h0 => hne (by rw [h0]), hd⟩, ?_⟩⟩
      intro hh
      cases i with
      | nil => cases hh
      | cons c i => simp at hh; subst hh; exact h48 _ rfl

theorem numFrac_sound {s fr r : Bytes} (h : numFrac s = some (fr, r)) : s = fr ++ r ∧ (fr = [] ∨ ∃ ds, fr = 46 :: ds ∧ IsDigits ds) := by
  unfold numFrac at h
  split at h
  · split at h
    · cases h
    · rename_i ds rest' hne hs
      cases h
      obtain ⟨rfl, hd⟩ := spanDigits_sound hs
      exact ⟨rfl, .inr ⟨ds, rfl, fun h0 => hne (by rw [h0]), hd⟩⟩
  · cases h; exact ⟨rfl, .inl rfl⟩

theorem numExp_sound {s ex r : Bytes} (h : numExp s = some (ex, r)) :
    s = ex ++ r ∧ (ex = [] ∨ ∃ e sg ds, ex = e :: (sg ++ ds) ∧ (e = 101 ∨ e = 69) ∧ (sg = [] ∨ sg = [43] ∨ sg = [45]) ∧ IsDigits ds) := by
  unfold numExp at h
  split at h
  · cases h; exact ⟨rfl, .inl rfl⟩
  · rename_i e rest
    split at h
    · rename_i he
      split at h
      rename_i sign rest1 hsg
      have hs : rest = sign ++ rest1 ∧ (sign = [] ∨ sign = [43] ∨ sign = [45]) := by
        split at hsg <;> cases hsg <;> simp
      split at h
      · cases h
      · rename_i ds rest' hne hd
        cases h
        obtain ⟨rfl, hd2⟩ := spanDigits_sound hd
        refine ⟨by rw [hs.1]; simp, .inr ⟨e, sign, ds, by simp, he, hs.2, fun h0 => hne (by rw [h0]), hd2⟩⟩
    · cases h; exact ⟨rfl, .inl rfl⟩

theorem parseNum_sound {s raw r : Bytes} (h : parseNum s = some (raw, r)) : s = raw ++ r ∧ IsNumber raw := by
  unfold parseNum at h
  split at h
  rename_i sign s1 hsg
  have hs : s = sign ++ s1 ∧ (sign = [] ∨ sign = [45]) := by
    split at hsg <;> cases hsg <;> simp
  split at h
  · cases h
  · rename_i i s2 hi
    split at h
    · cases h
    · rename_i fr s3 hf
      split at h
      · cases h
      · rename_i ex s4 he
        cases h
        obtain ⟨e1, k1⟩ := numInt_sound hi
        obtain ⟨e2, k2⟩ := numFrac_sound hf
        obtain ⟨e3, k3⟩ := numExp_sound he
        refine ⟨by rw [hs.1, e1, e2, e3]; simp, sign, i, fr, ex, by simp, hs.2, k1, k2, k3⟩

private theorem numInt_complete {i rest : Bytes} (h : i = [48] ∨ IsDigits i ∧ i.head? ≠ some 48) (hr : ∀ c, rest.head? = some c → ¬ IsDigit c) :
    numInt (i ++ rest) = some (i, rest) := by
  rcases h with rfl | ⟨⟨hne, hd⟩, hh⟩
  · rfl
  · unfold numInt
    split
    · rename_i r h'
      cases i with
      | nil => exact absurd rfl hne
      | cons c i => simp at h' hh; exact absurd h'.1 hh
    · rw [spanDigits_append hd hr]
      cases i with
      | nil => exact absurd rfl hne
      | cons c i => rfl

private theorem numFrac_complete {fr rest : Bytes} (h : fr = [] ∨ ∃ ds, fr = 46 :: ds ∧ IsDigits ds) (hr : ∀ c, rest.head? = some c → ¬ IsDigit c ∧ c ≠ 46) :
    numFrac (fr ++ rest) = some (fr, rest) := by
  rcases h with rfl | ⟨ds, rfl, hne, hd⟩
  · unfold numFrac
    simp only [List.nil_append]
    split
    · exact absurd rfl (hr 46 rfl).2
    · rfl
  · simp only [List.cons_append, numFrac]
    rw [spanDigits_append hd fun c hc => (hr c hc).1]
    cases ds with
    | nil => exact absurd rfl hne
    | cons c i => rfl

private theorem numExp_complete {ex rest : Bytes} (h : ex = [] ∨ ∃ e sg ds, ex = e :: (sg ++ ds) ∧ (e = 101 ∨ e = 69) ∧ (sg = [] ∨ sg = [43] ∨ sg = [45]) ∧ IsDigits ds)
    (hr : ∀ c, rest.head? = some c → ¬ IsDigit c ∧ c ≠ 101 ∧ c ≠ 69) : numExp (ex ++ rest) = some (ex, rest) := by
  rcases h with rfl | ⟨e, sg, ds, rfl, he, hsg, hne, hd⟩
  · unfold numExp
    simp only [List.nil_append]
    split
    · rfl
    · rename_i e r
      have := (hr e rfl).2
      rw [if_neg (by simp [this])]
  · cases ds with
    | nil => exact absurd rfl hne
    | cons c ds =>
      have hsp := spanDigits_append hd fun c hc => (hr c hc).1
      have hc := hd c (by simp)
      have h43 : c ≠ 43 := by rintro rfl; exact absurd hc (by decide)
      have h45 : c ≠ 45 := by rintro rfl; exact absurd hc (by decide)
      simp only [List.cons_append, numExp, if_pos he]
      rcases hsg with rfl | rfl | rfl
      · simp only [List.nil_append, List.cons_append] at hsp ⊢
        split
        · rename_i heq
          exfalso
          split at heq
          · rename_i hh; cases hh; exact absurd rfl h43
          · rename_i hh; cases hh; exact absurd rfl h45
          · rw [hsp] at heq; cases heq
        · rename_i heq
          revert heq
          split
          · rename_i hh; cases hh; exact absurd rfl h43
          · rename_i hh; cases hh; exact absurd rfl h45
          · intro heq
            rw [hsp] at heq
            cases heq
            simp
      · simp only [List.cons_append, List.nil_append] at hsp ⊢
        rw [hsp]
      · simp only [List.cons_append, List.nil_append] at hsp ⊢
        rw [hsp]

/-- The numbers that the parser reads are the numbers of the grammar. -/
theorem numText_iff {raw : Bytes} : NumText raw ↔ IsNumber raw := by
  constructor
  · intro h
    have := h.parses [] (by intro c hc; cases hc)
    rw [List.append_nil] at this
    exact (parseNum_sound this).2
  · rintro ⟨sign, i, fr, ex, rfl, hs, hi, hf, he⟩
    have hih : ∃ c t, i = c :: t ∧ IsDigit c := by
      rcases hi with rfl | ⟨⟨hne, hd⟩, -⟩
      · exact ⟨48, [], rfl, by decide⟩
      · cases i with
        | nil => exact absurd rfl hne
        | cons c i => exact ⟨c, i, rfl, hd c (by simp)⟩
    obtain ⟨c, t, rfl, hc⟩ := hih
    have hc45 : c ≠ 45 := by rintro rfl; exact absurd hc (by decide)
    refine ⟨?_, fun rest hstop => ?_⟩
    · rcases hs with rfl | rfl
      · exact ⟨c, _, rfl, .inl hc⟩
      · exact ⟨45, _, rfl, .inr rfl⟩
    · have hr := stop_not_digit hstop
      have h3 := numExp_complete he (rest := rest) fun c hc => ⟨(hr c hc).1, (hr c hc).2.2⟩
      have hr2 : ∀ c, (ex ++ rest).head? = some c → ¬ IsDigit c ∧ c ≠ 46 := by
        intro c hc
        rcases he with rfl | ⟨e, sg, ds, rfl, h1, -⟩
        · exact ⟨(hr c hc).1, (hr c hc).2.1⟩
        · simp at hc
          subst hc
          rcases h1 with rfl | rfl <;> decide
      have h2 := numFrac_complete hf hr2
      have hr1 : ∀ c, (fr ++ (ex ++ rest)).head? = some c → ¬ IsDigit c := by
        intro c hc
        rcases hf with rfl | ⟨ds, rfl, -⟩
        · exact (hr2 c hc).1
        · simp at hc; subst hc; decide
      have h1 := numInt_complete hi hr1
      rcases hs with rfl | rfl
      · simp only [List.nil_append, List.append_assoc, List.cons_append] at h1 ⊢
        rw [parseNum_plain hc45 h1 h2 h3]
        simp
      · simp only [List.nil_append, List.append_assoc, List.cons_append] at h1 ⊢
        rw [parseNum_minus h1 h2 h3]
        simp

end Verif.Go
