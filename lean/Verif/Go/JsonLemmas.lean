import Verif.Go.Json
import Verif.Go.Text

/-! # Round trip of JSON string literals -/

namespace Verif.Go

theorem quoteChunk_length_pos (c : Chunk) (h : c.WF) : 0 < (quoteChunk c).length := by
  cases c with
  | ascii b =>
    simp only [quoteChunk]
    repeat' split
    all_goals simp
  | multi bs =>
    have := h.1
    simp only [quoteChunk]
    repeat' split
    all_goals simp
    omega
  | bad b => simp [quoteChunk]

theorem hexVal_hexDigit {n : Nat} (h : n < 16) : hexVal (hexDigit n) = some n := by
  unfold hexVal hexDigit
  split
  · simp only [UInt8.le_iff_toNat_le]
    simp
    rw [if_pos (by omega)]
    congr 1; omega
  · simp only [UInt8.le_iff_toNat_le]
    simp
    rw [if_neg (by omega), if_pos (by omega)]
    congr 1; omega

theorem unescape_u00 {b : UInt8} (hb : b < 0x80) (rest : Bytes) :
    unescape (117 :: 48 :: 48 :: hexDigit (b.toNat / 16) :: hexDigit (b.toNat % 16) :: rest) = some ([b], rest) := by
  have hb' : b.toNat < 128 := by rw [UInt8.lt_iff_toNat_lt] at hb; simpa using hb
  have h0 : hexVal 48 = some 0 := by decide
  simp only [unescape, unescapeU, hex4, h0, hexVal_hexDigit (show b.toNat / 16 < 16 by omega),
    hexVal_hexDigit (show b.toNat % 16 < 16 by omega)]
  have hn : ((0 * 16 + 0) * 16 + b.toNat / 16) * 16 + b.toNat % 16 = b.toNat := by omega
  rw [hn]
  simp
  rw [if_neg (by omega)]
  unfold encodeRune
  rw [if_pos (by omega)]
  simp

/-- One chunk of a string literal is read back in one step. -/
theorem parseStr_chunk {c : Chunk} (hwf : c.WF) (f : Nat) (tail : Bytes) :
    parseStr (f + 1) (quoteChunk c ++ tail) = (parseStr f tail).map fun p => (c.fixed ++ p.1, p.2) := by
  cases c with
  | ascii b =>
    have hb : b < 0x80 := hwf
    have hhead : ∀ t, headChunk b t = .ascii b := fun t => by simp [headChunk, hb]
    simp only [quoteChunk]
    by_cases h1 : b = 34 ∨ b = 92
    · rw [if_pos h1]
      rcases h1 with rfl | rfl <;> simp [parseStr, unescape, Chunk.fixed]
    rw [if_neg h1]
    by_cases h2 : b = 8
    · rw [if_pos h2]; subst h2; simp [parseStr, unescape, Chunk.fixed]
    rw [if_neg h2]
    by_cases h3 : b = 12
    · rw [if_pos h3]; subst h3; simp [parseStr, unescape, Chunk.fixed]
    rw [if_neg h3]
    by_cases h4 : b = 10
    · rw [if_pos h4]; subst h4; simp [parseStr, unescape, Chunk.fixed]
    rw [if_neg h4]
    by_cases h5 : b = 13
    · rw [if_pos h5]; subst h5; simp [parseStr, unescape, Chunk.fixed]
    rw [if_neg h5]
    by_cases h6 : b = 9
    · rw [if_pos h6]; subst h6; simp [parseStr, unescape, Chunk.fixed]
    rw [if_neg h6]
    by_cases h7 : b < 0x20 ∨ b = 60 ∨ b = 62 ∨ b = 38
    · rw [if_pos h7]
      simp only [List.cons_append, List.nil_append, parseStr]
      rw [if_neg (by decide), if_pos trivial]
      rw [unescape_u00 hb]
      rfl
    · rw [if_neg h7]
      simp only [not_or] at h7 h1
      simp only [List.cons_append, List.nil_append, parseStr, hhead]
      rw [if_neg h1.1, if_neg h1.2, if_neg h7.1]
      rfl
  | multi bs =>
    obtain ⟨h1, h2, h3⟩ := hwf
    simp only [quoteChunk]
    by_cases hA8 : bs = [0xE2, 0x80, 0xA8]
    · rw [if_pos hA8]; subst hA8
      simp only [List.cons_append, List.nil_append, parseStr]
      rw [if_neg (by decide), if_pos trivial]
      have : unescape (117 :: 50 :: 48 :: 50 :: 56 :: tail) = some ([0xE2, 0x80, 0xA8], tail) := by
        have e0 : hexVal 48 = some 0 := by decide
        have e2 : hexVal 50 = some 2 := by decide
        have e8 : hexVal 56 = some 8 := by decide
        simp [unescape, unescapeU, hex4, e0, e2, e8, encodeRune]
      rw [this]; rfl
    rw [if_neg hA8]
    by_cases hA9 : bs = [0xE2, 0x80, 0xA9]
    · rw [if_pos hA9]; subst hA9
      simp only [List.cons_append, List.nil_append, parseStr]
      rw [if_neg (by decide), if_pos trivial]
      have : unescape (117 :: 50 :: 48 :: 50 :: 57 :: tail) = some ([0xE2, 0x80, 0xA9], tail) := by
        have e0 : hexVal 48 = some 0 := by decide
        have e2 : hexVal 50 = some 2 := by decide
        have e8 : hexVal 57 = some 9 := by decide
        simp [unescape, unescapeU, hex4, e0, e2, e8, encodeRune]
      rw [this]; rfl
    rw [if_neg hA9]
    cases bs with
    | nil => simp at h1
    | cons b rest =>
      have hb0 : 0x80 ≤ b := h2 b (by simp)
      have hb : ¬ b < 0x80 := UInt8.not_lt.2 hb0
      have hn := h3 tail
      have hh : headChunk b (rest ++ tail) = .multi (b :: rest) := by
        unfold headChunk
        rw [if_neg hb]
        simp only [List.cons_append] at hn
        rw [hn]
        simp
      have ge20 : ¬ b < 0x20 := by
        rw [UInt8.lt_iff_toNat_lt]; rw [UInt8.le_iff_toNat_le] at hb0
        simp at hb0 ⊢; omega
      have ne34 : b ≠ 34 := by rintro rfl; exact absurd hb0 (by decide)
      have ne92 : b ≠ 92 := by rintro rfl; exact absurd hb0 (by decide)
      simp only [List.cons_append, parseStr, hh]
      rw [if_neg ne34, if_neg ne92, if_neg ge20]
      simp only [Chunk.raw, Chunk.fixed]
      congr 2
      simp
  | bad b =>
    simp only [quoteChunk, List.cons_append, List.nil_append, parseStr]
    rw [if_neg (by decide), if_pos trivial]
    have : unescape (117 :: 102 :: 102 :: 102 :: 100 :: tail) = some (replacement, tail) := by
      have ef : hexVal 102 = some 15 := by decide
      have ed : hexVal 100 = some 13 := by decide
      simp [unescape, unescapeU, hex4, ef, ed, encodeRune]
      decide
    rw [this]; rfl

theorem parseStr_chunks {cs : List Chunk} (hwf : ∀ c ∈ cs, c.WF) {f : Nat} {rest : Bytes}
    (hf : (cs.flatMap quoteChunk).length + 1 ≤ f) :
    parseStr f (cs.flatMap quoteChunk ++ 34 :: rest) = some (cs.flatMap Chunk.fixed, rest) := by
  induction cs generalizing f with
  | nil =>
    cases f with
    | zero => simp at hf
    | succ f => simp [parseStr]
  | cons c cs ih =>
    have hc := hwf c (by simp)
    have hp := quoteChunk_length_pos c hc
    cases f with
    | zero => omega
    | succ f =>
      simp only [List.flatMap_cons, List.length_append] at hf ⊢
      rw [List.append_assoc, parseStr_chunk hc, ih (fun d hd => hwf d (by simp [hd])) (by omega)]
      rfl

/-- A string literal written by `json.Marshal` is read back as the text with invalid bytes replaced. -/
theorem parseStr_quoteBody (s rest : Bytes) {f : Nat} (hf : (quoteBody s).length + 1 ≤ f) :
    parseStr f (quoteBody s ++ 34 :: rest) = some (toValid s, rest) :=
  parseStr_chunks chunks_wf hf

/-! ## Objects of string members -/

theorem skipWs_cons {c : UInt8} {t : Bytes} (h : isWs c = false) : skipWs (c :: t) = c :: t := by
  simp [skipWs, List.dropWhile, h]

theorem parseValue_quote {f d : Nat} {s rest : Bytes} :
    parseValue (f + 1) d (quote s ++ rest) = some (.str (toValid s), rest) := by
  unfold parseValue quote
  simp only [List.cons_append, List.append_assoc]
  rw [skipWs_cons (by decide)]
  simp only [if_true, List.nil_append]
  rw [parseStr_quoteBody _ _ (by simp)]
  rfl

theorem parseMembers_strings {kvs : List (Bytes × Bytes)} (hne : kvs ≠ []) {f d : Nat} {rest : Bytes}
    (hf : kvs.length + 1 ≤ f) :
    parseMembers f d (join [44] (kvs.map fun p => quote p.1 ++ 58 :: quote p.2) ++ 125 :: rest) =
      some (kvs.map fun p => (toValid p.1, Json.str (toValid p.2)), rest) := by
  induction kvs generalizing f with
  | nil => exact absurd rfl hne
  | cons kv kvs ih =>
    obtain ⟨k, v⟩ := kv
    cases f with
    | zero => omega
    | succ f =>
    simp only [List.length_cons] at hf
    cases kvs with
    | nil =>
      simp only [List.map_cons, List.map_nil, join]
      unfold parseMembers
      conv => lhs; rw [show quote k ++ 58 :: quote v ++ 125 :: rest = 34 :: (quoteBody k ++ 34 :: (58 :: (quote v ++ 125 :: rest))) by
        simp [quote]]
      rw [skipWs_cons (by decide)]
      simp only
      rw [parseStr_quoteBody _ _ (by simp)]
      simp only
      rw [skipWs_cons (by decide)]
      simp only
      cases f with
      | zero => omega
      | succ f =>
      rw [parseValue_quote]
      simp only
      rw [skipWs_cons (by decide)]
      rfl
    | cons kv2 kvs =>
      simp only [List.map_cons, join]
      unfold parseMembers
      conv => lhs; rw [show quote k ++ 58 :: quote v ++ [44] ++ join [44] ((quote kv2.1 ++ 58 :: quote kv2.2) :: kvs.map fun p => quote p.1 ++ 58 :: quote p.2) ++ 125 :: rest = 34 :: (quoteBody k ++ 34 :: (58 :: (quote v ++ 44 :: (join [44] ((quote kv2.1 ++ 58 :: quote kv2.2) :: kvs.map fun p => quote p.1 ++ 58 :: quote p.2) ++ 125 :: rest)))) by
        simp [quote]]
      rw [skipWs_cons (by decide)]
      simp only
      rw [parseStr_quoteBody _ _ (by simp)]
      simp only
      rw [skipWs_cons (by decide)]
      simp only
      cases f with
      | zero => omega
      | succ f =>
      rw [parseValue_quote]
      simp only
      rw [skipWs_cons (by decide)]
      simp only
      have := ih (by simp) (f := f + 1) (by simp at hf ⊢; omega)
      simp only [List.map_cons] at this
      rw [this]
      rfl

theorem join_length_le {sep : Bytes} {l : List Bytes} (h : ∀ x ∈ l, 1 ≤ x.length) : l.length ≤ (join sep l).length := by
  induction l with
  | nil => simp
  | cons x l ih =>
    have hx := h x (by simp)
    cases l with
    | nil => simp [join]; exact hx
    | cons y l =>
      have := ih (fun z hz => h z (by simp [hz]))
      simp only [join, List.length_append, List.length_cons] at *
      omega

/-- An object of strings written by `json.Marshal` parses to these members, in order. -/
theorem parseJson_objectOfStrings {kvs : List (Bytes × Bytes)} (hne : kvs ≠ []) :
    parseJson (objectOfStrings kvs) = some (.obj (kvs.map fun p => (toValid p.1, Json.str (toValid p.2)))) := by
  have hlen : kvs.length ≤ (join [44] (kvs.map fun p => quote p.1 ++ 58 :: quote p.2)).length := by
    have := join_length_le (sep := [44]) (l := kvs.map fun p => quote p.1 ++ 58 :: quote p.2) (by
      intro x hx
      obtain ⟨p, _, rfl⟩ := List.mem_map.1 hx
      simp [quote])
    simpa using this
  unfold parseJson objectOfStrings
  have hq : ∃ b t, join [44] (kvs.map fun p => quote p.1 ++ 58 :: quote p.2) = 34 :: t ∧ b = t := by
    cases kvs with
    | nil => exact absurd rfl hne
    | cons kv kvs =>
      cases kvs with
      | nil => simp [join, quote]
      | cons kv2 kvs => simp [join, quote]
  obtain ⟨_, t, hjt, -⟩ := hq
  have hm := fun f (hf : kvs.length + 1 ≤ f) => parseMembers_strings hne (f := f) (d := 0 + 1) (rest := []) hf
  generalize join [44] (kvs.map fun p => quote p.1 ++ 58 :: quote p.2) = body at *
  subst hjt
  simp only [List.cons_append, List.length_cons, List.length_append, List.length_nil] at *
  rw [show 2 * (t.length + 1 + (0 + 1) + 1) + 2 = (2 * t.length + 7) + 1 by omega]
  unfold parseValue
  rw [skipWs_cons (by decide)]
  simp only
  rw [if_neg (by decide), if_pos trivial, if_neg (by decide), skipWs_cons (by decide)]
  rw [hm _ (by omega)]
  simp [skipWs]

end Verif.Go
