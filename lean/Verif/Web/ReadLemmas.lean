import Verif.Web.Ndt5Client
import Verif.Ndt5.Protocol
import Verif.Go.JsonParse

/-! # How the browser reads the texts of the server -/

namespace Verif.Web
open Verif.Go Verif.Spec

/-- The runes that the browser takes a rune of the JSON text for: the bytes of one that is not escaped are characters of their own. -/
def reread : Chunk → List Chunk
  | .multi bs => if bs = [0xE2, 0x80, 0xA8] ∨ bs = [0xE2, 0x80, 0xA9] then [.multi bs] else bs.map fun b => .multi (latin1 b)
  | c => [c]

/-- The text that the browser reads for a text of the server. -/
def seen (s : Bytes) : Bytes := ((chunks s).flatMap reread).flatMap Chunk.fixed

theorem byte_all {p : UInt8 → Prop} (h : ∀ n < 256, p (UInt8.ofNat n)) (b : UInt8) : p b := by
  have := h b.toNat (UInt8.toNat_lt b)
  simpa using this

theorem latin1_ascii {b : UInt8} (h : b < 0x80) : latin1 b = [b] := by simp [latin1, h]

theorem latin1_high {b : UInt8} (h : 0x80 ≤ b) : ∃ x y, latin1 b = [x, y] ∧ 0xC2 ≤ x ∧ x ≤ 0xDF ∧ isCont y = true := by
  refine ⟨0xC0 + b / 64, 0x80 + b % 64, by simp [latin1, UInt8.not_lt.2 h], ?_⟩
  revert h
  refine byte_all (p := fun b => 0x80 ≤ b → 0xC2 ≤ 0xC0 + b / 64 ∧ 0xC0 + b / 64 ≤ 0xDF ∧ isCont (0x80 + b % 64) = true) ?_ b
  decide +kernel

theorem latin1_wf {b : UInt8} (h : 0x80 ≤ b) : (Chunk.multi (latin1 b)).WF := by
  obtain ⟨x, y, hl, h1, h2, h3⟩ := latin1_high h
  have hx : ¬ x < 0x80 := UInt8.not_lt.2 (UInt8.le_trans (by decide) h1)
  simp only [isCont, Bool.and_eq_true, decide_eq_true_eq] at h3
  refine ⟨by simp [hl], ?_, ?_⟩
  · rw [hl]
    intro c hc
    simp only [List.mem_cons, List.not_mem_nil, or_false] at hc
    rcases hc with rfl | rfl
    · exact UInt8.not_lt.1 hx
    · exact h3.1
  · intro t
    rw [hl]
    simp [runeSize, hx, h1, h2, isCont, h3]

theorem fromCharCodes_append (a b : Bytes) : fromCharCodes (a ++ b) = fromCharCodes a ++ fromCharCodes b := by simp [fromCharCodes]

theorem fromCharCodes_ascii {s : Bytes} (h : ∀ b ∈ s, b < 0x80) : fromCharCodes s = s := by
  induction s with
  | nil => rfl
  | cons b s ih =>
    have := ih fun x hx => h x (by simp [hx])
    simp only [fromCharCodes, List.flatMap_cons] at this ⊢
    rw [this, latin1_ascii (h b (by simp))]
    rfl

private theorem hexDigit_ascii (n : Nat) (h : n < 16) : hexDigit n < 0x80 := by
  revert h
  revert n
  decide

private theorem quoteChunk_ascii {b : UInt8} (h : b < 0x80) : ∀ x ∈ quoteChunk (.ascii b), x < 0x80 := by
  have h1 : b.toNat / 16 < 16 := by have := UInt8.toNat_lt b; omega
  have h2 : b.toNat % 16 < 16 := by omega
  have h3 := hexDigit_ascii _ h1
  have h4 := hexDigit_ascii _ h2
  intro x hx
  simp only [quoteChunk] at hx
  repeat' split at hx
  all_goals simp only [List.mem_cons, List.not_mem_nil, or_false] at hx
  all_goals (try rcases hx with rfl | rfl | rfl | rfl | rfl | rfl)
  all_goals (try rcases hx with rfl | rfl)
  all_goals first | assumption | decide | (subst hx; assumption)

theorem fromCharCodes_quoteChunk {c : Chunk} (hc : c.WF) : fromCharCodes (quoteChunk c) = (reread c).flatMap quoteChunk := by
  cases c with
  | ascii b => rw [fromCharCodes_ascii (quoteChunk_ascii hc)]; simp [reread]
  | bad b => rw [fromCharCodes_ascii (by simp only [quoteChunk]; decide)]; simp [reread]
  | multi bs =>
    obtain ⟨-, hb, -⟩ := hc
    by_cases h8 : bs = [0xE2, 0x80, 0xA8]
    · subst h8; decide
    by_cases h9 : bs = [0xE2, 0x80, 0xA9]
    · subst h9; decide
    simp only [reread, quoteChunk, h8, h9, or_self, if_false]
    clear h8 h9
    induction bs with
    | nil => rfl
    | cons b bs ih =>
      have := ih fun x hx => hb x (by simp [hx])
      simp only [fromCharCodes, List.flatMap_cons, List.map_cons] at this ⊢
      rw [this]
      congr 1
      obtain ⟨x, y, hl, -⟩ := latin1_high (hb b (by simp))
      simp [quoteChunk, hl]

theorem reread_wf {c : Chunk} (hc : c.WF) : ∀ d ∈ reread c, d.WF := by
  cases c with
  | ascii b => simpa [reread] using hc
  | bad b => simpa [reread] using hc
  | multi bs =>
    simp only [reread]
    split
    · simpa using hc
    · intro d hd
      obtain ⟨b, hb, rfl⟩ := List.mem_map.1 hd
      exact latin1_wf (hc.2.1 b hb)

theorem stringBody_chunks {cs : List Chunk} (h : ∀ c ∈ cs, c.WF) : StringBody (cs.flatMap quoteChunk) (cs.flatMap Chunk.fixed) := by
  obtain ⟨body, h1, h2⟩ := parseStr_sound (parseStr_chunks h (rest := []) (Nat.le_refl _))
  have : cs.flatMap quoteChunk = body := List.append_cancel_right h1
  rwa [this]

/-- What `JSON.parse` makes of the literal of a text. -/
theorem stringBody_seen (s : Bytes) : StringBody (fromCharCodes (quoteBody s)) (seen s) := by
  have : fromCharCodes (quoteBody s) = ((chunks s).flatMap reread).flatMap quoteChunk := by
    unfold quoteBody
    have hw := @chunks_wf s
    generalize chunks s = cs at hw
    induction cs with
    | nil => rfl
    | cons c cs ih =>
      simp only [List.flatMap_cons, List.flatMap_append, fromCharCodes_append]
      rw [fromCharCodes_quoteChunk (hw c (by simp)), ih fun d hd => hw d (by simp [hd])]
  rw [this]
  refine stringBody_chunks fun c hc => ?_
  obtain ⟨d, hd, hcd⟩ := List.mem_flatMap.1 hc
  exact reread_wf (chunks_wf d hd) c hcd

theorem blank_nil : Blank [] := by simp [Blank]
theorem blank_space : Blank [32] := by simp [Blank]

/-- Texts that are written as they are: ASCII without control characters, quotes and backslashes. -/
def Plain (s : Bytes) : Prop := ∀ b ∈ s, 0x20 ≤ b ∧ b < 0x80 ∧ b ≠ 34 ∧ b ≠ 92

theorem stringBody_plain {s : Bytes} (h : Plain s) : StringBody s s := by
  induction s with
  | nil => exact .nil
  | cons b s ih =>
    obtain ⟨h1, h2, h3, h4⟩ := h b (by simp)
    have hp := stringBody_parse (ih fun x hx => h x (by simp [hx])) (f := s.length + 1) (r := []) (by omega)
    have : parseStr (s.length + 1 + 1) ((b :: s) ++ 34 :: []) = some (b :: s, []) := by
      simp only [List.cons_append, parseStr]
      rw [if_neg h3, if_neg h4, if_neg (UInt8.not_lt.2 h1)]
      simp only [headChunk, h2, if_true, Chunk.raw, Chunk.fixed, List.length_cons, List.length_nil, List.drop_succ_cons, List.drop_zero, hp, Option.map_some,
        List.singleton_append]
    obtain ⟨body, e1, e2⟩ := parseStr_sound this
    have : b :: s = body := List.append_cancel_right e1
    rw [← this] at e2
    exact e2

theorem plain_msg : Plain (str "msg") := by unfold Plain; decide

theorem isJson_msg {body s w0 w1 w2 w3 : Bytes} (h : StringBody body s) (b0 : Blank w0) (b1 : Blank w1) (b2 : Blank w2) (b3 : Blank w3) :
    IsJson (123 :: (w0 ++ (34 :: str "msg" ++ 34 :: (58 :: (w1 ++ (34 :: body ++ [34] ++ w2))))) ++ [125] ++ w3) (.obj [(str "msg", .str s)]) := by
  have hm := IsMembers.one (n := 9999) (w' := w2) b0 (stringBody_plain plain_msg) blank_nil b1 (.string h) b2
  refine ⟨[], _, w3, ?_, blank_nil, .object hm, b3⟩
  simp

/-- The browser reads a message of the server. -/
theorem parse_frame (t : UInt8) (s : Bytes) :
    ((Ndt5.Messager.json.frame t s).head? = some t) ∧
    parseJson (fromCharCodes ((Ndt5.Messager.json.frame t s).drop 3)) = some (.obj [(str "msg", .str (seen s))]) := by
  refine ⟨rfl, parseJson_iff.2 ?_⟩
  have := isJson_msg (stringBody_seen s) blank_nil blank_nil blank_nil blank_nil
  have e : (Ndt5.Messager.json.frame t s).drop 3 = 123 :: (34 :: str "msg" ++ 34 :: (58 :: (34 :: quoteBody s ++ [34]))) ++ [125] := by
    simp [Ndt5.Messager.frame, Ndt5.tlvFrame, Ndt5.JsonMessage.marshal, objectOfStrings, join, quote]
    decide
  rw [e]
  have e2 : fromCharCodes (123 :: (34 :: str "msg" ++ 34 :: (58 :: (34 :: quoteBody s ++ [34]))) ++ [125]) =
      123 :: (34 :: str "msg" ++ 34 :: (58 :: (34 :: fromCharCodes (quoteBody s) ++ [34]))) ++ [125] := by
    have h1 : fromCharCodes (str "msg") = str "msg" := by decide
    have h2 : ∀ b t, b < 0x80 → fromCharCodes (b :: t) = b :: fromCharCodes t := fun b t h => by simp [fromCharCodes, latin1_ascii h]
    simp only [List.cons_append, fromCharCodes_append, h1]
    rw [h2 _ _ (by decide), h2 _ _ (by decide)]
    simp only [fromCharCodes_append, h1]
    rw [h2 _ _ (by decide), h2 _ _ (by decide), h2 _ _ (by decide)]
    simp only [fromCharCodes_append]
    rfl
  rw [e2]
  simpa using this

private theorem runeSize_stop (b : UInt8) (a t : Bytes) {x : UInt8} (hx : x < 0x80) : runeSize (b :: (a ++ x :: t)) = runeSize (b :: a) := by
  have hc : isCont x = false := by
    simp only [isCont, Bool.and_eq_false_iff, decide_eq_false_iff_not]
    exact .inl (UInt8.not_le.2 hx)
  have hx' : ∀ y : UInt8, 0x80 ≤ y → ¬ y ≤ x := fun y h h' => absurd (UInt8.le_trans h h') (UInt8.not_le.2 hx)
  have hl3 : lead3 b x = false := by
    simp [lead3, hc, hx' 160 (by decide), hx' 128 (by decide)]
  have hl4 : lead4 b x = false := by
    simp [lead4, hc, hx' 144 (by decide), hx' 128 (by decide)]
  match a with
  | [] => cases t with
    | nil => simp [runeSize, hc]
    | cons y t => cases t with
      | nil => simp [runeSize, hc, hl3]
      | cons z t => simp [runeSize, hc, hl3, hl4]
  | [c] => cases t with
    | nil => simp [runeSize, hc]
    | cons y t => simp [runeSize, hc]
  | [c, d] => simp [runeSize, hc]
  | c :: d :: e :: a => simp [runeSize]

private theorem chunks_cons (b : UInt8) (t : Bytes) : chunks (b :: t) = headChunk b t :: chunks ((b :: t).drop (headChunk b t).raw.length) := by
  have := headChunk_raw b t
  rw [← chunksF_fuel (f := t.length + 1) (s := b :: t) (by simp)]
  simp only [chunksF]
  rw [chunksF_fuel]
  have hp : 1 ≤ (headChunk b t).raw.length := by
    unfold headChunk
    split
    · simp [Chunk.raw]
    · split <;> simp [Chunk.raw]
  simp only [List.length_drop, List.length_cons]
  omega

/-- A text falls apart at a byte of ASCII. -/
theorem chunks_split {x : UInt8} (hx : x < 0x80) (a t : Bytes) : chunks (a ++ x :: t) = chunks a ++ .ascii x :: chunks t := by
  induction hn : a.length using Nat.strongRecOn generalizing a with
  | ind n ih =>
    cases a with
    | nil =>
      rw [List.nil_append, chunks_cons]
      simp [headChunk, hx, Chunk.raw, chunks, chunksF]
    | cons b a =>
      have hh : headChunk b (a ++ x :: t) = headChunk b a := by
        unfold headChunk
        rw [runeSize_stop b a t hx]
        split
        · rfl
        · split
          · rfl
          · rename_i k hk
            have hle : k + 1 ≤ (b :: a).length := by
              have : runeSize (b :: a) ≤ (b :: a).length := by
                rcases a with _ | ⟨c, _ | ⟨d, _ | ⟨e, a⟩⟩⟩ <;> simp only [runeSize] <;> (repeat' split) <;> simp
              omega
            rw [← List.cons_append, List.take_append_of_le_length hle]
      have hp : 1 ≤ (headChunk b a).raw.length := by
        unfold headChunk
        split
        · simp [Chunk.raw]
        · split <;> simp [Chunk.raw]
      have hle : (headChunk b a).raw.length ≤ (b :: a).length := by
        unfold headChunk
        split
        · simp [Chunk.raw]
        · split
          · simp [Chunk.raw]
          · simp only [Chunk.raw, List.length_take]; omega
      rw [List.cons_append, chunks_cons, hh, chunks_cons b a, ← List.cons_append, List.drop_append_of_le_length hle,
        ih _ (by simp only [List.length_drop, ← hn]; simp only [List.length_cons] at *; omega) _ rfl]
      rfl

theorem seen_nil : seen [] = [] := rfl

theorem seen_split {x : UInt8} (hx : x < 0x80) (a t : Bytes) : seen (a ++ x :: t) = seen a ++ x :: seen t := by
  unfold seen
  rw [chunks_split hx]
  simp [reread, Chunk.fixed]

theorem seen_cons {x : UInt8} (hx : x < 0x80) (t : Bytes) : seen (x :: t) = x :: seen t := seen_split hx [] t

theorem seen_ascii_append {a : Bytes} (h : ∀ b ∈ a, b < 0x80) (t : Bytes) : seen (a ++ t) = a ++ seen t := by
  induction a with
  | nil => rfl
  | cons b a ih =>
    rw [List.cons_append, seen_cons (h b (by simp)), ih fun x hx => h x (by simp [hx])]
    rfl

theorem seen_ascii {a : Bytes} (h : ∀ b ∈ a, b < 0x80) : seen a = a := by
  have := seen_ascii_append h []
  simpa [seen_nil] using this

end Verif.Web
