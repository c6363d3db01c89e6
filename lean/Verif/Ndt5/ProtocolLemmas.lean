import Verif.Ndt5.Protocol
import Verif.Go.JsonLemmas

/-! # Lemmas about ndt5 messages -/

namespace Verif.Ndt5
open Verif.Go

theorem and_255 (n : Nat) : n &&& 0xFF = n % 256 := by
  have := Nat.and_two_pow_sub_one_eq_mod n 8
  simpa using this

theorem lenBytes_eq (n : Nat) :
    (UInt8.ofNat ((n >>> 8) &&& 0xFF)).toNat * 256 + (UInt8.ofNat (n &&& 0xFF)).toNat = n % 65536 := by
  simp [and_255, Nat.shiftRight_eq_div_pow]
  omega

theorem readTLV_frame (t : MsgType) (p : Bytes) (exp : List MsgType) :
    readTLV (.ok (tlvFrame t p)) exp =
      if t ∈ exp then
        if p.length < 65536 then .ok (p, t) else .error (.badLength (p.length % 65536) p.length)
      else .error (.wrongType t) := by
  simp only [readTLV, tlvFrame, lenBytes_eq]
  by_cases h : t ∈ exp
  · simp only [h, if_true]
    by_cases hl : p.length < 65536
    · rw [if_pos (Nat.mod_eq_of_lt hl), if_pos hl]
    · rw [if_neg (by omega), if_neg hl]
  · simp [h]

theorem toValid_msg : toValid (str "msg") = str "msg" := by decide
theorem toValid_tests : toValid (str "tests") = str "tests" := by decide
theorem fieldOf_msg : fieldOf (str "msg") = .msg := by decide
theorem fieldOf_tests : fieldOf (str "tests") = .tests := by decide

theorem toValid_nil : toValid [] = [] := by decide

/-- Decoding an encoded message gives back its text (with invalid bytes replaced). -/
theorem unmarshal_marshal (m : JsonMessage) :
    unmarshal m.marshal = .ok { msg := toValid m.msg, tests := toValid m.tests } := by
  unfold unmarshal JsonMessage.marshal
  rw [parseJson_objectOfStrings (by simp)]
  by_cases h : m.tests = []
  · simp [h, storeMember, toValid_msg, fieldOf_msg, toValid_nil]
  · simp [h, storeMember, toValid_msg, fieldOf_msg, toValid_tests, fieldOf_tests]

theorem receiveJSON_frame (t : MsgType) (m : JsonMessage) (h : m.marshal.length < 65536) :
    receiveJSON (.ok (tlvFrame t m.marshal)) t =
      (some { msg := toValid m.msg, tests := toValid m.tests }, none) := by
  unfold receiveJSON
  rw [readTLV_frame]
  simp [h, unmarshal_marshal]

theorem receive_frame_json (t : MsgType) (c : Bytes)
    (h : (JsonMessage.marshal { msg := c }).length < 65536) :
    Messager.json.receive (.ok (Messager.json.frame t c)) t = (some (toValid c), none) := by
  simp only [Messager.receive, Messager.frame, receiveJSON_frame _ _ h]

/-! ## Decimal numbers in messages -/

theorem natDigitsF_length {f n k : Nat} (hk : 0 < k) (h : n < 10 ^ k) : (natDigitsF f n).length ≤ k := by
  induction f generalizing n k with
  | zero => simp [natDigitsF]
  | succ f ih =>
    unfold natDigitsF
    split
    · simp; omega
    · rename_i hge
      cases k with
      | zero => omega
      | succ k =>
        have hk' : 0 < k := by
          cases k with
          | zero => simp at h; omega
          | succ k => omega
        have := ih hk' (n := n / 10) (by rw [Nat.pow_succ] at h; omega)
        simp; exact this

theorem itoa_length {x : Int} (h : InInt64 x) : (itoa x).length ≤ 20 := by
  cases x with
  | ofNat n =>
    have : n < 10 ^ 19 := by have := h.2; simp at this; omega
    have := natDigitsF_length (f := n + 1) (by omega) this
    simp only [itoa, natDec]; omega
  | negSucc n =>
    have : n + 1 < 10 ^ 19 := by have := h.1; omega
    have := natDigitsF_length (f := n + 1 + 1) (by omega) this
    simp only [itoa, natDec, List.length_cons]; omega

/-- Printable ASCII that JSON strings contain unescaped. -/
def Plain (b : UInt8) : Prop := IsDigit b ∨ b = 45

theorem isDigit_lt {b : UInt8} (h : IsDigit b) : b < 0x80 := by
  have := h.2
  rw [UInt8.le_iff_toNat_le] at this
  rw [UInt8.lt_iff_toNat_lt]; simp at *; omega

theorem plain_lt {b : UInt8} (h : Plain b) : b < 0x80 := by
  rcases h with h | rfl
  · exact isDigit_lt h
  · decide

theorem quoteChunk_plain {b : UInt8} (h : Plain b) : quoteChunk (.ascii b) = [b] := by
  have hn : b.toNat = 45 ∨ (48 ≤ b.toNat ∧ b.toNat ≤ 57) := by
    rcases h with h | rfl
    · right
      have h1 := h.1; have h2 := h.2
      rw [UInt8.le_iff_toNat_le] at h1 h2
      simpa using ⟨h1, h2⟩
    · left; decide
  simp only [quoteChunk, ← UInt8.toNat_inj, UInt8.lt_iff_toNat_lt]
  simp
  rw [if_neg (by omega), if_neg (by omega), if_neg (by omega), if_neg (by omega), if_neg (by omega),
    if_neg (by omega), if_neg (by omega)]

theorem chunks_ascii {s : Bytes} (h : ∀ b ∈ s, b < 0x80) : chunks s = s.map Chunk.ascii := by
  have : s = (s.map Chunk.ascii).flatMap Chunk.raw := by
    clear h
    induction s with
    | nil => rfl
    | cons b s ih => simp only [List.map_cons, List.flatMap_cons]; rw [← ih]; rfl
  conv => lhs; rw [this]
  apply chunks_flatMap
  · intro c hc
    obtain ⟨b, hb, rfl⟩ := List.mem_map.1 hc
    exact h b hb
  · intro b hb
    obtain ⟨b, _, h⟩ := List.mem_map.1 hb
    cases h

theorem toValid_ascii {s : Bytes} (h : ∀ b ∈ s, b < 0x80) : toValid s = s := by
  apply toValid_of_valid
  intro b hb
  rw [chunks_ascii h] at hb
  obtain ⟨_, _, h⟩ := List.mem_map.1 hb
  cases h

theorem itoa_plain {x : Int} : ∀ b ∈ itoa x, Plain b := itoa_chars

theorem toValid_itoa (x : Int) : toValid (itoa x) = itoa x :=
  toValid_ascii fun b hb => plain_lt (itoa_plain b hb)

theorem quoteBody_plain {s : Bytes} (h : ∀ b ∈ s, Plain b) : quoteBody s = s := by
  unfold quoteBody
  rw [chunks_ascii fun b hb => plain_lt (h b hb)]
  induction s with
  | nil => rfl
  | cons b s ih =>
    simp only [List.map_cons, List.flatMap_cons]
    rw [quoteChunk_plain (h b (by simp)), ih (fun c hc => h c (by simp [hc]))]
    rfl

theorem quote_itoa_length {x : Int} (h : InInt64 x) : (quote (itoa x)).length ≤ 22 := by
  unfold quote
  rw [quoteBody_plain itoa_plain]
  have := itoa_length h
  simp; omega

theorem quoteBody_length_lit :
    (quote (str "ThroughputValue")).length = 17 ∧ (quote (str "UnsentDataAmount")).length = 18 ∧
      (quote (str "TotalSentByte")).length = 15 := by decide

theorem s2cResultJson_length {a b c : Int} (ha : InInt64 a) (hb : InInt64 b) (hc : InInt64 c) :
    (s2cResultJson a b c).length < 65536 := by
  have h1 := quote_itoa_length ha
  have h2 := quote_itoa_length hb
  have h3 := quote_itoa_length hc
  obtain ⟨l1, l2, l3⟩ := quoteBody_length_lit
  simp only [s2cResultJson, objectOfStrings, List.map_cons, List.map_nil, join, List.length_append,
    List.length_cons, List.length_nil, l1, l2, l3] at *
  omega

end Verif.Ndt5
