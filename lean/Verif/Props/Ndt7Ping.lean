import Verif.Ndt7.Ping
import Verif.Go.DecimalLemmas
import Verif.Go.JsonParse
import Mathlib.Data.List.TakeDrop

/-!
# C56: ping payloads
-/

namespace Verif.Props
open Verif.Go Verif.Ndt7 Verif.Spec

private theorem natDigitsF_head {fuel n : Nat} (hf : n < fuel) (hn : 0 < n) : (natDigitsF fuel n).head? ≠ some 48 := by
  induction fuel generalizing n with
  | zero => omega
  | succ f ih =>
    unfold natDigitsF
    split
    · rename_i hlt
      simp only [List.head?_cons, ne_eq, Option.some.injEq]
      intro h
      have := digit_toNat hlt
      rw [h] at this
      simp at this
      omega
    · have h1 : natDigitsF f (n / 10) ≠ [] := natDigitsF_ne_nil (by omega)
      have h2 := ih (n := n / 10) (by omega) (by omega)
      rw [List.head?_append]
      cases h3 : natDigitsF f (n / 10) with
      | nil => exact absurd h3 h1
      | cons a b => rw [h3] at h2; simpa using h2

private theorem span_digits {ds rest : Bytes} (h : ∀ c ∈ ds, IsDigit c) (hr : ∀ c, rest.head? = some c → ¬ IsDigit c) :
    spanDigits (ds ++ rest) = (ds, rest) := by
  unfold spanDigits
  rw [List.span_eq_takeWhile_dropWhile]
  have h1 : ∀ c ∈ ds, decide (IsDigit c) = true := fun c hc => decide_eq_true (h c hc)
  have h2 : rest.takeWhile (fun c => decide (IsDigit c)) = [] ∧ rest.dropWhile (fun c => decide (IsDigit c)) = rest := by
    cases rest with
    | nil => simp
    | cons c r => simp [hr c rfl]
  rw [List.takeWhile_append_of_pos h1, List.dropWhile_append_of_pos h1, h2.1, h2.2, List.append_nil]

private theorem numInt_natDec (n : Nat) : numInt (natDec n) = some (natDec n, []) := by
  rcases Nat.eq_zero_or_pos n with rfl | hn
  · rfl
  · have hh := natDigitsF_head (fuel := n + 1) (by omega) hn
    obtain ⟨c, rest, he, hd⟩ := natDec_head (n := n)
    have hs := span_digits (ds := natDec n) (rest := []) (fun c hc => natDec_isDigit c hc) (by simp)
    rw [List.append_nil] at hs
    rw [he] at hs ⊢
    change (natDec n).head? ≠ some 48 at hh
    rw [he] at hh
    simp at hh
    unfold numInt
    split
    · rename_i h; simp at h; exact absurd h.1 hh
    · rw [hs]

private theorem parseNum_itoa (x : Int) : parseNum (itoa x) = some (itoa x, []) := by
  cases x with
  | ofNat n =>
    obtain ⟨c, rest, he, hd⟩ := natDec_head (n := n)
    have hc45 : c ≠ 45 := by rintro rfl; exact absurd hd (by decide)
    have := numInt_natDec n
    simp only [itoa]
    rw [he] at this ⊢
    unfold parseNum
    split
    rename_i sign s1 hm
    split at hm
    · rename_i h; simp at h; exact absurd h.1 hc45
    · simp at hm
      obtain ⟨rfl, rfl⟩ := hm
      rw [this]
      simp [numFrac, numExp]
  | negSucc n =>
    have := numInt_natDec (n + 1)
    simp only [itoa]
    unfold parseNum
    simp only [this]
    simp [numFrac, numExp]

theorem parseJson_itoa (x : Int) : parseJson (itoa x) = some (.num (itoa x)) := by
  obtain ⟨c, rest, he, hc⟩ : ∃ c rest, itoa x = c :: rest ∧ (IsDigit c ∨ c = 45) := by
    cases h : itoa x with
    | nil =>
      cases x with
      | ofNat n => exact absurd h (natDec_ne_nil n)
      | negSucc n => simp [itoa] at h
    | cons c rest => exact ⟨c, rest, rfl, itoa_chars c (by rw [h]; simp)⟩
  have hn := parseNum_itoa x
  rw [he] at hn ⊢
  have key : isWs c = false ∧ c ≠ 34 ∧ c ≠ 123 ∧ c ≠ 91 ∧ c ≠ 116 ∧ c ≠ 102 ∧ c ≠ 110 := by
    rcases hc with ⟨h1, h2⟩ | rfl
    · have h1' : 48 ≤ c.toNat := by simpa [UInt8.le_iff_toNat_le] using h1
      have h2' : c.toNat ≤ 57 := by simpa [UInt8.le_iff_toNat_le] using h2
      have ne : ∀ k : UInt8, (k.toNat < 48 ∨ 57 < k.toNat) → c ≠ k := by
        rintro k hk rfl; omega
      refine ⟨?_, ne _ (by decide), ne _ (by decide), ne _ (by decide), ne _ (by decide), ne _ (by decide), ne _ (by decide)⟩
      simp [isWs, ne 32 (by decide), ne 9 (by decide), ne 10 (by decide), ne 13 (by decide)]
    · decide
  obtain ⟨k0, k1, k2, k3, k4, k5, k6⟩ := key
  have hp : ∀ (w : UInt8) (ws : Bytes), c ≠ w → hasPrefix (c :: rest) (w :: ws) = false := by
    intro w ws h
    simp [hasPrefix, List.isPrefixOf, beq_eq_false_iff_ne.2 h.symm]
  have ht := hp 116 [114, 117, 101] k4
  have hf := hp 102 [97, 108, 115, 101] k5
  have hnl := hp 110 [117, 108, 108] k6
  unfold parseJson
  simp only [List.length_cons]
  rw [show 2 * (rest.length + 1) + 2 = (2 * rest.length + 3) + 1 by omega, parseValue]
  have hw : skipWs (c :: rest) = c :: rest := by simp [skipWs, k0]
  rw [hw]
  simp only [if_neg k1, if_neg k2, if_neg k3]
  rw [show str "true" = [116, 114, 117, 101] from rfl, show str "false" = [102, 97, 108, 115, 101] from rfl,
    show str "null" = [110, 117, 108, 108] from rfl, ht, hf, hnl, hn]
  simp [skipWs]

/-- C56: a pong with the payload of a ping is parsed, and the time since the ping is reported (as an `int64`). -/
theorem C56_roundtrip {sent now : Int} (h : InInt64 sent) : parseTicks (ticksPayload sent) now = some (wrap64 (now - sent)) := by
  simp [parseTicks, unmarshalInt64, ticksPayload, parseJson_itoa, atoi_itoa h]

/-- C56: the time reported is exact if it fits into 63 bits, in particular if the clock does not run backwards past 1970. -/
theorem C56_roundtrip_exact {sent now : Int} (h : InInt64 sent) (hd : InInt64 (now - sent)) :
    parseTicks (ticksPayload sent) now = some (now - sent) := by
  rw [C56_roundtrip h]
  obtain ⟨h1, h2⟩ := hd
  congr 1
  unfold wrap64
  rw [Int.bmod_eq_of_le] <;> omega

/-- Any two times after 1970 meet the conditions. -/
example {sent now : Int} (h0 : 0 ≤ sent) (h1 : sent < 2 ^ 63) (h2 : 0 ≤ now) (h3 : now < 2 ^ 63) : InInt64 sent ∧ InInt64 (now - sent) := by
  unfold InInt64; omega

example : parseTicks (ticksPayload 1600000000000000000) 1600000000000000321 = some 321 := by decide +kernel

/-! ## What is not accepted -/

private theorem span_sound (s : Bytes) : s = (spanDigits s).1 ++ (spanDigits s).2 := by
  unfold spanDigits
  rw [List.span_eq_takeWhile_dropWhile]
  exact List.takeWhile_append_dropWhile.symm

private theorem numInt_sound {s a b : Bytes} (h : numInt s = some (a, b)) : s = a ++ b := by
  unfold numInt at h
  split at h
  · simp at h; obtain ⟨rfl, rfl⟩ := h; rfl
  · have := span_sound s
    split at h
    · simp at h
    · rename_i ds rest hne hs
      simp at h
      obtain ⟨rfl, rfl⟩ := h
      rw [hs] at this
      exact this

private theorem numFrac_sound {s a b : Bytes} (h : numFrac s = some (a, b)) : s = a ++ b := by
  unfold numFrac at h
  split at h
  · rename_i rest
    have := span_sound rest
    split at h
    · simp at h
    · rename_i ds rest' hne hs
      simp at h
      obtain ⟨rfl, rfl⟩ := h
      rw [hs] at this
      rw [this]; simp
  · simp at h; obtain ⟨rfl, rfl⟩ := h; rfl

private theorem numExp_sound {s a b : Bytes} (h : numExp s = some (a, b)) : s = a ++ b := by
  unfold numExp at h
  split at h
  · simp at h; obtain ⟨rfl, rfl⟩ := h; rfl
  · rename_i e rest
    split at h
    · split at h
      rename_i sign rest1 hm
      have hr : rest = sign ++ rest1 := by
        split at hm <;> simp at hm <;> obtain ⟨rfl, rfl⟩ := hm <;> rfl
      have := span_sound rest1
      split at h
      · simp at h
      · rename_i ds rest' hne hs
        simp at h
        obtain ⟨rfl, rfl⟩ := h
        rw [hs] at this
        rw [hr, this]; simp
    · simp at h; obtain ⟨rfl, rfl⟩ := h; rfl

private theorem parseNum_sound {s a b : Bytes} (h : parseNum s = some (a, b)) : s = a ++ b := by
  unfold parseNum at h
  split at h
  rename_i sign s1 hm
  have hr : s = sign ++ s1 := by
    split at hm <;> simp at hm <;> obtain ⟨rfl, rfl⟩ := hm <;> rfl
  split at h
  · simp at h
  · rename_i i s2 hi
    split at h
    · simp at h
    · rename_i fr s3 hf
      split at h
      · simp at h
      · rename_i ex s4 he
        simp at h
        obtain ⟨rfl, rfl⟩ := h
        rw [hr, numInt_sound hi, numFrac_sound hf, numExp_sound he]
        simp

private theorem skip_sound (s : Bytes) : ∃ w, s = w ++ skipWs s ∧ ∀ c ∈ w, isWs c = true := by
  refine ⟨s.takeWhile isWs, List.takeWhile_append_dropWhile.symm, fun c hc => ?_⟩
  have := List.all_takeWhile (p := isWs) (l := s)
  exact List.all_eq_true.1 this c hc

private theorem parseValue_num {f d : Nat} {s raw r : Bytes} (h : parseValue f d s = some (.num raw, r)) :
    ∃ w, s = w ++ raw ++ r ∧ ∀ c ∈ w, isWs c = true := by
  obtain ⟨w, hw, hws⟩ := skip_sound s
  cases f with
  | zero => simp [parseValue] at h
  | succ f =>
    rw [parseValue] at h
    split at h
    · simp at h
    · rename_i c t hs
      rw [hs] at hw
      have hn : parseNum (c :: t) = some (raw, r) := by
        repeat' split at h
        all_goals simp at h
        exact h
      exact ⟨w, by rw [hw, parseNum_sound hn]; simp, hws⟩

private theorem parseValue_null {f d : Nat} {s r : Bytes} (h : parseValue f d s = some (.null, r)) :
    ∃ w, s = w ++ str "null" ++ r ∧ ∀ c ∈ w, isWs c = true := by
  obtain ⟨w, hw, hws⟩ := skip_sound s
  cases f with
  | zero => simp [parseValue] at h
  | succ f =>
    rw [parseValue] at h
    split at h
    · simp at h
    · rename_i c t hs
      rw [hs] at hw
      have hn : hasPrefix (c :: t) (str "null") = true ∧ r = t.drop 3 := by
        repeat' split at h
        all_goals simp at h
        rename_i hp
        exact ⟨hp, h.symm⟩
      obtain ⟨hp, rfl⟩ := hn
      obtain ⟨u, hu⟩ := List.isPrefixOf_iff_prefix.1 hp
      rw [show str "null" = [110, 117, 108, 108] from rfl] at hu ⊢
      simp at hu
      obtain ⟨rfl, rfl⟩ := hu
      exact ⟨w, by rw [hw]; simp, hws⟩

/-- C56, partial: what is accepted is, apart from white space around it, the decimal text of a 64-bit integer or the word `null`. -/
theorem C56_others_rejected_partial {s : Bytes} {now d : Int} (h : parseTicks s now = some d) :
    ∃ w text w', s = w ++ text ++ w' ∧ (∀ c ∈ w ++ w', c ∈ [(32 : UInt8), 9, 10, 13]) ∧
      ((∃ x, Decimal64 text x ∧ d = wrap64 (now - x)) ∨ (text = str "null" ∧ d = wrap64 now)) := by
  have hws : ∀ c, isWs c = true → c ∈ [(32 : UInt8), 9, 10, 13] := by
    intro c hc
    simp [isWs] at hc
    simp
    grind
  have hend : ∀ r, skipWs r = [] → ∀ c ∈ r, isWs c = true := by
    intro r hr
    obtain ⟨w, hw, hws⟩ := skip_sound r
    rw [hr, List.append_nil] at hw
    rw [hw]; exact hws
  unfold parseTicks at h
  simp only [Option.map_eq_some_iff] at h
  obtain ⟨x, hx, rfl⟩ := h
  unfold unmarshalInt64 parseJson at hx
  cases hv : parseValue (2 * s.length + 2) 0 s with
  | none => rw [hv] at hx; simp at hx
  | some p =>
    obtain ⟨v, r⟩ := p
    rw [hv] at hx
    dsimp only at hx
    by_cases hr : skipWs r = []
    · rw [if_pos hr] at hx
      cases v with
      | num raw =>
        obtain ⟨w, hw, hw'⟩ := parseValue_num hv
        refine ⟨w, raw, r, hw, ?_, .inl ⟨x, atoi_iff.1 hx, rfl⟩⟩
        intro c hc
        rcases List.mem_append.1 hc with hc | hc
        · exact hws c (hw' c hc)
        · exact hws c (hend r hr c hc)
      | null =>
        obtain ⟨w, hw, hw'⟩ := parseValue_null hv
        simp at hx
        subst hx
        refine ⟨w, str "null", r, hw, ?_, .inr ⟨rfl, by simp⟩⟩
        intro c hc
        rcases List.mem_append.1 hc with hc | hc
        · exact hws c (hw' c hc)
        · exact hws c (hend r hr c hc)
      | _ => simp at hx
    · rw [if_neg hr] at hx
      simp at hx

/-- C56: what is accepted, and the time that is then reported, exactly. -/
theorem C56_accepted_exactly (s : Bytes) (now d : Int) : parseTicks s now = some d ↔
    (∃ raw x, IsJson s (.num raw) ∧ Decimal64 raw x ∧ d = wrap64 (now - x)) ∨ (IsJson s .null ∧ d = wrap64 now) := by
  simp only [← parseJson_iff, ← atoi_iff, parseTicks, unmarshalInt64, Option.map_eq_some_iff]
  constructor
  · rintro ⟨x, hx, rfl⟩
    split at hx
    · rename_i raw hp
      exact .inl ⟨raw, x, hp, hx, rfl⟩
    · rename_i hp
      cases hx
      exact .inr ⟨hp, by rw [Int.sub_zero]⟩
    · cases hx
  · rintro (⟨raw, x, h1, h2, rfl⟩ | ⟨h1, rfl⟩)
    · exact ⟨x, by rw [h1]; exact h2, rfl⟩
    · exact ⟨0, by rw [h1], by rw [Int.sub_zero]⟩

example : parseTicks (str " 17 ") 20 = some 3 := by decide +kernel

/-- C56 is violated by the payload `null`, which is not an integer but is accepted; the "round-trip time" is then the time since
1970. -/
theorem C56_others_rejected_false : (¬ ∃ x, Decimal64 (str "null") x) ∧ parseTicks (str "null") 1600000000000000000 = some 1600000000000000000 := by
  refine ⟨?_, by decide +kernel⟩
  rintro ⟨x, hx⟩
  exact absurd (atoi_iff.2 hx) (by rw [show atoi (str "null") = none by decide +kernel]; simp)

/-- Rejected: fractions, numbers out of range, text. -/
example : parseTicks (str "1.0") 5 = none ∧ parseTicks (str "9223372036854775808") 5 = none ∧ parseTicks (str "x") 5 = none ∧
    parseTicks [] 5 = none ∧ parseTicks (str "\"5\"") 5 = none := by decide +kernel

end Verif.Props
