import Verif.Go.JsonLemmas
import Mathlib.Data.List.TakeDrop
import Mathlib.Data.List.TakeWhile

/-!
# Writing JSON values and reading them back

The text that `json.Marshal` produces for a value of any shape, and the proof that the parser of `Go/Json.lean` reads it back.
-/

namespace Verif.Go

mutual
/-- What `json.Marshal` writes for a value: no white space, strings as `quote` writes them (encode.go `structEncoder.encode`, `arrayEncoder.encode`,
`intEncoder`, `stringEncoder`, `ptrEncoder.encode`). -/
def Json.text : Json → Bytes
  | .null => str "null"
  | .bool b => if b then str "true" else str "false"
  | .num raw => raw
  | .str s => quote s
  | .arr vs => 91 :: elemsText vs
  | .obj kvs => 123 :: membersText kvs
/-- The elements of an array and the closing bracket. -/
def elemsText : List Json → Bytes
  | [] => [93]
  | v :: vs => v.text ++ elemsTail vs
/-- The elements after the first. -/
def elemsTail : List Json → Bytes
  | [] => [93]
  | v :: vs => 44 :: (v.text ++ elemsTail vs)
/-- The members of an object and the closing brace. -/
def membersText : List (Bytes × Json) → Bytes
  | [] => [125]
  | (k, v) :: kvs => quote k ++ 58 :: (v.text ++ membersTail kvs)
/-- The members after the first. -/
def membersTail : List (Bytes × Json) → Bytes
  | [] => [125]
  | (k, v) :: kvs => 44 :: (quote k ++ 58 :: (v.text ++ membersTail kvs))
end

mutual
/-- The value with every string as a JSON text can carry it: bytes that are not UTF-8 are replaced. -/
def Json.fixed : Json → Json
  | .null => .null
  | .bool b => .bool b
  | .num raw => .num raw
  | .str s => .str (toValid s)
  | .arr vs => .arr (fixedElems vs)
  | .obj kvs => .obj (fixedMembers kvs)
def fixedElems : List Json → List Json
  | [] => []
  | v :: vs => v.fixed :: fixedElems vs
def fixedMembers : List (Bytes × Json) → List (Bytes × Json)
  | [] => []
  | (k, v) :: kvs => (toValid k, v.fixed) :: fixedMembers kvs
end

/-- What may follow a number: the end of the text, white space, a comma or a closing bracket. -/
def Stop (rest : Bytes) : Prop := ∀ c, rest.head? = some c → c = 44 ∨ c = 93 ∨ c = 125 ∨ isWs c = true

/-- A text that the parser reads as one number. -/
structure NumText (raw : Bytes) : Prop where
  head : ∃ c t, raw = c :: t ∧ (IsDigit c ∨ c = 45)
  parses : ∀ rest, Stop rest → parseNum (raw ++ rest) = some (raw, rest)

mutual
/-- All numbers of the value are numbers, and it is nested at most `n` deep. -/
def Json.Ok : Nat → Json → Prop
  | _, .null => True
  | _, .bool _ => True
  | _, .num raw => NumText raw
  | _, .str _ => True
  | 0, .arr _ => False
  | n + 1, .arr vs => okElems n vs
  | 0, .obj _ => False
  | n + 1, .obj kvs => okMembers n kvs
def okElems : Nat → List Json → Prop
  | _, [] => True
  | n, v :: vs => Json.Ok n v ∧ okElems n vs
def okMembers : Nat → List (Bytes × Json) → Prop
  | _, [] => True
  | n, (_, v) :: kvs => Json.Ok n v ∧ okMembers n kvs
end

/-! ## Numbers -/

theorem stop_not_digit {rest : Bytes} (h : Stop rest) : ∀ c, rest.head? = some c → ¬ IsDigit c ∧ c ≠ 46 ∧ c ≠ 101 ∧ c ≠ 69 := by
  intro c hc
  have : c = 44 ∨ c = 93 ∨ c = 125 ∨ c = 32 ∨ c = 9 ∨ c = 10 ∨ c = 13 := by
    have := h c hc
    simp [isWs] at this
    grind
  rcases this with rfl | rfl | rfl | rfl | rfl | rfl | rfl <;> decide

theorem spanDigits_append {ds rest : Bytes} (hd : ∀ c ∈ ds, IsDigit c) (hr : ∀ c, rest.head? = some c → ¬ IsDigit c) :
    spanDigits (ds ++ rest) = (ds, rest) := by
  unfold spanDigits
  rw [List.span_eq_takeWhile_dropWhile]
  rw [List.takeWhile_append_of_pos (by simpa using hd), List.dropWhile_append_of_pos (by simpa using hd)]
  cases rest with
  | nil => simp
  | cons c r =>
    have := hr c rfl
    simp [List.takeWhile, List.dropWhile, this]

theorem natDigitsF_head {fuel n : Nat} (h : n < fuel) : (natDigitsF fuel n).head? = some 48 → natDigitsF fuel n = [48] := by
  induction fuel generalizing n with
  | zero => omega
  | succ f ih =>
    unfold natDigitsF
    split
    · rename_i hlt
      intro h'
      simpa using h'
    · rename_i hge
      intro h'
      have hne : natDigitsF f (n / 10) ≠ [] := natDigitsF_ne_nil (by omega)
      have h' : (natDigitsF f (n / 10)).head? = some 48 := by
        cases hq : natDigitsF f (n / 10) with
        | nil => exact absurd hq hne
        | cons a b => rw [hq] at h'; simpa using h'
      have := ih (by omega) h'
      have h2 := foldlM_natDigitsF (fuel := f) (n := n / 10) (by omega)
      rw [this] at h2
      simp [digitStep] at h2
      omega

theorem numInt_natDec {n : Nat} {rest : Bytes} (hr : ∀ c, rest.head? = some c → ¬ IsDigit c) : numInt (natDec n ++ rest) = some (natDec n, rest) := by
  obtain ⟨c, t, he, hd⟩ := natDec_head (n := n)
  by_cases h48 : c = 48
  · have : natDec n = [48] := natDigitsF_head (Nat.lt_succ_self n) (by change (natDec n).head? = _; rw [he, h48]; rfl)
    rw [this]
    rfl
  · have hs := spanDigits_append (natDec_isDigit (n := n)) hr
    rw [he] at hs ⊢
    unfold numInt
    rw [List.cons_append] at hs ⊢
    split
    · rename_i r h'
      cases h'
      exact absurd rfl h48
    · rw [hs]

theorem parseNum_plain {c : UInt8} {t i s2 fr s3 ex s4 : Bytes} (hc : c ≠ 45) (hi : numInt (c :: t) = some (i, s2)) (hf : numFrac s2 = some (fr, s3))
    (he : numExp s3 = some (ex, s4)) : parseNum (c :: t) = some (i ++ fr ++ ex, s4) := by
  unfold parseNum
  split
  rename_i sign s1 h
  split at h
  · rename_i h'; cases h'; exact absurd rfl hc
  · cases h
    simp [hi, hf, he]

theorem parseNum_minus {t i s2 fr s3 ex s4 : Bytes} (hi : numInt t = some (i, s2)) (hf : numFrac s2 = some (fr, s3))
    (he : numExp s3 = some (ex, s4)) : parseNum (45 :: t) = some (45 :: i ++ fr ++ ex, s4) := by
  unfold parseNum
  simp [hi, hf, he]

theorem numTail_stop {rest : Bytes} (h : Stop rest) : numFrac rest = some ([], rest) ∧ numExp rest = some ([], rest) := by
  have hs := stop_not_digit h
  constructor
  · unfold numFrac
    split
    · exact absurd rfl (hs 46 rfl).2.1
    · rfl
  · unfold numExp
    split
    · rfl
    · rename_i e r
      have := hs e rfl
      rw [if_neg (by simp [this])]

theorem numText_itoa (x : Int) : NumText (itoa x) := by
  cases x with
  | ofNat n =>
    obtain ⟨c, t, he, hd⟩ := natDec_head (n := n)
    have hc : c ≠ 45 := by rintro rfl; exact absurd hd (by decide)
    refine ⟨⟨c, t, he, .inl hd⟩, fun rest h => ?_⟩
    have hi := numInt_natDec (n := n) (rest := rest) fun c hc => (stop_not_digit h c hc).1
    simp only [itoa]
    rw [he, List.cons_append] at hi ⊢
    rw [parseNum_plain hc hi (numTail_stop h).1 (numTail_stop h).2]
    simp
  | negSucc n =>
    refine ⟨⟨45, natDec (n + 1), rfl, .inr rfl⟩, fun rest h => ?_⟩
    have hi := numInt_natDec (n := n + 1) (rest := rest) fun c hc => (stop_not_digit h c hc).1
    simp only [itoa, List.cons_append]
    rw [parseNum_minus hi (numTail_stop h).1 (numTail_stop h).2]
    simp

theorem numHead {c : UInt8} (h : IsDigit c ∨ c = 45) : isWs c = false ∧ c ≠ 93 ∧ c ≠ 125 ∧ c ≠ 34 ∧ c ≠ 123 ∧ c ≠ 91 ∧ c ≠ 116 ∧ c ≠ 102 ∧ c ≠ 110 := by
  have key : ∀ b, ¬ (IsDigit b ∨ b = 45) → c ≠ b := by
    rintro b hb rfl
    exact hb h
  refine ⟨?_, key _ (by decide), key _ (by decide), key _ (by decide), key _ (by decide), key _ (by decide), key _ (by decide), key _ (by decide),
    key _ (by decide)⟩
  simp [isWs, key 32 (by decide), key 9 (by decide), key 10 (by decide), key 13 (by decide)]

/-! ## The parser reads the text back -/

theorem Json.text_head {n : Nat} {v : Json} (h : Json.Ok n v) : ∃ c t, v.text = c :: t ∧ isWs c = false ∧ c ≠ 93 ∧ c ≠ 125 := by
  cases v with
  | null => exact ⟨_, _, rfl, by decide, by decide, by decide⟩
  | bool b => cases b <;> exact ⟨_, _, rfl, by decide, by decide, by decide⟩
  | num raw =>
    have hn : NumText raw := by cases n <;> simpa [Json.Ok] using h
    obtain ⟨c, t, he, hc⟩ := hn.head
    refine ⟨c, t, by simpa [Json.text] using he, ?_⟩
    have := numHead hc
    exact ⟨this.1, this.2.1, this.2.2.1⟩
  | str s => exact ⟨34, _, by simp [Json.text, quote]; rfl, by decide, by decide, by decide⟩
  | arr vs => exact ⟨91, _, by simp [Json.text]; rfl, by decide, by decide, by decide⟩
  | obj kvs => exact ⟨123, _, by simp [Json.text]; rfl, by decide, by decide, by decide⟩

theorem stop_elemsTail (vs : List Json) (rest : Bytes) : Stop (elemsTail vs ++ rest) := by
  intro c hc
  cases vs <;> simp [elemsTail] at hc <;> simp [← hc]

theorem stop_membersTail (kvs : List (Bytes × Json)) (rest : Bytes) : Stop (membersTail kvs ++ rest) := by
  intro c hc
  cases kvs <;> simp [membersTail] at hc <;> simp [← hc]

theorem parseValue_num {f d : Nat} {raw rest : Bytes} (h : NumText raw) (hs : Stop rest) : parseValue (f + 1) d (raw ++ rest) = some (.num raw, rest) := by
  obtain ⟨c, t, he, hc⟩ := h.head
  have hp := h.parses rest hs
  obtain ⟨k1, -, -, k2, k3, k4, k5, k6, k7⟩ := numHead hc
  unfold parseValue
  rw [he, List.cons_append] at hp ⊢
  rw [skipWs_cons k1]
  simp only [if_neg k2, if_neg k3, if_neg k4]
  have ht : hasPrefix (c :: (t ++ rest)) (str "true") = false := by
    simp [hasPrefix, str, List.isPrefixOf]
    grind
  have hf : hasPrefix (c :: (t ++ rest)) (str "false") = false := by
    simp [hasPrefix, str, List.isPrefixOf]
    grind
  have hn : hasPrefix (c :: (t ++ rest)) (str "null") = false := by
    simp [hasPrefix, str, List.isPrefixOf]
    grind
  simp [ht, hf, hn, hp]

mutual
theorem parseValue_text : ∀ (v : Json) {n f d : Nat} {rest : Bytes}, v.Ok n → d + n ≤ maxNesting → 2 * v.text.length ≤ f → Stop rest →
    parseValue f d (v.text ++ rest) = some (v.fixed, rest)
  | .null, n, f, d, rest, _, _, hf, _ => by
    cases f with
    | zero => simp [Json.text, str] at hf
    | succ f => simp [Json.text, Json.fixed, parseValue, str, skipWs, isWs, hasPrefix]
  | .bool b, n, f, d, rest, _, _, hf, _ => by
    cases f with
    | zero => cases b <;> simp [Json.text, str] at hf
    | succ f => cases b <;> simp [Json.text, Json.fixed, parseValue, str, skipWs, isWs, hasPrefix]
  | .num raw, n, f, d, rest, h, _, hf, hs => by
    have hn : NumText raw := by cases n <;> simpa [Json.Ok] using h
    cases f with
    | zero =>
      obtain ⟨c, t, he, hc⟩ := hn.head
      simp [Json.text, he] at hf
    | succ f => simpa [Json.text, Json.fixed] using parseValue_num hn hs
  | .str s, n, f, d, rest, _, _, hf, _ => by
    cases f with
    | zero => simp [Json.text, quote] at hf
    | succ f => simpa [Json.text, Json.fixed] using parseValue_quote
  | .arr [], n, f, d, rest, h, hd, hf, hs => by
    cases n with
    | zero => simp [Json.Ok] at h
    | succ n =>
    cases f with
    | zero => simp [Json.text, elemsText] at hf
    | succ f =>
      simp only [Json.text, elemsText, Json.fixed, fixedElems, List.cons_append, List.nil_append]
      unfold parseValue
      rw [skipWs_cons (by decide)]
      simp only
      rw [if_neg (by decide), if_neg (by decide), if_pos (by trivial), if_neg (by omega), skipWs_cons (by decide)]
      rfl
  | .arr (v :: vs), n, f, d, rest, h, hd, hf, hs => by
    cases n with
    | zero => simp [Json.Ok] at h
    | succ n =>
    cases f with
    | zero => simp [Json.text] at hf
    | succ f =>
      simp only [Json.Ok, okElems] at h
      have hw := Json.text_head h.1
      simp only [Json.text, List.length_cons] at hf
      have hrec := parseElems_text v vs (n := n) (f := f) (d := d + 1) (rest := rest) h.1 h.2 (by omega) (by omega)
      obtain ⟨c, t, hc, hc1, hc2, -⟩ := hw
      simp only [Json.text, elemsText, Json.fixed, fixedElems, List.cons_append, List.append_assoc] at hrec ⊢
      unfold parseValue
      rw [skipWs_cons (by decide)]
      simp only
      rw [if_neg (by decide), if_neg (by decide), if_pos (by trivial), if_neg (by omega)]
      rw [hrec]
      have : skipWs (v.text ++ (elemsTail vs ++ rest)) = c :: (t ++ (elemsTail vs ++ rest)) := by
        rw [hc, List.cons_append, skipWs_cons hc1]
      rw [this]
      split
      · rename_i h'; cases h'; exact absurd rfl hc2
      · rfl
  | .obj [], n, f, d, rest, h, hd, hf, hs => by
    cases n with
    | zero => simp [Json.Ok] at h
    | succ n =>
    cases f with
    | zero => simp [Json.text] at hf
    | succ f =>
      simp only [Json.text, membersText, Json.fixed, fixedMembers, List.cons_append, List.nil_append]
      unfold parseValue
      rw [skipWs_cons (by decide)]
      simp only
      rw [if_neg (by decide), if_pos (by trivial), if_neg (by omega), skipWs_cons (by decide)]
      rfl
  | .obj ((k, v) :: kvs), n, f, d, rest, h, hd, hf, hs => by
    cases n with
    | zero => simp [Json.Ok] at h
    | succ n =>
    cases f with
    | zero => simp [Json.text] at hf
    | succ f =>
      simp only [Json.Ok, okMembers] at h
      simp only [Json.text, List.length_cons] at hf
      have hrec := parseMembers_text k v kvs (n := n) (f := f) (d := d + 1) (rest := rest) h.1 h.2 (by omega) (by omega)
      simp only [Json.text, Json.fixed, fixedMembers, List.cons_append] at hrec ⊢
      unfold parseValue
      rw [skipWs_cons (by decide)]
      simp only
      rw [if_neg (by decide), if_pos (by trivial), if_neg (by omega)]
      rw [hrec]
      simp only [membersText, quote, List.cons_append]
      rw [skipWs_cons (by decide)]
      rfl
termination_by _ _ f => f
theorem parseElems_text : ∀ (v : Json) (vs : List Json) {n f d : Nat} {rest : Bytes}, v.Ok n → okElems n vs → d + n ≤ maxNesting →
    2 * (elemsText (v :: vs)).length ≤ f + 1 →
    parseElems f d (elemsText (v :: vs) ++ rest) = some (fixedElems (v :: vs), rest)
  | v, [], n, f, d, rest, h, _, hd, hf => by
    simp only [elemsText, elemsTail, fixedElems, List.length_append, List.length_cons, List.length_nil] at hf ⊢
    obtain ⟨c, t, hc, -⟩ := Json.text_head h
    have hpos : 1 ≤ v.text.length := by rw [hc]; simp
    cases f with
    | zero => omega
    | succ f =>
      unfold parseElems
      rw [List.append_assoc, parseValue_text v (f := f) (rest := [93] ++ rest) h hd (by omega) (stop_elemsTail [] rest)]
      simp only [List.cons_append]
      rw [skipWs_cons (by decide)]
      rfl
  | v, w :: vs, n, f, d, rest, h, hvs, hd, hf => by
    obtain ⟨c, t, hc, -⟩ := Json.text_head h
    have hpos : 1 ≤ v.text.length := by rw [hc]; simp
    simp only [okElems] at hvs
    cases f with
    | zero => simp [elemsText, elemsTail] at hf; omega
    | succ f =>
      have hrec := fun hf => parseElems_text w vs (n := n) (f := f) (d := d) (rest := rest) hvs.1 hvs.2 hd hf
      simp only [elemsText, elemsTail, fixedElems, List.length_append, List.length_cons] at hf hrec ⊢
      unfold parseElems
      rw [List.append_assoc, parseValue_text v (f := f) (rest := 44 :: (w.text ++ elemsTail vs) ++ rest) h hd (by omega) (stop_elemsTail (w :: vs) rest)]
      simp only [List.cons_append]
      rw [skipWs_cons (by decide)]
      simp only
      rw [hrec (by omega)]
      rfl
termination_by _ _ _ f => f
theorem parseMembers_text : ∀ (k : Bytes) (v : Json) (kvs : List (Bytes × Json)) {n f d : Nat} {rest : Bytes}, v.Ok n → okMembers n kvs → d + n ≤ maxNesting →
    2 * (membersText ((k, v) :: kvs)).length ≤ f + 1 →
    parseMembers f d (membersText ((k, v) :: kvs) ++ rest) = some (fixedMembers ((k, v) :: kvs), rest)
  | k, v, [], n, f, d, rest, h, _, hd, hf => by
    simp only [membersText, membersTail, fixedMembers, List.length_append, List.length_cons, List.length_nil, quote] at hf ⊢
    cases f with
    | zero => omega
    | succ f =>
      unfold parseMembers
      simp only [List.cons_append, List.append_assoc, List.nil_append]
      rw [skipWs_cons (by decide)]
      simp only
      rw [parseStr_quoteBody _ _ (by simp)]
      simp only
      rw [skipWs_cons (by decide)]
      simp only
      have := parseValue_text v (f := f) (rest := 125 :: rest) h hd (by omega) (stop_membersTail [] rest)
      rw [this]
      simp only
      rw [skipWs_cons (by decide)]
      rfl
  | k, v, (k2, w) :: kvs, n, f, d, rest, h, hvs, hd, hf => by
    simp only [okMembers] at hvs
    cases f with
    | zero => simp [membersText, membersTail, quote] at hf; omega
    | succ f =>
      have hrec := fun hf => parseMembers_text k2 w kvs (n := n) (f := f) (d := d) (rest := rest) hvs.1 hvs.2 hd hf
      have hval := fun hf => parseValue_text v (f := f) (rest := membersTail ((k2, w) :: kvs) ++ rest) h hd hf (stop_membersTail _ rest)
      simp only [membersText, membersTail, fixedMembers, List.length_append, List.length_cons, quote] at hf hrec hval ⊢
      unfold parseMembers
      simp only [List.cons_append, List.append_assoc, List.nil_append] at hrec hval ⊢
      rw [skipWs_cons (by decide)]
      simp only
      rw [parseStr_quoteBody _ _ (by simp)]
      simp only
      rw [skipWs_cons (by decide)]
      simp only
      rw [hval (by omega)]
      simp only
      rw [skipWs_cons (by decide)]
      simp only
      rw [hrec (by omega)]
      rfl
termination_by _ _ _ _ f => f
end

/-- What `json.Marshal` writes is read back, also with white space after it. -/
theorem parseJson_text {v : Json} {n : Nat} {ws : Bytes} (h : v.Ok n) (hn : n ≤ maxNesting) (hws : ∀ c ∈ ws, isWs c = true) :
    parseJson (v.text ++ ws) = some v.fixed := by
  unfold parseJson
  rw [parseValue_text v h (by omega) (by simp; omega) (by
    intro c hc
    exact .inr (.inr (.inr (hws c (List.mem_of_head? hc)))))]
  have : skipWs ws = [] := by
    rw [skipWs]
    exact List.dropWhile_eq_nil_iff.mpr hws
  simp [this]

end Verif.Go
