import Verif.Spec.Handshake
import Mathlib.Data.List.TakeWhile
import Mathlib.Tactic.Common

/-!
# C110: who gets a websocket
-/

namespace Verif.Props
open Verif.Go Verif.Spec

/-! ## Lists of tokens -/

private theorem drop_app {p : UInt8 → Bool} {a x : Bytes} (ha : ∀ b ∈ a, p b = true) (hx : ∀ b, x.head? = some b → p b = false) : (a ++ x).dropWhile p = x := by
  induction a with
  | nil =>
    cases x with
    | nil => rfl
    | cons b x => simp [List.dropWhile, hx b rfl]
  | cons b a ih =>
    simp only [List.cons_append, List.dropWhile, ha b (by simp)]
    exact ih fun c hc => ha c (by simp [hc])

private theorem take_app {p : UInt8 → Bool} {a x : Bytes} (ha : ∀ b ∈ a, p b = true) (hx : ∀ b, x.head? = some b → p b = false) : (a ++ x).takeWhile p = a := by
  induction a with
  | nil =>
    cases x with
    | nil => rfl
    | cons b x => simp [List.takeWhile, hx b rfl]
  | cons b a ih =>
    simp only [List.cons_append, List.takeWhile, ha b (by simp)]
    rw [ih fun c hc => ha c (by simp [hc])]

private theorem blanks_iff {s : Bytes} : Blanks s ↔ ∀ b ∈ s, isBlank b = true := by
  simp [Blanks, isBlank]

private theorem token_iff {t : Bytes} : IsToken t ↔ t ≠ [] ∧ ∀ b ∈ t, isTokenByte b = true := by
  simp only [IsToken, isTokenByte, Bool.or_eq_true, Bool.and_eq_true, decide_eq_true_eq, List.contains_iff_mem, or_assoc]

private theorem blank_not_token (b : UInt8) (h : isBlank b = true) : isTokenByte b = false := by
  simp only [isBlank, Bool.or_eq_true, beq_iff_eq] at h
  rcases h with rfl | rfl <;> decide +kernel

private theorem token_not_blank (b : UInt8) (h : isTokenByte b = true) : isBlank b = false := by
  cases hb : isBlank b with
  | false => rfl
  | true => rw [blank_not_token b hb] at h; cases h

private theorem caseless_iff {s t : Bytes} (ht : ∀ b ∈ t, ¬ (65 ≤ b ∧ b ≤ 90)) : IsCaseless s t ↔ s.map lowerByte = t.map lowerByte := by
  have ht' : t.map lowerByte = t := by
    conv_rhs => rw [← List.map_id t]
    refine List.map_congr_left fun b hb => ?_
    have := ht b hb
    simp only [lowerByte, Bool.and_eq_true, decide_eq_true_eq, if_neg this, id]
  rw [ht']
  induction s generalizing t with
  | nil => cases t <;> simp [IsCaseless]
  | cons x s ih =>
    cases t with
    | nil => simp [IsCaseless]
    | cons y t =>
      have hy : ¬ (65 ≤ y ∧ y ≤ 90) := ht y (by simp)
      have ht2 : ∀ b ∈ t, ¬ (65 ≤ b ∧ b ≤ 90) := fun b hb => ht b (by simp [hb])
      simp only [List.map_cons, List.cons.injEq] at ht'
      have ih' := ih ht2 ht'.2
      simp only [IsCaseless] at ih' ⊢
      rw [List.forall₂_cons, List.map_cons, List.cons.injEq]
      refine and_congr ?_ ih'
      simp only [lowerByte, Bool.and_eq_true, decide_eq_true_eq]
      by_cases hx : 65 ≤ x ∧ x ≤ 90
      · rw [if_pos hx]
        constructor
        · rintro (rfl | ⟨-, -, h⟩)
          · exact absurd hx hy
          · exact h.symm
        · exact fun h => .inr ⟨hx.1, hx.2, h.symm⟩
      · rw [if_neg hx]
        constructor
        · rintro (h | ⟨h1, h2, -⟩)
          · exact h
          · exact absurd ⟨h1, h2⟩ hx
        · exact .inl

/-- How an element is read, if the line ends after it or goes on with a comma. -/
private theorem read_element {e tok rest : Bytes} (he : Element e tok) (hr : rest = [] ∨ ∃ more, rest = 44 :: more) :
    ((e ++ rest).dropWhile isBlank).takeWhile isTokenByte = tok ∧ (((e ++ rest).dropWhile isBlank).dropWhile isTokenByte).dropWhile isBlank = rest ∧ tok ≠ [] := by
  obtain ⟨a, c, ha, hc, ht, rfl⟩ := he
  rw [blanks_iff] at ha hc
  rw [token_iff] at ht
  obtain ⟨b, tok', htok⟩ := List.exists_cons_of_ne_nil ht.1
  have hrest : ∀ b, rest.head? = some b → b = 44 := by
    rcases hr with rfl | ⟨more, rfl⟩ <;> simp
  have h1 : (a ++ tok ++ c ++ rest).dropWhile isBlank = tok ++ (c ++ rest) := by
    rw [show a ++ tok ++ c ++ rest = a ++ (tok ++ (c ++ rest)) by simp]
    refine drop_app ha fun x hx => ?_
    rw [htok] at hx
    simp only [List.cons_append, List.head?_cons, Option.some.injEq] at hx
    subst hx
    exact token_not_blank b (ht.2 b (by rw [htok]; simp))
  have h2 : ∀ x, (c ++ rest).head? = some x → isTokenByte x = false := by
    intro x hx
    cases c with
    | nil => rw [hrest x hx]; decide +kernel
    | cons y c =>
      simp only [List.cons_append, List.head?_cons, Option.some.injEq] at hx
      subst hx
      exact blank_not_token y (hc y (by simp))
  rw [h1]
  refine ⟨take_app ht.2 h2, ?_, ht.1⟩
  rw [drop_app ht.2 h2]
  refine drop_app hc fun x hx => ?_
  rw [hrest x hx]; decide +kernel

private theorem tokenList_eq (t s : Bytes) : tokenList t s =
    if (s.dropWhile isBlank).takeWhile isTokenByte = [] then false
    else match ((s.dropWhile isBlank).dropWhile isTokenByte).dropWhile isBlank with
      | [] => ((s.dropWhile isBlank).takeWhile isTokenByte).map lowerByte = t.map lowerByte
      | b :: rest => if b ≠ 44 then false else ((s.dropWhile isBlank).takeWhile isTokenByte).map lowerByte = t.map lowerByte || tokenList t rest := by
  rw [tokenList]
  split
  · rfl
  · split
    · rename_i h; rw [h]
    · rename_i h; rw [h]

private theorem all_of_take {p : UInt8 → Bool} (s : Bytes) : ∀ b ∈ s.takeWhile p, p b = true := fun _ hb => List.mem_takeWhile_imp hb

/-- A line that starts with a token is an element and the rest. -/
private theorem element_of (s : Bytes) (h : (s.dropWhile isBlank).takeWhile isTokenByte ≠ []) :
    ∃ e, Element e ((s.dropWhile isBlank).takeWhile isTokenByte) ∧ s = e ++ ((s.dropWhile isBlank).dropWhile isTokenByte).dropWhile isBlank := by
  refine ⟨s.takeWhile isBlank ++ (s.dropWhile isBlank).takeWhile isTokenByte ++ ((s.dropWhile isBlank).dropWhile isTokenByte).takeWhile isBlank,
    ⟨_, _, blanks_iff.2 (all_of_take _), blanks_iff.2 (all_of_take _), token_iff.2 ⟨h, all_of_take _⟩, rfl⟩, ?_⟩
  simp only [List.append_assoc, List.takeWhile_append_dropWhile]

/-- A header line is read as it should be. -/
private theorem tokenList_iff {t : Bytes} (ht : ∀ b ∈ t, ¬ (65 ≤ b ∧ b ≤ 90)) (s : Bytes) : tokenList t s = true ↔ Lists t s := by
  constructor
  · intro h
    induction hn : s.length using Nat.strongRecOn generalizing s with
    | _ n ih =>
      rw [tokenList_eq] at h
      split at h
      · cases h
      · rename_i hne
        obtain ⟨e, he, hs⟩ := element_of s hne
        generalize (s.dropWhile isBlank).takeWhile isTokenByte = tok at *
        generalize hrest : ((s.dropWhile isBlank).dropWhile isTokenByte).dropWhile isBlank = rest at *
        cases rest with
        | nil =>
          simp only [decide_eq_true_eq] at h
          exact ⟨[], e, tok, [], by simp, he, (caseless_iff ht).2 h, .inl rfl, by simpa using hs⟩
        | cons b rest =>
          by_cases hb : b = 44
          · subst hb
            simp only [ne_eq, not_true_eq_false, if_false, Bool.or_eq_true, decide_eq_true_eq] at h
            rcases h with h | h
            · exact ⟨[], e, tok, 44 :: rest, by simp, he, (caseless_iff ht).2 h, .inr ⟨rest, rfl⟩, by simpa using hs⟩
            · obtain ⟨es, e', tok', rest', h1, h2, h3, h4, h5⟩ := ih rest.length (by rw [← hn, hs]; simp; omega) rest h rfl
              refine ⟨(e, tok) :: es, e', tok', rest', ?_, h2, h3, h4, ?_⟩
              · intro p hp
                rcases List.mem_cons.1 hp with rfl | hp
                · exact he
                · exact h1 p hp
              · rw [hs, h5]; simp
          · simp [hb] at h
  · rintro ⟨es, e, tok, rest, h1, h2, h3, h4, rfl⟩
    induction es with
    | nil =>
      obtain ⟨r1, r2, r3⟩ := read_element h2 h4
      rw [tokenList_eq]
      simp only [List.flatMap_nil, List.nil_append, r1, r2, if_neg r3]
      rw [caseless_iff ht] at h3
      rcases h4 with rfl | ⟨more, rfl⟩ <;> simp [h3]
    | cons p es ih =>
      have ih := ih fun q hq => h1 q (by simp [hq])
      obtain ⟨r1, r2, r3⟩ := read_element (h1 p (by simp)) (rest := 44 :: ((es.flatMap fun p => p.1 ++ [44]) ++ e ++ rest)) (.inr ⟨_, rfl⟩)
      rw [tokenList_eq, show (List.flatMap (fun p => p.1 ++ [44]) (p :: es)) ++ e ++ rest = p.1 ++ 44 :: ((es.flatMap fun p => p.1 ++ [44]) ++ e ++ rest) by simp]
      simp only [r1, r2, if_neg r3]
      simp only [ne_eq, not_true_eq_false, if_false, Bool.or_eq_true]
      exact .inr ih

/-! ## Subprotocols -/

private theorem commas_eq (s : Bytes) : commas s = s.takeWhile (· ≠ 44) :: (match s.dropWhile (· ≠ 44) with
    | [] => []
    | _ :: r => commas r) := by
  induction s with
  | nil => rfl
  | cons b s ih =>
    rw [commas]
    by_cases hb : b = 44
    · subst hb
      simp
    · rw [if_neg hb, ih]
      simp [List.takeWhile, List.dropWhile, hb]

private theorem drop_head {q : UInt8 → Bool} {s : Bytes} {b : UInt8} {r : Bytes} (h : s.dropWhile q = b :: r) : q b = false := by
  induction s with
  | nil => cases h
  | cons c s ih =>
    rw [List.dropWhile_cons] at h
    split at h
    · exact ih h
    · rename_i hc
      cases h
      simpa using hc

private theorem mem_commas {s p : Bytes} : p ∈ commas s ↔ (∀ b ∈ p, b ≠ 44) ∧ ∃ l r, s = l ++ p ++ r ∧ (l = [] ∨ ∃ l', l = l' ++ [44]) ∧ (r = [] ∨ ∃ r', r = 44 :: r') := by
  induction hn : s.length using Nat.strongRecOn generalizing s with
  | _ n ih =>
    rw [commas_eq, List.mem_cons]
    constructor
    · rintro (rfl | h)
      · refine ⟨fun b hb => by simpa using all_of_take s b hb, [], s.dropWhile (· ≠ 44), by simp, .inl rfl, ?_⟩
        cases hd : s.dropWhile (· ≠ 44) with
        | nil => exact .inl rfl
        | cons b r =>
          have := drop_head hd
          simp only [ne_eq, decide_not, Bool.not_eq_eq_eq_not, Bool.not_false, decide_eq_true_eq] at this
          exact .inr ⟨r, by rw [this]⟩
      · cases hd : s.dropWhile (· ≠ 44) with
        | nil => rw [hd] at h; cases h
        | cons b r =>
          rw [hd] at h
          have hs : s = s.takeWhile (· ≠ 44) ++ b :: r := by rw [← hd, List.takeWhile_append_dropWhile]
          have hb := drop_head hd
          simp only [ne_eq, decide_not, Bool.not_eq_eq_eq_not, Bool.not_false, decide_eq_true_eq] at hb
          subst hb
          generalize s.takeWhile (· ≠ 44) = w at hs
          obtain ⟨h1, l, r', h2, h3, h4⟩ := (ih r.length (by rw [← hn, hs]; simp; omega) rfl).1 h
          refine ⟨h1, w ++ 44 :: l, r', by rw [hs, h2]; simp, .inr ?_, h4⟩
          rcases h3 with rfl | ⟨l', rfl⟩
          · exact ⟨w, rfl⟩
          · exact ⟨w ++ 44 :: l', by simp⟩
    · rintro ⟨h1, l, r, h2, h3, h4⟩
      have hp : ∀ b ∈ p, (decide (b ≠ 44)) = true := fun b hb => by simpa using h1 b hb
      rcases h3 with rfl | ⟨l', rfl⟩
      · left
        rw [h2, List.nil_append]
        refine (take_app hp fun b hb => ?_).symm
        rcases h4 with rfl | ⟨r', rfl⟩
        · cases hb
        · simp only [List.head?_cons, Option.some.injEq] at hb
          simp [← hb]
      · right
        have hl : l' = l'.takeWhile (· ≠ 44) ++ l'.dropWhile (· ≠ 44) := (List.takeWhile_append_dropWhile).symm
        have hw : ∀ b ∈ l'.takeWhile (· ≠ 44), (decide (b ≠ 44)) = true := all_of_take l'
        cases hd : l'.dropWhile (· ≠ 44) with
        | nil =>
          rw [hd, List.append_nil] at hl
          have hs : s = l' ++ 44 :: (p ++ r) := by rw [h2]; simp
          have hdr : s.dropWhile (· ≠ 44) = 44 :: (p ++ r) := by
            rw [hs]
            exact drop_app (by rw [hl]; exact hw) (by simp)
          rw [hdr]
          exact (ih (p ++ r).length (by rw [← hn, hs]; simp; omega) rfl).2 ⟨h1, [], r, by simp, .inl rfl, h4⟩
        | cons b q =>
          have hb := drop_head hd
          simp only [ne_eq, decide_not, Bool.not_eq_eq_eq_not, Bool.not_false, decide_eq_true_eq] at hb
          subst hb
          rw [hd] at hl
          generalize l'.takeWhile (· ≠ 44) = w at hl hw
          have hs : s = w ++ 44 :: (q ++ [44] ++ p ++ r) := by rw [h2, hl]; simp
          have hdr : s.dropWhile (· ≠ 44) = 44 :: (q ++ [44] ++ p ++ r) := by
            rw [hs]
            exact drop_app hw (by simp)
          rw [hdr]
          exact (ih (q ++ [44] ++ p ++ r).length (by rw [← hn, hs]; simp; omega) rfl).2 ⟨h1, q ++ [44], r, by simp, .inr ⟨q, rfl⟩, h4⟩

private theorem spaces_iff {s : Bytes} : Spaces s ↔ ∀ b ∈ s, isTrimmed b = true := by
  simp [Spaces, isTrimmed]

private theorem spaces_app {a c : Bytes} (ha : Spaces a) (hc : Spaces c) : Spaces (a ++ c) := fun b hb => (List.mem_append.1 hb).elim (ha b) (hc b)

/-- A name of a subprotocol: not empty, without commas and white space. -/
private def PlainName (p : Bytes) : Prop := p ≠ [] ∧ ∀ b ∈ p, isTrimmed b = false ∧ b ≠ 44

private theorem trimmed_split (s : Bytes) : ∃ a c, Spaces a ∧ Spaces c ∧ s = a ++ trimmed s ++ c := by
  refine ⟨s.takeWhile isTrimmed, (((s.dropWhile isTrimmed).reverse).takeWhile isTrimmed).reverse, spaces_iff.2 (all_of_take s), spaces_iff.2 ?_, ?_⟩
  · intro b hb
    exact all_of_take _ b (List.mem_reverse.1 hb)
  · rw [trimmed, List.append_assoc, ← List.reverse_append, List.takeWhile_append_dropWhile, List.reverse_reverse, List.takeWhile_append_dropWhile]

private theorem drop_mid {q : UInt8 → Bool} {x z : Bytes} {y : UInt8} (hy : q y = false) : (x ++ y :: z).dropWhile q = x.dropWhile q ++ y :: z := by
  induction x with
  | nil => simp [hy]
  | cons b x ih =>
    simp only [List.cons_append, List.dropWhile_cons]
    split
    · exact ih
    · simp

/-- Trimming around a name. -/
private theorem trimmed_around {p : Bytes} (hp : PlainName p) (x z : Bytes) : trimmed (x ++ p ++ z) = x.dropWhile isTrimmed ++ p ++ (z.reverse.dropWhile isTrimmed).reverse := by
  obtain ⟨b, p1, hp1⟩ := List.exists_cons_of_ne_nil hp.1
  have h1 : (x ++ p ++ z).dropWhile isTrimmed = x.dropWhile isTrimmed ++ p ++ z := by
    rw [hp1, List.append_assoc, List.cons_append, drop_mid (hp.2 b (by rw [hp1]; simp)).1]
    simp
  have hr : p.reverse ≠ [] := by simpa using hp.1
  obtain ⟨c, p2, hp2⟩ := List.exists_cons_of_ne_nil hr
  have hc : isTrimmed c = false := (hp.2 c (List.mem_reverse.1 (by rw [hp2]; simp))).1
  have h2 : ((x.dropWhile isTrimmed ++ p ++ z).reverse).dropWhile isTrimmed = z.reverse.dropWhile isTrimmed ++ p.reverse ++ (x.dropWhile isTrimmed).reverse := by
    rw [List.reverse_append, List.reverse_append, hp2, List.cons_append, drop_mid hc]
    simp
  rw [trimmed, h1, h2]
  simp

private theorem drop_spaces {a : Bytes} (ha : Spaces a) : a.dropWhile isTrimmed = [] := by
  rw [← List.append_nil a]
  exact drop_app (spaces_iff.1 ha) (by simp)

private theorem trimmed_iff {p q : Bytes} (hp : PlainName p) : trimmed q = p ↔ ∃ a c, Spaces a ∧ Spaces c ∧ q = a ++ p ++ c := by
  constructor
  · rintro rfl
    exact trimmed_split q
  · rintro ⟨a, c, ha, hc, rfl⟩
    rw [trimmed_around hp, drop_spaces ha, drop_spaces (a := c.reverse) (fun b hb => hc b (List.mem_reverse.1 hb))]
    simp

private theorem space_no_comma {a : Bytes} (ha : Spaces a) : ∀ b ∈ a, b ≠ 44 := by
  rintro b hb rfl
  have := spaces_iff.1 ha 44 hb
  revert this
  decide +kernel

private theorem offered_iff {p line : Bytes} (hp : PlainName p) : (∃ q ∈ commas (trimmed line), trimmed q = p) ↔ Offered p line := by
  constructor
  · rintro ⟨q, hq, ht⟩
    obtain ⟨a0, c0, ha0, hc0, hline⟩ := trimmed_split line
    obtain ⟨-, l, r, h2, h3, h4⟩ := mem_commas.1 hq
    obtain ⟨a, c, ha, hc, rfl⟩ := (trimmed_iff hp).1 ht
    rw [h2] at hline
    rcases h3 with rfl | ⟨l', rfl⟩ <;> rcases h4 with rfl | ⟨r', rfl⟩
    · exact ⟨[], a0 ++ a, c ++ c0, [], by rw [hline]; simp, spaces_app ha0 ha, spaces_app hc hc0, .inl rfl, .inl rfl⟩
    · exact ⟨[], a0 ++ a, c, 44 :: (r' ++ c0), by rw [hline]; simp, spaces_app ha0 ha, hc, .inl rfl, .inr ⟨_, rfl⟩⟩
    · exact ⟨a0 ++ l' ++ [44], a, c ++ c0, [], by rw [hline]; simp, ha, spaces_app hc hc0, .inr ⟨_, rfl⟩, .inl rfl⟩
    · exact ⟨a0 ++ l' ++ [44], a, c, 44 :: (r' ++ c0), by rw [hline]; simp, ha, hc, .inr ⟨_, rfl⟩, .inr ⟨_, rfl⟩⟩
  · rintro ⟨before, a, c, after, hline, ha, hc, hb, haf⟩
    have hline' : line = (before ++ a) ++ p ++ (c ++ after) := by rw [hline]; simp
    have hcr : Spaces c.reverse := fun b hb => hc b (List.mem_reverse.1 hb)
    have hL : ∃ l a', (before ++ a).dropWhile isTrimmed = l ++ a' ∧ Spaces a' ∧ (l = [] ∨ ∃ l', l = l' ++ [44]) := by
      rcases hb with rfl | ⟨l, rfl⟩
      · exact ⟨[], [], by simp [drop_spaces ha], by simp [Spaces], .inl rfl⟩
      · refine ⟨l.dropWhile isTrimmed ++ [44], a, ?_, ha, .inr ⟨_, rfl⟩⟩
        rw [List.append_assoc, List.singleton_append, drop_mid (by decide +kernel)]
        simp
    have hR : ∃ r c', (((c ++ after).reverse).dropWhile isTrimmed).reverse = c' ++ r ∧ Spaces c' ∧ (r = [] ∨ ∃ r', r = 44 :: r') := by
      rcases haf with rfl | ⟨r, rfl⟩
      · exact ⟨[], [], by simp [drop_spaces hcr], by simp [Spaces], .inl rfl⟩
      · refine ⟨44 :: ((r.reverse).dropWhile isTrimmed).reverse, c, ?_, hc, .inr ⟨_, rfl⟩⟩
        rw [List.reverse_append, List.reverse_cons, List.append_assoc, List.singleton_append, drop_mid (by decide +kernel)]
        simp
    obtain ⟨l, a', hl, ha', hl2⟩ := hL
    obtain ⟨r, c', hr, hc', hr2⟩ := hR
    refine ⟨a' ++ p ++ c', mem_commas.2 ⟨?_, l, r, ?_, hl2, hr2⟩, (trimmed_iff hp).2 ⟨a', c', ha', hc', rfl⟩⟩
    · intro b hb
      simp only [List.mem_append] at hb
      rcases hb with (hb | hb) | hb
      · exact space_no_comma ha' b hb
      · exact (hp.2 b hb).2
      · exact space_no_comma hc' b hb
    · rw [hline', trimmed_around hp, hl, hr]
      simp

private theorem mem_offers {p : Bytes} (hp : PlainName p) (r : HttpReq) : p ∈ offers r ↔ Offered p (r.get (str "Sec-Websocket-Protocol")) := by
  rw [← offered_iff hp]
  simp only [offers]
  split
  · rename_i h
    rw [h]
    simp only [List.not_mem_nil, commas, List.mem_singleton, exists_eq_left, false_iff]
    exact fun h => hp.1 h.symm
  · rw [List.mem_map]

/-! ## The handshakes -/

private theorem lower_upgrade : ∀ b ∈ str "upgrade", ¬ (65 ≤ b ∧ b ≤ 90) := by decide +kernel
private theorem lower_websocket : ∀ b ∈ str "websocket", ¬ (65 ≤ b ∧ b ≤ 90) := by decide +kernel
private theorem lower_version : ∀ b ∈ str "13", ¬ (65 ≤ b ∧ b ≤ 90) := by decide +kernel

private theorem any_iff {t : Bytes} (ht : ∀ b ∈ t, ¬ (65 ≤ b ∧ b ≤ 90)) {ls : List Bytes} : ls.any (tokenList t) = true ↔ ∃ line ∈ ls, Lists t line := by
  simp only [List.any_eq_true, tokenList_iff ht]

private theorem asks_iff {validKey : Bytes → Bool} {r : HttpReq} : AsksWebsocket validKey r ↔
    (r.header (str "Connection")).any (tokenList (str "upgrade")) = true ∧ (r.header (str "Upgrade")).any (tokenList (str "websocket")) = true ∧ r.method = str "GET" ∧
    (r.header (str "Sec-Websocket-Version")).any (tokenList (str "13")) = true ∧ validKey (r.get (str "Sec-Websocket-Key")) = true := by
  rw [any_iff lower_upgrade, any_iff lower_websocket, any_iff lower_version]
  exact ⟨fun h => ⟨h.connection, h.upgrade, h.get, h.version, h.key⟩, fun h => ⟨h.2.2.1, h.1, h.2.1, h.2.2.2.1, h.2.2.2.2⟩⟩

private theorem upgrade_iff {u : Upgrader} (hu : ∀ r, u.checkOrigin r = true) {validKey : Bytes → Bool} {r : HttpReq} {response : Option Bytes} {p : Bytes} :
    u.upgrade validKey r response = .upgraded p ↔ AsksWebsocket validKey r ∧ p = u.select r response := by
  rw [asks_iff, Upgrader.upgrade, hu r]
  generalize (r.header (str "Connection")).any (tokenList (str "upgrade")) = c1
  generalize (r.header (str "Upgrade")).any (tokenList (str "websocket")) = c2
  generalize (r.header (str "Sec-Websocket-Version")).any (tokenList (str "13")) = c3
  generalize validKey (r.get (str "Sec-Websocket-Key")) = c4
  generalize u.select r response = q
  by_cases hm : r.method = str "GET"
  · cases c1 <;> cases c2 <;> cases c3 <;> cases c4 <;> simp [hm, eq_comm]
  · cases c1 <;> cases c2 <;> simp [hm]

private theorem upgrade_refused {u : Upgrader} (hu : ∀ r, u.checkOrigin r = true) {validKey : Bytes → Bool} {r : HttpReq} {response : Option Bytes} {n : Nat}
    (h : u.upgrade validKey r response = .refused n) : n = 400 ∨ n = 405 := by
  rw [Upgrader.upgrade, hu r] at h
  generalize (r.header (str "Connection")).any (tokenList (str "upgrade")) = c1 at h
  generalize (r.header (str "Upgrade")).any (tokenList (str "websocket")) = c2 at h
  generalize (r.header (str "Sec-Websocket-Version")).any (tokenList (str "13")) = c3 at h
  generalize validKey (r.get (str "Sec-Websocket-Key")) = c4 at h
  by_cases hm : r.method = str "GET"
  · cases c1 <;> cases c2 <;> cases c3 <;> cases c4 <;> simp [hm] at h <;> omega
  · cases c1 <;> cases c2 <;> simp [hm] at h <;> omega

private theorem plain_directions {d : Bytes} (hd : d ∈ [str "ndt", str "c2s", str "s2c"]) : PlainName d := by
  have : ∀ d ∈ [str "ndt", str "c2s", str "s2c"], d ≠ [] ∧ ∀ b ∈ d, isTrimmed b = false ∧ b ≠ 44 := by decide +kernel
  exact this d hd

private theorem select_one {d : Bytes} (hd : PlainName d) (r : HttpReq) (response : Option Bytes) :
    (Offered d (r.get (str "Sec-Websocket-Protocol")) → (Ndt5.wsUpgrader d).select r response = d) ∧
    (¬ Offered d (r.get (str "Sec-Websocket-Protocol")) → (Ndt5.wsUpgrader d).select r response = []) := by
  rw [← mem_offers hd]
  simp only [Upgrader.select, Ndt5.wsUpgrader, List.contains_cons, List.contains_nil, Bool.or_false]
  constructor
  · intro h
    cases hf : (offers r).find? (fun c => c == d) with
    | none => exact absurd (List.find?_eq_none.1 hf d h) (by simp)
    | some c =>
      have := List.find?_some hf
      simpa using this
  · intro h
    have : (offers r).find? (fun c => c == d) = none := List.find?_eq_none.2 fun c hc => by
      simp only [beq_iff_eq]
      rintro rfl
      exact h hc
    rw [this]; rfl

/-- C110: the control connection of ndt5 (`d` is "ndt") and the connections of its tests ("c2s" and "s2c") are made for exactly the requests for a websocket, whatever web page they come from; the subprotocol is the expected one if the client offers it, and there is none otherwise. -/
theorem C110_ndt5 {d : Bytes} (hd : d ∈ [str "ndt", str "c2s", str "s2c"]) (validKey : Bytes → Bool) (r : HttpReq) (p : Bytes) :
    Ndt5.testShake d validKey r = .upgraded p ↔ AsksWebsocket validKey r ∧
      ((p = d ∧ Offered d (r.get (str "Sec-Websocket-Protocol"))) ∨ (p = [] ∧ ¬ Offered d (r.get (str "Sec-Websocket-Protocol")))) := by
  have hs := select_one (plain_directions hd) r none
  rw [Ndt5.testShake, upgrade_iff (fun _ => rfl)]
  refine and_congr Iff.rfl ?_
  by_cases ho : Offered d (r.get (str "Sec-Websocket-Protocol"))
  · rw [hs.1 ho]; simp [ho]
  · rw [hs.2 ho]; simp [ho]

/-- C110: the control connection is such a connection. -/
theorem C110_ndt5_control (validKey : Bytes → Bool) (r : HttpReq) (p : Bytes) :
    Ndt5.controlShake validKey r = .upgraded p ↔ AsksWebsocket validKey r ∧
      ((p = str "ndt" ∧ Offered (str "ndt") (r.get (str "Sec-Websocket-Protocol"))) ∨ (p = [] ∧ ¬ Offered (str "ndt") (r.get (str "Sec-Websocket-Protocol")))) :=
  C110_ndt5 (by simp) validKey r p

/-- C110: connections of ndt7 are made for exactly the requests for a websocket that offer its subprotocol, and nothing else; it is then the one of the connection. -/
theorem C110_ndt7 (validKey : Bytes → Bool) (r : HttpReq) (p : Bytes) :
    Ndt7.shake validKey r = .upgraded p ↔ AsksWebsocket validKey r ∧ r.get (str "Sec-Websocket-Protocol") = str "net.measurementlab.ndt.v7" ∧ p = str "net.measurementlab.ndt.v7" := by
  rw [Ndt7.shake]
  split
  · rename_i h
    constructor
    · exact fun h => by cases h
    · exact fun h' => absurd h'.2.1 h
  · rename_i h
    have h : r.get (str "Sec-Websocket-Protocol") = str "net.measurementlab.ndt.v7" := Decidable.not_not.1 h
    rw [upgrade_iff (fun _ => rfl)]
    simp only [Upgrader.select, Option.getD_some, h, true_and]
    rfl

/-- C110: all others get an error response, that says that the request is bad or that the method is wrong. -/
theorem C110_refused {validKey : Bytes → Bool} {r : HttpReq} {n : Nat} (h : (∃ d, Ndt5.testShake d validKey r = .refused n) ∨ Ndt7.shake validKey r = .refused n) : n = 400 ∨ n = 405 := by
  rcases h with ⟨d, h⟩ | h
  · exact upgrade_refused (fun _ => rfl) h
  · rw [Ndt7.shake] at h
    split at h
    · cases h; exact .inl rfl
    · exact upgrade_refused (fun _ => rfl) h

private theorem browser_asks {validKey : Bytes → Bool} {protocol : Bytes} {r : HttpReq} (h : FromBrowser validKey protocol r) : AsksWebsocket validKey r := by
  refine asks_iff.2 ⟨?_, ?_, h.get, ?_, h.key⟩
  · rcases h.connection with h | h <;> rw [h, any_iff lower_upgrade] <;> rw [← any_iff lower_upgrade]
    · simp only [List.any_cons, List.any_nil, Bool.or_false]
      rw [tokenList_iff lower_upgrade]
      exact ⟨[], str "Upgrade", str "Upgrade", [], by simp, ⟨[], [], by simp [Blanks], by simp [Blanks], token_iff.2 (by decide +kernel), by simp⟩, (caseless_iff lower_upgrade).2 (by decide +kernel), .inl rfl, by simp⟩
    · simp only [List.any_cons, List.any_nil, Bool.or_false]
      rw [tokenList_iff lower_upgrade]
      refine ⟨[(str "keep-alive", str "keep-alive")], str " Upgrade", str "Upgrade", [], ?_, ⟨[32], [], by simp [Blanks], by simp [Blanks], token_iff.2 (by decide +kernel), by decide +kernel⟩, (caseless_iff lower_upgrade).2 (by decide +kernel), .inl rfl, by decide +kernel⟩
      simp only [List.forall_mem_singleton]
      exact ⟨[], [], by simp [Blanks], by simp [Blanks], token_iff.2 (by decide +kernel), by simp⟩
  · rw [h.upgrade, List.any_cons, List.any_nil, Bool.or_false, tokenList_iff lower_websocket]
    exact ⟨[], str "websocket", str "websocket", [], by simp, ⟨[], [], by simp [Blanks], by simp [Blanks], token_iff.2 (by decide +kernel), by simp⟩, (caseless_iff lower_websocket).2 rfl, .inl rfl, by simp⟩
  · rw [h.version, List.any_cons, List.any_nil, Bool.or_false, tokenList_iff lower_version]
    exact ⟨[], str "13", str "13", [], by simp, ⟨[], [], by simp [Blanks], by simp [Blanks], token_iff.2 (by decide +kernel), by simp⟩, (caseless_iff lower_version).2 rfl, .inl rfl, by simp⟩

/-- C110: the pages get the subprotocol that they ask for, so that their browser accepts the connection: html/ndt-browser-client.js asks for "ndt", "c2s" and "s2c" (lines 300, 357, 486), the workers of ndt7 for the subprotocol of ndt7 (line 7, line 6). -/
theorem C110_pages {validKey : Bytes → Bool} {r : HttpReq} :
    (∀ d ∈ [str "ndt", str "c2s", str "s2c"], FromBrowser validKey d r → Ndt5.testShake d validKey r = .upgraded d) ∧
    (FromBrowser validKey (str "net.measurementlab.ndt.v7") r → Ndt7.shake validKey r = .upgraded (str "net.measurementlab.ndt.v7")) := by
  refine ⟨fun d hd h => (C110_ndt5 hd validKey r d).2 ⟨browser_asks h, .inl ⟨rfl, ?_⟩⟩, fun h => (C110_ndt7 validKey r _).2 ⟨browser_asks h, ?_, rfl⟩⟩
  · rw [HttpReq.get, h.protocol]
    exact ⟨[], [], [], [], by simp, by simp [Spaces], by simp [Spaces], .inl rfl, .inl rfl⟩
  · rw [HttpReq.get, h.protocol]; rfl

/-- A request of a browser. -/
def exHandshake (protocol : Bytes) : HttpReq where
  method := str "GET"
  header := fun n =>
    if n = str "Connection" then [str "keep-alive, Upgrade"]
    else if n = str "Upgrade" then [str "websocket"]
    else if n = str "Sec-Websocket-Version" then [str "13"]
    else if n = str "Sec-Websocket-Key" then [str "dGhlIHNhbXBsZSBub25jZQ=="]
    else if n = str "Origin" then [str "https://example.org"]
    else if n = str "Sec-Websocket-Protocol" then [protocol]
    else []

example (p : Bytes) : FromBrowser (fun k => k.length == 24) p (exHandshake p) := ⟨rfl, .inr rfl, rfl, rfl, rfl, rfl⟩

/-- A client of ndt5 that offers two subprotocols, and clients that offer none or another one. -/
example : Offered (str "ndt") (str "chat ,\tndt") ∧ ¬ Offered (str "ndt") [] := by
  refine ⟨⟨str "chat ,", [9], [], [], by decide +kernel, by simp [Spaces], by simp [Spaces], .inr ⟨str "chat ", by decide +kernel⟩, .inl rfl⟩, ?_⟩
  rintro ⟨before, a, c, after, h, -⟩
  have := congrArg List.length h
  simp [str] at this

end Verif.Props
