import Verif.Web.ReadLemmas
import Verif.Spec.Browser
import Verif.Ndt5.ProtocolLemmas

/-! # The stages of the page -/

namespace Verif.Web
open Verif.Go Verif.Spec

/-! ## Splitting -/

theorem splitF_ne_nil (sep : Bytes) (f : Nat) (s : Bytes) : ∃ a l, splitF sep f s = a :: l := by
  cases f with
  | zero => exact ⟨_, _, rfl⟩
  | succ f =>
    simp only [splitF]
    split
    · exact ⟨_, _, rfl⟩
    · exact ⟨_, _, rfl⟩

theorem splitF_cut {sep s a t : Bytes} {f : Nat} (h : cutAt sep s = some (a, t)) : splitF sep (f + 1) s = a :: splitF sep f t := by
  simp only [splitF, h]

theorem cutAt_absent {x : UInt8} {sep : Bytes} {s : Bytes} (h : x ∉ s) : cutAt (x :: sep) s = none := by
  induction s with
  | nil => rfl
  | cons c s ih =>
    simp only [List.mem_cons, not_or] at h
    simp [cutAt, ih h.2, List.isPrefixOf, h.1]

theorem split_absent {x : UInt8} {sep : Bytes} {s : Bytes} (h : x ∉ s) : split (x :: sep) s = [s] := by
  unfold split
  cases s.length with
  | zero => rfl
  | succ n => simp [splitF, cutAt_absent h]

theorem splitF_absent {x : UInt8} {sep : Bytes} {f : Nat} {s : Bytes} (h : x ∉ s) : splitF (x :: sep) f s = [s] := by
  cases f with
  | zero => rfl
  | succ n => simp [splitF, cutAt_absent h]

/-- The first cut. -/
theorem cutAt_first {a t : Bytes} (h : (58 : UInt8) ∉ a) : cutAt (str ": ") (a ++ 58 :: 32 :: t) = some (a, t) := by
  have hs : str ": " = [58, 32] := by decide
  rw [hs]
  induction a with
  | nil => simp [cutAt, List.isPrefixOf]
  | cons c a ih =>
    simp only [List.mem_cons, not_or] at h
    have : (58 == c) = false := by simpa using h.1
    simp [cutAt, List.isPrefixOf, this, ih h.2]

theorem cutAt_some (a t : Bytes) : ∃ p, cutAt (str ": ") (a ++ 58 :: 32 :: t) = some p := by
  have hs : str ": " = [58, 32] := by decide
  rw [hs]
  induction a with
  | nil => exact ⟨_, by simp [cutAt, List.isPrefixOf]; rfl⟩
  | cons c a ih =>
    obtain ⟨p, hp⟩ := ih
    simp only [List.cons_append, cutAt]
    split
    · exact ⟨_, rfl⟩
    · rw [hp]; exact ⟨_, rfl⟩

/-- The first cut is not inside a beginning without a colon. -/
theorem cutAt_prefix {a s : Bytes} (h : (58 : UInt8) ∉ a) {k v : Bytes} (hc : cutAt (str ": ") (a ++ s) = some (k, v)) : a <+: k := by
  have hs : str ": " = [58, 32] := by decide
  rw [hs] at hc
  induction a generalizing k with
  | nil => simp
  | cons c a ih =>
    simp only [List.mem_cons, not_or] at h
    have : (58 == c) = false := by simpa using h.1
    simp only [List.cons_append, cutAt, List.isPrefixOf, this, Bool.false_and, Bool.false_eq_true, if_false] at hc
    cases hr : cutAt [58, 32] (a ++ s) with
    | none => rw [hr] at hc; cases hc
    | some p =>
      rw [hr] at hc
      simp only [Option.map_some, Option.some.injEq, Prod.mk.injEq] at hc
      obtain ⟨rfl, rfl⟩ := hc
      obtain ⟨t, ht⟩ := ih h.2 (k := p.1) (by rw [hr])
      exact ⟨t, by rw [← ht]; rfl⟩

/-- The entry that a line `name: value` makes. -/
def entryOf (line : Bytes) : Bytes × Val :=
  match split (str ": ") (seen line) with
  | k :: v :: _ => (k, .text (trim v))
  | _ => ([], .undef)

/-- A line of the form `name: value`. -/
def IsLine (line : Bytes) : Prop := ∃ a t, line = a ++ 58 :: 32 :: t

theorem seen_line (a t : Bytes) : seen (a ++ 58 :: 32 :: t) = seen a ++ 58 :: 32 :: seen t := by
  rw [seen_split (by decide), seen_cons (by decide)]

theorem split_line {line : Bytes} (h : IsLine line) : ∃ k v rest, split (str ": ") (seen line) = k :: v :: rest ∧ ∃ v', cutAt (str ": ") (seen line) = some (k, v') := by
  obtain ⟨a, t, rfl⟩ := h
  rw [seen_line]
  obtain ⟨⟨k, v'⟩, hp⟩ := cutAt_some (seen a) (seen t)
  have hl : (seen a ++ 58 :: 32 :: seen t).length = ((seen a).length + (seen t).length + 1) + 1 := by simp; omega
  obtain ⟨v, rest, hr⟩ := splitF_ne_nil (str ": ") ((seen a).length + (seen t).length + 1) v'
  exact ⟨k, v, rest, by unfold split; rw [hl, splitF_cut hp, hr], v', hp⟩

/-- The name of the entry begins like the line. -/
theorem entryOf_prefix {p s : Bytes} (hl : IsLine (p ++ s)) (ha : ∀ b ∈ p, b < 0x80) (h : (58 : UInt8) ∉ p) : p <+: (entryOf (p ++ s)).1 := by
  obtain ⟨k, v, rest, h1, v', h2⟩ := split_line hl
  have he : entryOf (p ++ s) = (k, .text (trim v)) := by unfold entryOf; rw [h1]
  rw [he]
  rw [seen_ascii_append ha] at h2
  exact cutAt_prefix h h2

theorem trim_line {t : Bytes} (h : ∀ b ∈ t, isSpace b = false) (hne : t ≠ []) : trim (t ++ [10]) = t := by
  unfold trim
  have h1 : (t ++ [10]).dropWhile isSpace = t ++ [10] := by
    cases t with
    | nil => exact absurd rfl hne
    | cons b t => simp [List.dropWhile, h b (by simp)]
  rw [h1, List.reverse_append]
  have h2 : t.reverse.dropWhile isSpace = t.reverse := by
    cases hr : t.reverse with
    | nil => rfl
    | cons b l =>
      have : b ∈ t := by rw [← List.mem_reverse, hr]; simp
      simp [List.dropWhile, h b this]
  have h10 : isSpace 10 = true := by decide
  simp only [List.reverse_cons, List.reverse_nil, List.nil_append, List.singleton_append, List.dropWhile, h10]
  rw [h2, List.reverse_reverse]

/-- A line with a plain name and a decimal number. -/
theorem entryOf_number {name : Bytes} (ha : ∀ b ∈ name, b < 0x80) (h : (58 : UInt8) ∉ name) (n : Int) :
    entryOf (name ++ str ": " ++ itoa n ++ [10]) = (name, .text (itoa n)) := by
  have hchars := @itoa_chars n
  have hasc : ∀ b ∈ itoa n ++ [10], b < 0x80 := by
    intro b hb
    simp only [List.mem_append, List.mem_singleton] at hb
    rcases hb with hb | rfl
    · rcases hchars b hb with ⟨h1, h2⟩ | rfl
      · exact Nat.lt_of_le_of_lt h2 (by decide)
      · decide
    · decide
  have hno : (58 : UInt8) ∉ itoa n ++ [10] := by
    intro hb
    simp only [List.mem_append, List.mem_singleton] at hb
    rcases hb with hb | hb
    · rcases hchars _ hb with ⟨h1, h2⟩ | hb
      · exact absurd h2 (by decide)
      · exact absurd hb (by decide)
    · exact absurd hb (by decide)
  have e : name ++ str ": " ++ itoa n ++ [10] = name ++ 58 :: 32 :: (itoa n ++ [10]) := by
    have hs : str ": " = [58, 32] := by decide
    rw [hs]; simp
  rw [e]
  unfold entryOf
  rw [seen_line, seen_ascii ha, seen_ascii hasc]
  have hl : (name ++ 58 :: 32 :: (itoa n ++ [10])).length = (name.length + (itoa n ++ [10]).length + 1) + 1 := by simp; omega
  unfold split
  rw [hl]
  have hs : str ": " = [58, 32] := by decide
  have hc := cutAt_first (t := itoa n ++ [10]) h
  rw [splitF_cut hc, hs, splitF_absent hno]
  simp only [Prod.mk.injEq, Val.text.injEq, true_and]
  refine trim_line (fun b hb => ?_) ?_
  · rcases hchars b hb with ⟨h1, h2⟩ | rfl
    · simp only [isSpace, Bool.or_eq_false_iff, decide_eq_false_iff_not, Bool.and_eq_false_iff]
      refine ⟨?_, .inr ?_⟩
      · rintro rfl; exact absurd h1 (by decide)
      · exact fun h' => absurd (Nat.le_trans h1 h') (by decide)
    · decide
  · intro h0
    have := signedVal_itoa n
    rw [h0] at this
    cases this

end Verif.Web
