/-!
# Bytes

Go strings and byte slices are modelled as lists of bytes.
-/

namespace Verif.Go

/-- Go's `[]byte` and `string` (a Go string is an arbitrary byte sequence). -/
abbrev Bytes := List UInt8

/-- The text of a Go `error` value (`err.Error()`); a nil error is `none` in `Option Err`. -/
abbrev Err := Bytes

/-- ASCII string literals of the Go source as bytes (`[]byte("...")`). Only used on ASCII text. -/
def str (x : String) : Bytes := x.toList.map (fun c => UInt8.ofNat c.toNat)

/-- `strings.HasPrefix`. -/
def hasPrefix (s p : Bytes) : Bool := p.isPrefixOf s

/-- `strings.HasSuffix`. -/
def hasSuffix (s p : Bytes) : Bool := p.isSuffixOf s

/-- `strings.Join(parts, sep)`. -/
def join (sep : Bytes) : List Bytes → Bytes
  | [] => []
  | [x] => x
  | x :: y :: rest => x ++ sep ++ join sep (y :: rest)

/-- `strings.SplitN(s, sep, 2)` for a one-byte separator: `none` when the separator does
not occur (Go returns a slice of length 1), otherwise the text before and after its first
occurrence (a slice of length 2). -/
def cut (sep : UInt8) : Bytes → Option (Bytes × Bytes)
  | [] => none
  | c :: cs =>
    if c = sep then some ([], cs)
    else match cut sep cs with
      | none => none
      | some (a, b) => some (c :: a, b)

/-- The first word of `strings.SplitN(s, sep, 2)`, which always has at least one element. -/
def firstWord (sep : UInt8) (s : Bytes) : Bytes :=
  match cut sep s with
  | none => s
  | some (a, _) => a

theorem cut_eq_some {sep : UInt8} {s a b : Bytes} :
    cut sep s = some (a, b) ↔ s = a ++ sep :: b ∧ sep ∉ a := by
  induction s generalizing a with
  | nil => simp [cut]
  | cons c cs ih =>
    unfold cut
    split
    · rename_i h; subst h
      constructor
      · intro h; simp at h; obtain ⟨rfl, rfl⟩ := h; simp
      · rintro ⟨h, hn⟩
        cases a with
        | nil => simp at h; simp [h]
        | cons x xs => simp at h; simp [h.1] at hn
    · rename_i hne
      cases hc : cut sep cs with
      | none =>
        simp only [reduceCtorEq, false_iff]
        rintro ⟨h, hn⟩
        cases a with
        | nil => simp at h; exact hne h.1
        | cons x xs =>
          simp at h hn
          have := (ih (a := xs)).2 ⟨h.2, hn.2⟩
          rw [hc] at this; cases this
      | some p =>
        obtain ⟨a', b'⟩ := p
        simp only [Option.some.injEq, Prod.mk.injEq]
        constructor
        · rintro ⟨rfl, rfl⟩
          have := (ih (a := a')).1 hc
          refine ⟨by rw [this.1]; simp, ?_⟩
          simp only [List.mem_cons, not_or]
          exact ⟨fun h => hne h.symm, this.2⟩
        · rintro ⟨h, hn⟩
          cases a with
          | nil => simp at h; exact absurd h.1 hne
          | cons x xs =>
            simp at h hn
            have := (ih (a := xs)).2 ⟨h.2, hn.2⟩
            rw [hc] at this
            simp at this
            simp [h.1, this]

theorem cut_eq_none {sep : UInt8} {s : Bytes} : cut sep s = none ↔ sep ∉ s := by
  induction s with
  | nil => simp [cut]
  | cons c cs ih =>
    unfold cut
    split
    · rename_i h; simp [h]
    · rename_i h
      cases hc : cut sep cs with
      | none =>
        have := ih.1 hc
        simp only [true_iff, List.mem_cons, not_or]
        exact ⟨fun he => h he.symm, this⟩
      | some p =>
        have hne : ¬ (sep ∉ cs) := fun hh => by rw [ih.2 hh] at hc; cases hc
        simp only [reduceCtorEq, false_iff, List.mem_cons, not_or, not_and]
        exact fun _ => hne

theorem firstWord_append {sep : UInt8} {w rest : Bytes} (h : sep ∉ w) :
    firstWord sep (w ++ sep :: rest) = w := by
  unfold firstWord
  rw [cut_eq_some.2 ⟨rfl, h⟩]

end Verif.Go
