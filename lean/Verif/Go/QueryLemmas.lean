import Mathlib.Data.List.Induction
import Verif.Go.Query
import Verif.Go.JsonGrammar
import Verif.Spec.Query

/-!
# Lemmas about query strings
-/

namespace Verif.Go
open Verif.Spec

theorem queryUnescape_iff {s t : Bytes} : queryUnescape s = some t ↔ UrlEncoded s t := by
  constructor
  · intro h
    induction s using queryUnescape.induct generalizing t with
    | case1 => simp [queryUnescape] at h; subst h; exact .nil
    | case2 d e s x y he hd ih =>
      simp only [queryUnescape, hd, he, Option.map_eq_some_iff] at h
      obtain ⟨u, hu, rfl⟩ := h
      exact .byte (hexVal_iff.1 hd) (hexVal_iff.1 he) (ih hu)
    | case3 d e s hn =>
      rw [queryUnescape] at h
      split at h
      · rename_i hx hy; exact absurd hy (hn _ _ hx)
      · cases h
    | case4 s hn =>
      rw [queryUnescape] at h
      · simp at h
      · intro d e s' h1 h2; exact hn _ _ _ rfl h2
    | case5 c s hn hc ih =>
      rw [queryUnescape] at h
      · simp only [if_neg hc, Option.map_eq_some_iff] at h
        obtain ⟨u, hu, rfl⟩ := h
        by_cases h43 : c = 43
        · subst h43; exact .space (ih hu)
        · rw [if_neg h43]; exact .plain hc h43 (ih hu)
      · intro d e s' h1 h2; exact hc h1
  · intro h
    induction h with
    | nil => rfl
    | @space s t h ih =>
      rw [queryUnescape]
      · simp [ih]
      · intro d e s' h1; cases h1
    | byte ha hb h ih => simp [queryUnescape, hexVal_iff.2 ha, hexVal_iff.2 hb, ih]
    | @plain s t c hc h43 h ih =>
      rw [queryUnescape]
      · simp [ih, hc, h43]
      · intro d e s' h1; exact absurd h1 hc

theorem cut_getD {s : Bytes} {a b : Bytes} : (cut 61 s).getD (s, []) = (a, b) ↔ 61 ∉ a ∧ (s = a ++ 61 :: b ∨ (s = a ∧ b = [])) := by
  cases h : cut 61 s with
  | none =>
    rw [cut_eq_none] at h
    simp only [Option.getD_none, Prod.mk.injEq]
    constructor
    · rintro ⟨rfl, rfl⟩; exact ⟨h, .inr ⟨rfl, rfl⟩⟩
    · rintro ⟨h1, rfl | ⟨rfl, rfl⟩⟩
      · simp at h
      · simp
  | some p =>
    obtain ⟨x, y⟩ := p
    simp only [Option.getD_some, Prod.mk.injEq]
    constructor
    · rintro ⟨rfl, rfl⟩
      rw [cut_eq_some] at h
      exact ⟨h.2, .inl h.1⟩
    · rintro ⟨h1, h2 | ⟨rfl, rfl⟩⟩
      · rw [cut_eq_some.2 ⟨h2, h1⟩] at h
        simpa using h.symm
      · rw [cut_eq_none.2 h1] at h; cases h

theorem queryPair_some {p k v : Bytes} : queryPair p = some (some (k, v)) ↔ IsParameter p k v := by
  unfold queryPair IsParameter
  split
  · rename_i h; simp at h; simp [h]
  rename_i h; simp at h
  split
  · rename_i h2; simp at h2; simp [h2]
  rename_i h2; simp at h2
  obtain ⟨a, b, hab⟩ : ∃ a b, (cut 61 p).getD (p, []) = (a, b) := ⟨_, _, rfl⟩
  simp only [hab]
  simp only [h, h2, not_false_eq_true, true_and, ne_eq]
  constructor
  · intro hk
    split at hk
    · cases hk
    rename_i h3
    split at hk
    · cases hk
    rename_i h4
    simp at hk
    obtain ⟨rfl, rfl⟩ := hk
    exact ⟨a, b, queryUnescape_iff.1 h3, queryUnescape_iff.1 h4, cut_getD.1 hab⟩
  · rintro ⟨a', b', h3, h4, h5⟩
    have := cut_getD.2 h5
    rw [hab] at this
    cases this
    simp [queryUnescape_iff.2 h3, queryUnescape_iff.2 h4]

theorem queryPair_skip {p : Bytes} : queryPair p = some none ↔ p = [] := by
  constructor
  · intro h
    unfold queryPair at h
    split at h
    · cases h
    split at h
    · rename_i h2; simpa using h2
    · simp only at h
      split at h
      · cases h
      · split at h <;> simp at h
  · rintro rfl; rfl

theorem queryPair_none {p : Bytes} : queryPair p = none ↔ ¬ PieceOk p := by
  cases h : queryPair p with
  | none =>
    simp only [PieceOk, true_iff, not_or, not_exists]
    constructor
    · rintro rfl; cases h
    · intro k v hk; rw [queryPair_some.2 hk] at h; cases h
  | some o =>
    cases o with
    | none => simp [PieceOk, queryPair_skip.1 h]
    | some kv => simp [PieceOk]; exact fun _ => ⟨_, _, queryPair_some.1 h⟩

theorem pieces_cases {s : Bytes} {ps : List Bytes} (h : Pieces s ps) :
    (cut 38 s = none ∧ ps = [s]) ∨ ∃ p rest qs, cut 38 s = some (p, rest) ∧ ps = p :: qs ∧ Pieces rest qs := by
  cases h with
  | last h => exact .inl ⟨cut_eq_none.2 h, rfl⟩
  | more h h' => exact .inr ⟨_, _, _, cut_eq_some.2 ⟨rfl, h⟩, rfl, h'⟩

theorem pieces_unique {s : Bytes} {ps qs : List Bytes} (h : Pieces s ps) (h' : Pieces s qs) : ps = qs := by
  induction ps generalizing s qs with
  | nil => rcases pieces_cases h with ⟨_, h1⟩ | ⟨_, _, _, _, h1, _⟩ <;> cases h1
  | cons p ps ih =>
    rcases pieces_cases h with ⟨h1, h2⟩ | ⟨a, b, c, h1, h2, h3⟩ <;> rcases pieces_cases h' with ⟨h1', h2'⟩ | ⟨a', b', c', h1', h2', h3'⟩
    · rw [h2, h2']
    · simp [h1] at h1'
    · simp [h1] at h1'
    · rw [h1] at h1'; cases h1'; cases h2; rw [h2', ih h3 h3']

theorem pieces_exist (s : Bytes) : ∃ ps, Pieces s ps := by
  induction hn : s.length using Nat.strongRecOn generalizing s with
  | ind n ih =>
    cases h : cut 38 s with
    | none => exact ⟨_, .last (cut_eq_none.1 h)⟩
    | some p =>
      obtain ⟨a, b⟩ := p
      obtain ⟨ps, hps⟩ := ih b.length (hn ▸ cut_length h) b rfl
      obtain ⟨rfl, h2⟩ := cut_eq_some.1 h
      exact ⟨_, .more h2 hps⟩

/-- Adding pairs one after the other. -/
def Values.addAll (m : Values) (kvs : List (Bytes × Bytes)) : Values := kvs.foldl (fun m kv => m.add kv.1 kv.2) m

/-- The pairs of pieces. -/
def pairsOf (ps : List Bytes) : List (Bytes × Bytes) := ps.filterMap fun p => (queryPair p).join

theorem parseQueryInto_eq {s : Bytes} {ps : List Bytes} (h : Pieces s ps) (m : Values) (b : Bool) :
    parseQueryInto m b s = (m.addAll (pairsOf ps), b || ps.any fun p => (queryPair p).isNone) := by
  induction ps generalizing s m b with
  | nil => rcases pieces_cases h with ⟨_, h1⟩ | ⟨_, _, _, _, h1, _⟩ <;> cases h1
  | cons p ps ih =>
    rw [parseQueryInto]
    split
    · rename_i hs
      subst hs
      rcases pieces_cases h with ⟨h1, h2⟩ | ⟨a, b, c, h1, h2, h3⟩
      · cases h2; simp [pairsOf, queryPair, Values.addAll]
      · simp [cut] at h1
    · rcases pieces_cases h with ⟨h1, h2⟩ | ⟨x, y, c, h1, h2, h3⟩
      · cases h2
        split
        · split <;> rename_i hq <;> simp [pairsOf, hq, Values.addAll]
        · rename_i h5; rw [h1] at h5; cases h5
      · cases h2
        split
        · rename_i h5; rw [h1] at h5; cases h5
        · rename_i h5
          rw [h1] at h5; cases h5
          split <;> rename_i hq <;> rw [ih h3] <;> simp [pairsOf, hq, Values.addAll]

/-! ## What the map holds -/

theorem Values.mem_add {k v : Bytes} {m : Values} (hn : (m.map Prod.fst).Nodup) {n : Bytes} {vs : List Bytes} :
    (n, vs) ∈ m.add k v ↔ (n ≠ k ∧ (n, vs) ∈ m) ∨ (n = k ∧ ((∃ ws, (k, ws) ∈ m ∧ vs = ws ++ [v]) ∨ ((∀ ws, (k, ws) ∉ m) ∧ vs = [v]))) := by
  induction m with
  | nil => simp [Values.add]
  | cons e m ih =>
    obtain ⟨k', ws⟩ := e
    simp only [List.map_cons, List.nodup_cons, List.mem_map, Prod.exists, exists_and_right, exists_eq_right, not_exists] at hn
    unfold Values.add
    split
    · rename_i h; subst h
      simp only [List.mem_cons, Prod.mk.injEq]
      have := hn.1
      grind
    · rename_i h
      have := ih hn.2
      simp only [List.mem_cons, Prod.mk.injEq, this]
      grind

theorem Values.add_names {k v : Bytes} {m : Values} : ∀ n, n ∈ (m.add k v).map Prod.fst ↔ n = k ∨ n ∈ m.map Prod.fst := by
  intro n
  induction m with
  | nil => simp [Values.add]
  | cons e m ih =>
    unfold Values.add
    split
    · rename_i h; subst h; simp
    · simp only [List.map_cons, List.mem_cons, ih]; grind

theorem Values.add_nodup {k v : Bytes} {m : Values} (hn : (m.map Prod.fst).Nodup) : ((m.add k v).map Prod.fst).Nodup := by
  induction m with
  | nil => simp [Values.add]
  | cons e m ih =>
    simp only [List.map_cons, List.nodup_cons] at hn
    unfold Values.add
    split
    · simpa using hn
    · rename_i h
      simp only [List.map_cons, List.nodup_cons]
      refine ⟨?_, ih hn.2⟩
      rw [Values.add_names]
      grind

/-- The values given to a name. -/
def valuesFor (n : Bytes) (kvs : List (Bytes × Bytes)) : List Bytes := (kvs.filter fun kv => kv.1 = n).map Prod.snd

theorem Values.addAll_nodup {m : Values} (hn : (m.map Prod.fst).Nodup) (kvs : List (Bytes × Bytes)) : ((m.addAll kvs).map Prod.fst).Nodup := by
  induction kvs generalizing m with
  | nil => exact hn
  | cons kv kvs ih => exact ih (Values.add_nodup hn)

theorem Values.mem_addAll_nil (kvs : List (Bytes × Bytes)) {n : Bytes} {vs : List Bytes} :
    (n, vs) ∈ Values.addAll [] kvs ↔ vs = valuesFor n kvs ∧ vs ≠ [] := by
  induction kvs using List.reverseRecOn generalizing vs with
  | nil => simp [Values.addAll, valuesFor]
  | append_singleton kvs kv ih =>
    obtain ⟨k, v⟩ := kv
    have hs : Values.addAll [] (kvs ++ [(k, v)]) = (Values.addAll [] kvs).add k v := by simp [Values.addAll]
    have hv : valuesFor n (kvs ++ [(k, v)]) = valuesFor n kvs ++ if k = n then [v] else [] := by
      unfold valuesFor
      rw [List.filter_append, List.map_append]
      congr 1
      by_cases h : k = n <;> simp [h]
    rw [hs, Values.mem_add (Values.addAll_nodup (by simp) kvs), hv]
    by_cases h : n = k
    · subst h
      simp only [ne_eq, not_true_eq_false, false_and, true_and, false_or, if_true, ih]
      by_cases hw : valuesFor n kvs = []
      · simp [hw]
        grind
      · constructor
        · rintro (⟨ws, ⟨rfl, -⟩, rfl⟩ | ⟨h, -⟩)
          · simp
          · exact absurd ⟨rfl, hw⟩ (h _)
        · rintro ⟨rfl, -⟩; exact .inl ⟨_, ⟨rfl, hw⟩, rfl⟩
    · have : ¬ k = n := fun e => h e.symm
      simp only [ne_eq, h, not_false_eq_true, true_and, false_and, or_false, if_neg this, List.append_nil, ih]

theorem valuesFor_eq_cons {n v : Bytes} {kvs : List (Bytes × Bytes)} :
    (∃ rest, valuesFor n kvs = v :: rest) ↔ ∃ before after, kvs = before ++ (n, v) :: after ∧ ∀ kv ∈ before, kv.1 ≠ n := by
  induction kvs with
  | nil => simp [valuesFor]
  | cons kv kvs ih =>
    obtain ⟨k, w⟩ := kv
    by_cases h : k = n
    · subst h
      have : valuesFor k ((k, w) :: kvs) = w :: valuesFor k kvs := by simp [valuesFor]
      rw [this]
      constructor
      · rintro ⟨rest, he⟩
        cases he
        exact ⟨[], kvs, rfl, by simp⟩
      · rintro ⟨before, after, he, hb⟩
        cases before with
        | nil => simp at he; simp [he.1]
        | cons x before => simp at he; exact absurd (he.1 ▸ rfl) (hb x (by simp))
    · have : valuesFor n ((k, w) :: kvs) = valuesFor n kvs := by simp [valuesFor, h]
      rw [this, ih]
      constructor
      · rintro ⟨before, after, rfl, hb⟩
        exact ⟨(k, w) :: before, after, rfl, by simpa [h] using hb⟩
      · rintro ⟨before, after, he, hb⟩
        cases before with
        | nil => simp at he; exact absurd he.1.1 h
        | cons x before => simp at he; exact ⟨before, after, he.2, fun kv hkv => hb kv (by simp [hkv])⟩

theorem pairsOf_append (ps qs : List Bytes) : pairsOf (ps ++ qs) = pairsOf ps ++ pairsOf qs := by simp [pairsOf]

theorem mem_pairsOf {ps : List Bytes} {n v : Bytes} : (n, v) ∈ pairsOf ps ↔ ∃ p ∈ ps, IsParameter p n v := by
  simp only [pairsOf, List.mem_filterMap, Option.join_eq_some_iff, queryPair_some]

theorem pairsOf_split {ps : List Bytes} {n v : Bytes} :
    (∃ before after, pairsOf ps = before ++ (n, v) :: after ∧ ∀ kv ∈ before, kv.1 ≠ n) ↔
      ∃ before piece after, ps = before ++ piece :: after ∧ IsParameter piece n v ∧ ∀ p ∈ before, ∀ w, ¬ IsParameter p n w := by
  constructor
  · induction ps with
    | nil => rintro ⟨b, a, h, _⟩; simp [pairsOf] at h
    | cons p ps ih =>
      rintro ⟨b, a, h, hb⟩
      by_cases hp : ∃ w, IsParameter p n w
      · obtain ⟨w, hw⟩ := hp
        have : pairsOf (p :: ps) = (n, w) :: pairsOf ps := by simp [pairsOf, queryPair_some.2 hw]
        rw [this] at h
        cases b with
        | nil => simp at h; obtain ⟨rfl, _⟩ := h; exact ⟨[], p, ps, rfl, hw, by simp⟩
        | cons x b => simp at h; exact absurd (h.1 ▸ rfl) (hb x (by simp))
      · have hpn : ∀ w, ¬ IsParameter p n w := fun w hw => hp ⟨w, hw⟩
        have key : ∃ b' a', pairsOf ps = b' ++ (n, v) :: a' ∧ ∀ kv ∈ b', kv.1 ≠ n := by
          cases hq : (queryPair p).join with
          | none =>
            have : pairsOf (p :: ps) = pairsOf ps := by simp [pairsOf, hq]
            exact ⟨b, a, this ▸ h, hb⟩
          | some kv =>
            obtain ⟨k, w⟩ := kv
            have hk := queryPair_some.1 (Option.join_eq_some_iff.1 hq)
            have : pairsOf (p :: ps) = (k, w) :: pairsOf ps := by simp [pairsOf, hq]
            rw [this] at h
            cases b with
            | nil => simp at h; exact absurd (h.1.1 ▸ hk) (hpn w)
            | cons x b => simp at h; exact ⟨b, a, h.2, fun kv hkv => hb kv (by simp [hkv])⟩
        obtain ⟨before, piece, after, rfl, h1, h2⟩ := ih key
        refine ⟨p :: before, piece, after, rfl, h1, ?_⟩
        intro q hq w
        simp at hq
        rcases hq with rfl | hq
        · exact hpn w
        · exact h2 q hq w
  · rintro ⟨b, p, a, rfl, h1, h2⟩
    refine ⟨pairsOf b, pairsOf a, ?_, ?_⟩
    · rw [pairsOf_append]
      simp [pairsOf, queryPair_some.2 h1]
    · rintro ⟨k, w⟩ hkv rfl
      obtain ⟨q, hq, hk⟩ := mem_pairsOf.1 hkv
      exact h2 q hq w hk

theorem urlQuery_eq {raw : Bytes} {ps : List Bytes} (h : Pieces raw ps) : urlQuery raw = Values.addAll [] (pairsOf ps) := by
  simp [urlQuery, parseQuery, parseQueryInto_eq h]

theorem mem_urlQuery_cons {raw n v : Bytes} : (∃ rest, (n, v :: rest) ∈ urlQuery raw) ↔ Gives raw n v := by
  obtain ⟨ps, hps⟩ := pieces_exist raw
  have hg : Gives raw n v ↔ ∃ before piece after, ps = before ++ piece :: after ∧ IsParameter piece n v ∧ ∀ p ∈ before, ∀ w, ¬ IsParameter p n w := by
    constructor
    · rintro ⟨b, p, a, h1, h2⟩; exact ⟨b, p, a, pieces_unique hps h1, h2⟩
    · rintro ⟨b, p, a, h1, h2⟩; exact ⟨b, p, a, h1 ▸ hps, h2⟩
  rw [hg, ← pairsOf_split, ← valuesFor_eq_cons, urlQuery_eq hps]
  constructor
  · rintro ⟨rest, h⟩; exact ⟨rest, ((Values.mem_addAll_nil _).1 h).1.symm⟩
  · rintro ⟨rest, h⟩; exact ⟨rest, (Values.mem_addAll_nil _).2 ⟨h.symm, by simp⟩⟩

theorem urlQuery_nodup (raw : Bytes) : ((urlQuery raw).map Prod.fst).Nodup := by
  obtain ⟨ps, hps⟩ := pieces_exist raw
  rw [urlQuery_eq hps]
  exact Values.addAll_nodup (by simp) _

theorem urlQuery_nonempty {raw : Bytes} : ∀ e ∈ urlQuery raw, e.2 ≠ [] := by
  obtain ⟨ps, hps⟩ := pieces_exist raw
  rw [urlQuery_eq hps]
  intro e he
  exact ((Values.mem_addAll_nil _).1 he).2

/-- `ParseQuery` reports an error for exactly the query strings that are not well-formed. -/
theorem parseQuery_error {raw : Bytes} : (parseQuery raw).2 = false ↔ WellFormedQuery raw := by
  obtain ⟨ps, hps⟩ := pieces_exist raw
  simp only [parseQuery, parseQueryInto_eq hps, Bool.false_or, List.any_eq_false, Option.isNone_iff_eq_none, queryPair_none, not_not]
  constructor
  · intro h; exact ⟨ps, hps, h⟩
  · rintro ⟨qs, h1, h2⟩; rw [pieces_unique hps h1]; exact h2

end Verif.Go
