import Verif.Go.Path
import Verif.Spec.Path
import Verif.Go.Rfc3339
import Mathlib.Data.List.Induction
import Mathlib.Data.List.TakeWhile

/-! # `path.Clean` and `path.Join` name the same places -/

namespace Verif.Go
open Verif.Spec

/-- Walking along a path. -/
def walk (loc : List Bytes) (p : Bytes) : List Bytes := (components p).foldl enter loc

theorem components_ne (p : Bytes) : components p ≠ [] := by
  cases p with
  | nil => simp [components]
  | cons b p =>
    unfold components
    split
    · simp
    · split <;> simp

theorem components_slash (a b : Bytes) : components (a ++ 47 :: b) = components a ++ components b := by
  induction a with
  | nil => simp [components]
  | cons c a ih =>
    rw [List.cons_append, components, ih, components]
    split
    · simp
    · rcases h : components a with _ | ⟨x, xs⟩
      · exact absurd h (components_ne a)
      · simp

theorem components_plain {c : Bytes} (h : 47 ∉ c) : components c = [c] := by
  induction c with
  | nil => rfl
  | cons b c ih =>
    simp only [List.mem_cons, not_or] at h
    rw [components, if_neg (fun hb => h.1 hb.symm), ih h.2]

theorem walk_slash (loc : List Bytes) (a b : Bytes) : walk loc (a ++ 47 :: b) = walk (walk loc a) b := by
  rw [walk, components_slash, List.foldl_append]; rfl

theorem walk_plain (loc : List Bytes) {c : Bytes} (h : 47 ∉ c) : walk loc c = enter loc c := by
  rw [walk, components_plain h]; rfl

@[simp] theorem walk_nil (loc : List Bytes) : walk loc [] = loc := by simp [walk, components, enter]

@[simp] theorem walk_cons_slash (loc : List Bytes) (p : Bytes) : walk loc (47 :: p) = walk loc p := by
  have := walk_slash loc [] p
  simpa using this

/-- A name of a directory or file. -/
structure Proper (c : Bytes) : Prop where
  ne : c ≠ []
  slash : 47 ∉ c
  dot : c ≠ str "."
  dots : c ≠ str ".."

theorem enter_proper (loc : List Bytes) {c : Bytes} (h : Proper c) : enter loc c = loc ++ [c] := by
  simp [enter, h.ne, h.dot, h.dots]

/-- An element is added to what `path.Clean` has written. -/
def addElem (rooted : Bool) (out e : Bytes) : Bytes :=
  (if (rooted ∧ out.length ≠ 1) ∨ (!rooted ∧ out.length ≠ 0) then out ++ [47] else out) ++ e

/-- What `path.Clean` has written after going up `k` times and down along the names. -/
def render (rooted : Bool) (k : Nat) (names : List Bytes) : Bytes :=
  names.foldl (addElem rooted) ((List.replicate k (str "..")).foldl (addElem rooted) (if rooted then [47] else []))

theorem render_snoc (rooted : Bool) (k : Nat) (names : List Bytes) (n : Bytes) : render rooted k (names ++ [n]) = addElem rooted (render rooted k names) n := by
  simp [render]

theorem render_up (rooted : Bool) (k : Nat) : render rooted (k + 1) [] = addElem rooted (render rooted k []) (str "..") := by
  simp [render, List.replicate_succ']

theorem addElem_length (rooted : Bool) (out e : Bytes) : (addElem rooted out e).length ≥ out.length + e.length := by
  unfold addElem
  split <;> simp <;> omega

theorem render_length (rooted : Bool) (k : Nat) (names : List Bytes) (h : ∀ n ∈ names, n ≠ []) :
    (render rooted k names).length ≥ (render rooted k []).length + names.length := by
  induction names using List.reverseRecOn with
  | nil => simp
  | append_singleton ns n ih =>
    rw [render_snoc]
    have h1 := addElem_length rooted (render rooted k ns) n
    have h2 := ih fun m hm => h m (by simp [hm])
    have h3 : n.length ≥ 1 := List.length_pos_iff.2 (h n (by simp))
    simp only [List.length_append, List.length_cons, List.length_nil]
    omega

theorem render_base (rooted : Bool) (k : Nat) : (render rooted k []).length ≥ if rooted then 1 else 0 := by
  induction k with
  | zero => cases rooted <;> simp [render]
  | succ k ih =>
    rw [render_up]
    have := addElem_length rooted (render rooted k []) (str "..")
    omega

theorem walk_addElem_rel (loc : List Bytes) (out : Bytes) {e : Bytes} (h : 47 ∉ e) : walk loc (addElem false out e) = enter (walk loc out) e := by
  unfold addElem
  simp only [Bool.false_eq_true, false_and, Bool.not_false, true_and, false_or]
  split
  · rw [List.append_assoc, List.singleton_append, walk_slash, walk_plain _ h]
  · rename_i h1
    simp at h1; subst h1
    simp [walk_plain _ h]

theorem walk_addElem_abs (loc : List Bytes) (out : Bytes) (ho : out.length = 1 → out = [47]) {e : Bytes} (h : 47 ∉ e) :
    walk loc (addElem true out e) = enter (walk loc out) e := by
  unfold addElem
  simp only [true_and, Bool.not_true, Bool.false_eq_true, false_and, or_false]
  split
  · rw [List.append_assoc, List.singleton_append, walk_slash, walk_plain _ h]
  · rename_i h1
    rw [ho (by omega)]
    simp [walk_plain _ h]

/-- Going up `k` times. -/
def ups : Nat → List Bytes → List Bytes
  | 0, l => l
  | k + 1, l => (ups k l).dropLast

theorem render_abs_head (names : List Bytes) : ∃ r, render true 0 names = 47 :: r := by
  induction names using List.reverseRecOn with
  | nil => exact ⟨[], rfl⟩
  | append_singleton ns n ih =>
    obtain ⟨r, h⟩ := ih
    rw [render_snoc, h, addElem]
    split <;> simp

theorem walk_render (loc : List Bytes) (rooted : Bool) (k : Nat) (names : List Bytes) (hr : rooted = true → k = 0) (h : ∀ n ∈ names, Proper n) :
    walk loc (render rooted k names) = ups k loc ++ names := by
  induction names using List.reverseRecOn with
  | nil =>
    rw [List.append_nil]
    cases rooted with
    | true => rw [hr rfl]; simp [render, ups]
    | false =>
      clear hr
      induction k with
      | zero => simp [render, ups]
      | succ k ih => rw [render_up, walk_addElem_rel _ _ (by decide), ih, ups]; simp [enter, str]
  | append_singleton ns n ih =>
    have hn := h n (by simp)
    have ih := ih fun m hm => h m (by simp [hm])
    rw [render_snoc]
    cases rooted with
    | false => rw [walk_addElem_rel _ _ hn.slash, ih, enter_proper _ hn, List.append_assoc]
    | true =>
      rw [walk_addElem_abs _ _ ?_ hn.slash, ih, enter_proper _ hn, List.append_assoc]
      intro hl
      obtain ⟨r, hr'⟩ := render_abs_head ns
      rw [hr rfl] at hl ⊢
      rw [hr'] at hl ⊢
      simp at hl
      simp [hl]

/-! ## Backtracking -/

theorem pathBack_base {dd : Nat} {n r : Bytes} (hn : n ≠ []) (hs : 47 ∉ n) (hr : r.length = dd) : pathBack dd (n ++ r) = r := by
  induction n with
  | nil => exact absurd rfl hn
  | cons b n ih =>
    simp only [List.mem_cons, not_or] at hs
    rw [List.cons_append, pathBack]
    split
    · rename_i h
      refine ih ?_ hs.2
      rintro rfl
      simp [hr] at h
    · rename_i h
      rcases n with _ | ⟨c, n⟩
      · rfl
      · exact absurd ⟨by simp; omega, fun hb => hs.1 hb.symm⟩ h

theorem pathBack_slash {dd : Nat} {n r : Bytes} (hs : 47 ∉ n) (hr : dd ≤ r.length) : pathBack dd (n ++ 47 :: r) = r := by
  induction n with
  | nil => simp [pathBack]
  | cons b n ih =>
    simp only [List.mem_cons, not_or] at hs
    rw [List.cons_append, pathBack, if_pos ⟨by simp; omega, fun hb => hs.1 hb.symm⟩]
    exact ih hs.2

theorem pathBack_render (rooted : Bool) (k : Nat) (names : List Bytes) (n : Bytes) (hr : rooted = true → k = 0) (hn : Proper n) (h : ∀ n ∈ names, n ≠ []) :
    (pathBack (render rooted k []).length (render rooted k (names ++ [n])).reverse).reverse = render rooted k names := by
  rw [render_snoc, addElem]
  have hl := render_length rooted k names h
  split
  · rw [List.reverse_append, List.reverse_append, List.reverse_singleton, List.singleton_append, pathBack_slash (by simpa using hn.slash) (by simpa using by omega)]
    simp
  · rename_i h1
    rw [List.reverse_append, pathBack_base (by simpa using hn.ne) (by simpa using hn.slash)]
    · simp
    · have hb := render_base rooted k
      cases rooted
      · simp at h1 hb hl ⊢
        simp [h1] at hl ⊢
        rw [hl.1]; rfl
      · simp at h1 hb hl ⊢
        rw [h1]
        omega

/-! ## The loop -/

theorem enter_dots_names (loc : List Bytes) (n : Bytes) : enter (loc ++ [n]) (str "..") = loc := by simp [enter, str]

theorem dropWhile_slash (r : Bytes) : r.dropWhile (· ≠ 47) = [] ∨ ∃ r', r.dropWhile (· ≠ 47) = 47 :: r' := by
  induction r with
  | nil => exact .inl rfl
  | cons b r ih =>
    rw [List.dropWhile_cons]
    split
    · exact ih
    · rename_i h; simp at h; subst h; exact .inr ⟨r, rfl⟩

/-- An element and what follows it. -/
theorem walk_elem (loc : List Bytes) {e r : Bytes} (he : 47 ∉ e) (hr : r = [] ∨ ∃ r', r = 47 :: r') : walk loc (e ++ r) = walk (enter loc e) r := by
  rcases hr with rfl | ⟨r', rfl⟩
  · rw [List.append_nil, walk_plain _ he, walk_nil]
  · rw [walk_slash, walk_plain _ he, walk_cons_slash]

theorem ups_nil (k : Nat) : ups k [] = [] := by
  induction k with
  | zero => rfl
  | succ k ih => rw [ups, ih]; rfl

theorem cleanLoop_spec (rooted : Bool) (rounds : Nat) (rest : Bytes) (hlen : rest.length ≤ rounds) (k : Nat) (names : List Bytes) (hr : rooted = true → k = 0) (hn : ∀ n ∈ names, Proper n) :
    ∃ k' names', (rooted = true → k' = 0) ∧ (∀ n ∈ names', Proper n) ∧
      cleanLoop rooted rounds rest (render rooted k names) (render rooted k []).length = render rooted k' names' ∧
      ∀ loc, (rooted = true → loc = []) → walk (ups k loc ++ names) rest = ups k' loc ++ names' := by
  induction rounds generalizing rest k names with
  | zero =>
    obtain rfl : rest = [] := List.length_eq_zero_iff.1 (by omega)
    exact ⟨k, names, hr, hn, by rw [cleanLoop], fun loc _ => by rw [walk_nil]⟩
  | succ rounds ih =>
  rcases rest with _ | ⟨b, r⟩
  · exact ⟨k, names, hr, hn, by rw [cleanLoop], fun loc _ => by rw [walk_nil]⟩
  simp only [List.length_cons] at hlen
  rw [cleanLoop]
  split
  · rename_i h; subst h
    obtain ⟨k', ns', h1, h2, h3, h4⟩ := ih r (by omega) k names hr hn
    exact ⟨k', ns', h1, h2, h3, fun loc hl => by rw [walk_cons_slash, h4 loc hl]⟩
  rename_i hb
  split
  · rename_i h
    obtain ⟨rfl, hr'⟩ := h
    obtain ⟨k', ns', h1, h2, h3, h4⟩ := ih r (by omega) k names hr hn
    refine ⟨k', ns', h1, h2, h3, fun loc hl => ?_⟩
    rw [← h4 loc hl, show (46 : UInt8) :: r = [46] ++ r from rfl, walk_elem _ (by decide) ?_]
    · rw [enter, if_pos (.inr (by decide))]
    · rcases hr' with rfl | hr'
      · exact .inl rfl
      · rcases r with _ | ⟨c, r⟩ <;> simp at hr' ⊢
        exact hr'
  rename_i hdot
  split
  · rename_i h
    obtain ⟨rfl, hr1, hr2⟩ := h
    rcases r with _ | ⟨c, r⟩
    · simp at hr1
    simp only [List.head?_cons, Option.some.injEq, List.tail_cons] at hr1 hr2 ⊢
    subst hr1
    simp only [List.length_cons] at hlen
    have hw : ∀ loc, walk loc (46 :: 46 :: r) = walk (enter loc (str "..")) r := by
      intro loc
      rw [show (46 : UInt8) :: 46 :: r = str ".." ++ r from rfl, walk_elem _ (by decide) ?_]
      rcases hr2 with rfl | hr2
      · exact .inl rfl
      · rcases r with _ | ⟨c, r⟩ <;> simp at hr2 ⊢
        exact hr2
    have hne : ∀ n ∈ names, n ≠ [] := fun n h => (hn n h).ne
    split
    · rename_i hlt
      rcases List.eq_nil_or_concat names with rfl | ⟨ns, n, rfl⟩
      · exact absurd hlt (Nat.lt_irrefl _)
      rw [List.concat_eq_append] at hn hlt hne ⊢
      rw [pathBack_render _ _ _ _ hr (hn n (by simp)) fun m hm => hne m (by simp [hm])]
      obtain ⟨k', ns', h1, h2, h3, h4⟩ := ih r (by omega) k ns hr (fun m hm => hn m (by simp [hm]))
      exact ⟨k', ns', h1, h2, h3, fun loc hl => by rw [hw, ← List.append_assoc, enter_dots_names, h4 loc hl]⟩
    · rename_i hlt
      have hnil : names = [] := by
        rcases names with _ | ⟨n, ns⟩
        · rfl
        · have := render_length rooted k (n :: ns) hne
          simp only [List.length_cons] at this
          omega
      subst hnil
      split
      · rename_i hroot
        simp only [Bool.not_eq_true'] at hroot
        subst hroot
        have hup : (if (render false k []).length > 0 then render false k [] ++ [47] else render false k []) ++ [46, 46] = render false (k + 1) [] := by
          rw [render_up, addElem]
          by_cases h0 : (render false k []).length = 0
          · simp [h0, str]
          · simp only [Bool.false_eq_true, false_and, Bool.not_false, true_and, false_or]
            rw [if_pos (by omega), if_pos h0]
            rfl
        rw [hup]
        obtain ⟨k', ns', h1, h2, h3, h4⟩ := ih r (by omega) (k + 1) [] (fun h => by cases h) (fun m hm => by cases hm)
        refine ⟨k', ns', h1, h2, h3, fun loc hl => ?_⟩
        rw [hw, ← h4 loc hl]
        simp [enter, str, ups]
      · rename_i hroot
        simp at hroot
        subst hroot
        obtain rfl := hr rfl
        obtain ⟨k', ns', h1, h2, h3, h4⟩ := ih r (by omega) 0 [] hr hn
        refine ⟨k', ns', h1, h2, h3, fun loc hl => ?_⟩
        rw [hw, ← h4 loc hl, hl rfl]
        simp [enter, str, ups]
  · rename_i hdots
    have hp : Proper (b :: r.takeWhile (· ≠ 47)) := by
      refine ⟨by simp, ?_, ?_, ?_⟩
      · simp only [List.mem_cons, not_or]
        refine ⟨fun h => hb h.symm, fun h => ?_⟩
        have := List.mem_takeWhile_imp h
        simp at this
      · intro h
        simp only [str] at h
        have h := List.cons.inj h
        refine hdot ⟨h.1, ?_⟩
        have h2 : r.takeWhile (· ≠ 47) = [] := h.2
        rcases r with _ | ⟨c, r⟩
        · exact .inl rfl
        · rw [List.takeWhile_cons] at h2
          split at h2
          · cases h2
          · rename_i hc; simp at hc; exact .inr (by simp [hc])
      · intro h
        have h := List.cons.inj h
        have h2 : r.takeWhile (· ≠ 47) = [46] := h.2
        refine hdots ⟨h.1, ?_⟩
        rcases r with _ | ⟨c, r⟩
        · cases h2
        · rw [List.takeWhile_cons] at h2
          split at h2
          · have h2 := List.cons.inj h2
            refine ⟨by simp [h2.1], ?_⟩
            rcases r with _ | ⟨d, r⟩
            · exact .inl rfl
            · have h3 := h2.2
              rw [List.takeWhile_cons] at h3
              split at h3
              · cases h3
              · rename_i hc; simp at hc; exact .inr (by simp [hc])
          · cases h2
    have hadd : (if (rooted = true ∧ (render rooted k names).length ≠ 1) ∨ ((!rooted) = true ∧ (render rooted k names).length ≠ 0) then
        render rooted k names ++ [47] else render rooted k names) ++ b :: r.takeWhile (· ≠ 47) = render rooted k (names ++ [b :: r.takeWhile (· ≠ 47)]) := by
      rw [render_snoc, addElem]
    dsimp only
    rw [hadd]
    have hle : (r.dropWhile (· ≠ 47)).length ≤ r.length := (List.dropWhile_suffix _).length_le
    obtain ⟨k', ns', h1, h2, h3, h4⟩ := ih (r.dropWhile (· ≠ 47)) (by omega) k (names ++ [b :: r.takeWhile (· ≠ 47)]) hr
      (by
        intro m hm
        rcases List.mem_append.1 hm with hm | hm
        · exact hn m hm
        · rw [List.mem_singleton.1 hm]; exact hp)
    refine ⟨k', ns', h1, h2, h3, fun loc hl => ?_⟩
    rw [← h4 loc hl]
    have : b :: r = (b :: r.takeWhile (· ≠ 47)) ++ r.dropWhile (· ≠ 47) := by
      rw [List.cons_append, List.takeWhile_append_dropWhile]
    rw [this, walk_elem _ hp.slash (dropWhile_slash r), enter_proper _ hp, List.append_assoc]

/-- The path is absolute. -/
def isRooted (p : Bytes) : Bool := p.head? = some 47

theorem place_eq (cwd : List Bytes) (p : Bytes) : place cwd p = walk (if isRooted p then [] else cwd) p := by
  simp [place, walk, isRooted]

theorem addElem_head (out e : Bytes) (ho : out ≠ [] → out.head? ≠ some 47) (he : 47 ∉ e) : (addElem false out e).head? ≠ some 47 := by
  rcases out with _ | ⟨b, out⟩
  · simp [addElem]
    cases e <;> simp_all
    exact fun h => he.1 h.symm
  · have := ho (by simp)
    simpa [addElem] using this

theorem render_rel_head (k : Nat) (names : List Bytes) (h : ∀ n ∈ names, Proper n) : (render false k names).head? ≠ some 47 := by
  induction names using List.reverseRecOn with
  | nil =>
    induction k with
    | zero => simp [render]
    | succ k ih => rw [render_up]; exact addElem_head _ _ (fun _ => ih) (by decide)
  | append_singleton ns n ih =>
    rw [render_snoc]
    exact addElem_head _ _ (fun _ => ih fun m hm => h m (by simp [hm])) (h n (by simp)).slash

/-- The text that `path.Clean` returns for what it has written. -/
def orDot (out : Bytes) : Bytes := if out = [] then [46] else out

theorem render_head (rooted : Bool) (k : Nat) (names : List Bytes) (hr : rooted = true → k = 0) (h : ∀ n ∈ names, Proper n) :
    isRooted (orDot (render rooted k names)) = rooted := by
  cases rooted with
  | true =>
    obtain ⟨r, h1⟩ := render_abs_head names
    rw [hr rfl, h1]
    simp [orDot, isRooted]
  | false =>
    have := render_rel_head k names h
    unfold orDot
    split
    · rfl
    · simpa [isRooted] using this

theorem pathClean_form (p : Bytes) : ∃ k names, (isRooted p = true → k = 0) ∧ (∀ n ∈ names, Proper n) ∧ pathClean p = orDot (render (isRooted p) k names) ∧
    ∀ cwd, place cwd p = ups k (if isRooted p then [] else cwd) ++ names := by
  rcases p with _ | ⟨b, r⟩
  · exact ⟨0, [], fun _ => rfl, (fun n h => by cases h), rfl, fun cwd => by simp [place_eq, isRooted, ups]⟩
  · by_cases hb : b = 47
    · subst hb
      obtain ⟨k, ns, h1, h2, h3, h4⟩ := cleanLoop_spec true (r.length + 1) r (by omega) 0 [] (fun _ => rfl) (fun n h => by cases h)
      refine ⟨k, ns, fun _ => h1 rfl, h2, ?_, fun cwd => ?_⟩
      · simp only [pathClean, if_true]
        rw [show isRooted (47 :: r) = true by simp [isRooted], ← h3]
        rfl
      · rw [place_eq, show isRooted (47 :: r) = true by simp [isRooted], if_pos rfl, walk_cons_slash]
        have := h4 [] fun _ => rfl
        simpa [ups] using this
    · have hrel : isRooted (b :: r) = false := by simp [isRooted, hb]
      obtain ⟨k, ns, h1, h2, h3, h4⟩ := cleanLoop_spec false (r.length + 1) (b :: r) (by simp) 0 [] (fun _ => rfl) (fun n h => by cases h)
      refine ⟨k, ns, by simp [hrel], h2, ?_, fun cwd => ?_⟩
      · simp only [pathClean, if_neg hb, hrel]
        rw [← h3]
        rfl
      · rw [place_eq, hrel, if_neg (by simp)]
        have := h4 cwd fun h => by cases h
        simpa [ups] using this

theorem walk_orDot (loc : List Bytes) (out : Bytes) : walk loc (orDot out) = walk loc out := by
  unfold orDot
  split
  · rename_i h
    subst h
    rw [walk_plain _ (by decide), walk_nil, enter, if_pos (.inr (by decide))]
  · rfl

theorem isRooted_clean (p : Bytes) : isRooted (pathClean p) = isRooted p := by
  obtain ⟨k, ns, h1, h2, h3, -⟩ := pathClean_form p
  rw [h3, render_head _ _ _ h1 h2]

theorem place_clean (cwd : List Bytes) (p : Bytes) : place cwd (pathClean p) = place cwd p := by
  obtain ⟨k, ns, h1, h2, h3, h4⟩ := pathClean_form p
  rw [place_eq, isRooted_clean, h3, walk_orDot, walk_render _ _ _ _ h1 h2, h4]

theorem ups_length (k : Nat) (l : List Bytes) : (ups k l).length = l.length - k := by
  induction k with
  | zero => rfl
  | succ k ih => rw [ups, List.length_dropLast, ih]; omega

theorem form_unique {p q : Bytes} {k k' : Nat} {ns ns' : List Bytes} (h1 : isRooted p = isRooted q) (hk : isRooted p = true → k = 0) (hk' : isRooted q = true → k' = 0)
    (h : ∀ cwd, ups k (if isRooted p then [] else cwd) ++ ns = ups k' (if isRooted q then [] else cwd) ++ ns') : k = k' ∧ ns = ns' := by
  have hns : ns = ns' := by
    have := h []
    simpa [ups_nil] using this
  refine ⟨?_, hns⟩
  cases hq : isRooted q with
  | true => rw [hk (by rw [h1, hq]), hk' hq]
  | false =>
    have := congrArg List.length (h (List.replicate (k + k') []))
    rw [h1, hq, hns] at this
    simp [ups_length] at this
    omega

theorem clean_eq_iff (p q : Bytes) : pathClean p = pathClean q ↔ isRooted p = isRooted q ∧ ∀ cwd, place cwd p = place cwd q := by
  constructor
  · intro h
    refine ⟨by rw [← isRooted_clean p, h, isRooted_clean], fun cwd => by rw [← place_clean, h, place_clean]⟩
  · rintro ⟨h1, h2⟩
    obtain ⟨k, ns, hk, -, hc, hp⟩ := pathClean_form p
    obtain ⟨k', ns', hk', -, hc', hp'⟩ := pathClean_form q
    obtain ⟨hkk, hns⟩ := form_unique h1 hk hk' fun cwd => by rw [← hp, ← hp', h2]
    rw [hc, hc', h1, hns, hkk]

/-! ## Joining -/

theorem place_join2 (cwd : List Bytes) {a b : Bytes} (ha : a ≠ []) : place cwd (pathJoin [a, b]) = walk (place cwd a) b := by
  have h1 : a.length > 0 := List.length_pos_iff.2 ha
  rw [pathJoin, if_neg (by simp [ha]), place_clean]
  have : joinLoop [] [a, b] = a ++ 47 :: b := by
    simp [joinLoop, ha, show 0 < a.length from h1]
  rw [this, place_eq, place_eq, walk_slash]
  congr 2
  rcases a with _ | ⟨x, a⟩
  · exact absurd rfl ha
  · rfl

theorem place_join3 (cwd : List Bytes) {a b c : Bytes} (ha : a ≠ []) : place cwd (pathJoin [a, b, c]) = walk (walk (place cwd a) b) c := by
  have h1 : a.length > 0 := List.length_pos_iff.2 ha
  rw [pathJoin, if_neg (by simp [ha]), place_clean]
  have : joinLoop [] [a, b, c] = a ++ 47 :: (b ++ 47 :: c) := by
    simp [joinLoop, ha, show 0 < a.length from h1, show 0 < a.length + (b.length + 1) by omega]
  rw [this, place_eq, place_eq, walk_slash, walk_slash]
  congr 3
  rcases a with _ | ⟨x, a⟩
  · exact absurd rfl ha
  · rfl

theorem place_slash (cwd : List Bytes) {a : Bytes} (ha : a ≠ []) (b : Bytes) : place cwd (a ++ 47 :: b) = walk (place cwd a) b := by
  rw [place_eq, place_eq, walk_slash]
  congr 2
  rcases a with _ | ⟨x, a⟩
  · exact absurd rfl ha
  · rfl

/-! ## The spelling of paths below a directory -/

theorem isRooted_slash {a : Bytes} (ha : a ≠ []) (b : Bytes) : isRooted (a ++ 47 :: b) = isRooted a := by
  rcases a with _ | ⟨x, a⟩
  · exact absurd rfl ha
  · rfl

theorem walk_join (loc : List Bytes) {cs : List Bytes} (hne : cs ≠ []) (h : ∀ c ∈ cs, Proper c) : walk loc (join [47] cs) = loc ++ cs := by
  induction cs generalizing loc with
  | nil => exact absurd rfl hne
  | cons c cs ih =>
    have hc := h c (by simp)
    rcases cs with _ | ⟨d, cs⟩
    · rw [join, walk_plain _ hc.slash, enter_proper _ hc]
    · rw [join, List.append_assoc, List.singleton_append, walk_slash, walk_plain _ hc.slash, enter_proper _ hc, ih _ (by simp) fun m hm => h m (by simp [hm])]
      simp

theorem addElem_far (rooted : Bool) (out e : Bytes) (h : out.length > if rooted then 1 else 0) : addElem rooted out e = out ++ 47 :: e := by
  cases rooted
  · have : out ≠ [] := by rintro rfl; simp at h
    simp [addElem, this]
  · simp at h
    simp [addElem, show out.length ≠ 1 by omega]

theorem foldl_addElem (rooted : Bool) (out : Bytes) (h : out.length > if rooted then 1 else 0) (cs : List Bytes) (hne : cs ≠ []) :
    cs.foldl (addElem rooted) out = out ++ 47 :: join [47] cs := by
  induction cs generalizing out with
  | nil => exact absurd rfl hne
  | cons c cs ih =>
    rw [List.foldl_cons, addElem_far _ _ _ h]
    rcases cs with _ | ⟨d, cs⟩
    · rfl
    · rw [ih _ (by simp; omega) (by simp), join]
      simp

/-- What the paths below a directory begin with. -/
def dirPrefix (a : Bytes) : Bytes := (pathClean (a ++ [47, 120])).dropLast

theorem clean_below_aux {a : Bytes} (ha : a ≠ []) : ∃ pre, ∀ cs : List Bytes, cs ≠ [] → (∀ c ∈ cs, Proper c) → pathClean (a ++ 47 :: join [47] cs) = pre ++ join [47] cs := by
  obtain ⟨k, ns, hk, hn, -, hp⟩ := pathClean_form a
  refine ⟨addElem (isRooted a) (render (isRooted a) k ns) [], fun cs hne hcs => ?_⟩
  obtain ⟨k', ns', hk', hn', hc', hp'⟩ := pathClean_form (a ++ 47 :: join [47] cs)
  obtain ⟨rfl, rfl⟩ : k' = k ∧ ns' = ns ++ cs := by
    refine form_unique (isRooted_slash ha _) hk' hk fun cwd => ?_
    rw [← hp', place_slash _ ha, hp, walk_join _ hne hcs, List.append_assoc]
  rw [hc', isRooted_slash ha]
  have hbase : (render (isRooted a) k' ns).length ≥ if isRooted a then 1 else 0 := by
    have h1 := render_length (isRooted a) k' ns fun n h => (hn n h).ne
    have h2 := render_base (isRooted a) k'
    omega
  have key : render (isRooted a) k' (ns ++ cs) = addElem (isRooted a) (render (isRooted a) k' ns) [] ++ join [47] cs := by
    rcases cs with _ | ⟨c, cs⟩
    · exact absurd rfl hne
    have hc : c.length ≥ 1 := List.length_pos_iff.2 (hcs c (by simp)).ne
    have h1 : render (isRooted a) k' (ns ++ c :: cs) = cs.foldl (addElem (isRooted a)) (addElem (isRooted a) (render (isRooted a) k' ns) c) := by
      simp [render]
    have h2 : addElem (isRooted a) (render (isRooted a) k' ns) c = addElem (isRooted a) (render (isRooted a) k' ns) [] ++ c := by
      simp [addElem]
    rw [h1]
    rcases cs with _ | ⟨d, cs⟩
    · rw [List.foldl_nil, h2, join]
    · have h3 := addElem_length (isRooted a) (render (isRooted a) k' ns) c
      rw [foldl_addElem _ _ (by omega) _ (by simp), h2, join]
      simp
  rw [key, orDot, if_neg]
  rcases cs with _ | ⟨c, cs⟩
  · exact absurd rfl hne
  · have hc := (hcs c (by simp)).ne
    rcases c with _ | ⟨x, c⟩
    · exact absurd rfl hc
    · cases cs <;> simp [join]

theorem clean_below {a : Bytes} (ha : a ≠ []) {cs : List Bytes} (hne : cs ≠ []) (h : ∀ c ∈ cs, Proper c) :
    pathClean (a ++ 47 :: join [47] cs) = dirPrefix a ++ join [47] cs := by
  obtain ⟨pre, hpre⟩ := clean_below_aux ha
  have hx : Proper [120] := ⟨by decide, by decide, by decide, by decide⟩
  have h1 := hpre [[120]] (by simp) (by simpa using hx)
  rw [hpre cs hne h, dirPrefix, show a ++ [47, 120] = a ++ 47 :: join [47] [[120]] from rfl, h1]
  simp [join]

theorem join_ne {cs : List Bytes} (hne : cs ≠ []) (h : ∀ c ∈ cs, Proper c) : join [47] cs ≠ [] := by
  rcases cs with _ | ⟨c, cs⟩
  · exact absurd rfl hne
  · have hc := (h c (by simp)).ne
    cases cs <;> simp [join, hc]

theorem join_head {cs : List Bytes} (hne : cs ≠ []) (h : ∀ c ∈ cs, Proper c) : isRooted (join [47] cs) = false := by
  rcases cs with _ | ⟨c, cs⟩
  · exact absurd rfl hne
  · have hc := h c (by simp)
    rcases c with _ | ⟨x, c⟩
    · exact absurd rfl hc.ne
    · have : x ≠ 47 := fun hx => hc.slash (by simp [hx])
      cases cs <;> simp [join, isRooted, this]

theorem join_snoc {cs : List Bytes} (hne : cs ≠ []) (c : Bytes) : join [47] (cs ++ [c]) = join [47] cs ++ 47 :: c := by
  induction cs with
  | nil => exact absurd rfl hne
  | cons d cs ih =>
    rcases cs with _ | ⟨e, cs⟩
    · simp [join]
    · have := ih (by simp)
      simp only [List.cons_append] at this
      simp [join, this]

/-- A relative path of names is in the form that `path.Clean` gives. -/
theorem clean_names {cs : List Bytes} (hne : cs ≠ []) (h : ∀ c ∈ cs, Proper c) : pathClean (join [47] cs) = join [47] cs := by
  obtain ⟨k, ns, hk, hn, hc, hp⟩ := pathClean_form (join [47] cs)
  have hr := join_head hne h
  obtain ⟨rfl, rfl⟩ : k = 0 ∧ ns = cs := by
    refine form_unique (p := join [47] cs) (q := join [47] cs) rfl hk (fun _ => rfl) fun cwd => ?_
    rw [← hp, place_eq, walk_join _ hne h]
    rfl
  rw [hc, hr]
  have key : render false 0 ns = join [47] ns := by
    rcases ns with _ | ⟨c, ns⟩
    · exact absurd rfl hne
    · have h1 : render false 0 (c :: ns) = ns.foldl (addElem false) c := by simp [render, addElem]
      rw [h1]
      rcases ns with _ | ⟨d, ns⟩
      · rfl
      · have hc := (h c (by simp)).ne
        rw [foldl_addElem _ _ (by simpa using List.length_pos_iff.2 hc) _ (by simp), join]
        simp
  rw [key, orDot, if_neg (join_ne hne h)]

/-- What the joined paths below a directory begin with; the empty text stands for the working directory. -/
def joinPrefix (a : Bytes) : Bytes := if a = [] then [] else dirPrefix a

theorem pathJoin_nil {b : Bytes} (hb : b ≠ []) : pathJoin [[], b] = pathClean b := by
  rw [pathJoin, if_neg (by simp [hb])]
  simp [joinLoop, hb]

theorem pathJoin_two {a b : Bytes} (ha : a ≠ []) : pathJoin [a, b] = pathClean (a ++ 47 :: b) := by
  rw [pathJoin, if_neg (by simp [ha])]
  simp [joinLoop, ha, show 0 < a.length from List.length_pos_iff.2 ha]

theorem pathJoin_three {b : Bytes} (a c : Bytes) (hb : b ≠ []) : pathJoin [a, b, c] = pathJoin [a, b ++ 47 :: c] := by
  have h2 : 0 < b.length := List.length_pos_iff.2 hb
  rcases a with _ | ⟨x, a⟩
  · rw [pathJoin_nil (by simp), pathJoin, if_neg (by simp [hb])]
    simp [joinLoop, hb, h2]
  · rw [pathJoin_two (by simp), pathJoin, if_neg (by simp)]
    simp [joinLoop]

theorem join_below (a : Bytes) {cs : List Bytes} (hne : cs ≠ []) (h : ∀ c ∈ cs, Proper c) : pathJoin [a, join [47] cs] = joinPrefix a ++ join [47] cs := by
  by_cases ha : a = []
  · subst ha
    rw [pathJoin_nil (join_ne hne h), clean_names hne h]
    rfl
  · rw [pathJoin_two ha, clean_below ha hne h, joinPrefix, if_neg ha]

theorem join_below_file (a : Bytes) {cs : List Bytes} (hne : cs ≠ []) (h : ∀ c ∈ cs, Proper c) {c : Bytes} (hc : Proper c) :
    pathJoin [pathJoin [a, join [47] cs], c] = joinPrefix a ++ join [47] cs ++ 47 :: c := by
  have hall : ∀ d ∈ cs ++ [c], Proper d := by
    intro d hd
    rcases List.mem_append.1 hd with hd | hd
    · exact h d hd
    · rw [List.mem_singleton.1 hd]; exact hc
  have hX : pathJoin [a, join [47] cs] ≠ [] := by
    rw [join_below a hne h]
    simp [join_ne hne h]
  have h1 := join_below a (cs := cs ++ [c]) (by simp) hall
  rw [join_snoc hne] at h1
  rw [List.append_assoc, ← h1, pathJoin_two hX]
  by_cases ha : a = []
  · subst ha
    rw [pathJoin_nil (join_ne hne h), pathJoin_nil (by simp), clean_names hne h]
  · rw [pathJoin_two ha, pathJoin_two ha, clean_eq_iff]
    constructor
    · rw [isRooted_slash, isRooted_clean, isRooted_slash ha, isRooted_slash ha]
      rw [pathJoin_two ha] at hX
      exact hX
    · intro cwd
      rw [pathJoin_two ha] at hX
      rw [place_slash _ hX, place_clean, place_slash _ ha, place_slash _ ha, walk_slash]

/-- The directory `b` in `a`. -/
theorem joinPrefix_sub {a b : Bytes} (ha : a ≠ []) (hb : Proper b) : joinPrefix (a ++ 47 :: b) = joinPrefix a ++ b ++ [47] := by
  have hx : Proper [120] := ⟨by decide, by decide, by decide, by decide⟩
  have h1 := clean_below ha (cs := [b, [120]]) (by simp) (by simp [hb, hx])
  rw [joinPrefix, if_neg (by simp), joinPrefix, if_neg ha, dirPrefix]
  rw [show a ++ 47 :: b ++ [47, 120] = a ++ 47 :: join [47] [b, [120]] by simp [join], h1]
  simp only [join]
  rw [← List.append_assoc, ← List.append_assoc, List.dropLast_concat]

/-- The same in the root directory. -/
theorem joinPrefix_root {b : Bytes} (hb : Proper b) : joinPrefix (47 :: b) = 47 :: b ++ [47] := by
  have hx : Proper [120] := ⟨by decide, by decide, by decide, by decide⟩
  have h1 := clean_below (a := [47]) (by simp) (cs := [b, [120]]) (by simp) (by simp [hb, hx])
  have h2 : pathClean (47 :: b ++ [47, 120]) = pathClean ([47] ++ 47 :: join [47] [b, [120]]) := by
    rw [clean_eq_iff]
    refine ⟨rfl, fun cwd => ?_⟩
    rw [place_eq, place_eq]
    simp [join, isRooted]
  rw [joinPrefix, if_neg (by simp), dirPrefix, h2, h1, show dirPrefix [47] = [47] by decide]
  simp only [join]
  rw [← List.append_assoc, ← List.append_assoc, List.dropLast_concat]
  simp

/-! ## Days -/

/-- The components of the text of a day. -/
def dayNames (t : Int) : List Bytes := [padDec 4 (dateOf t).year.toNat, padDec 2 (dateOf t).month, padDec 2 (dateOf t).day]

theorem formatDay_join (t : Int) : formatDay t = join [47] (dayNames t) := by
  simp [formatDay, dayNames, join, str]

theorem proper_digits {c : Bytes} (hne : c ≠ []) (h : ∀ b ∈ c, IsDigit b) : Proper c := by
  refine ⟨hne, fun hs => ?_, ?_, ?_⟩
  · exact absurd (h _ hs) (by decide)
  · rintro rfl
    exact absurd (h 46 (by decide)) (by decide)
  · rintro rfl
    exact absurd (h 46 (by decide)) (by decide)

theorem padDec_ne (w n : Nat) : padDec w n ≠ [] := by
  simp [padDec, natDec_ne_nil]

theorem dayNames_proper (t : Int) : ∀ c ∈ dayNames t, Proper c := by
  intro c hc
  simp only [dayNames, List.mem_cons, List.not_mem_nil, or_false] at hc
  rcases hc with rfl | rfl | rfl <;> exact proper_digits (padDec_ne _ _) padDec_isDigit

theorem proper_json {u : Bytes} (h : 47 ∉ u) : Proper (u ++ str ".json") := by
  refine ⟨by simp [str], ?_, ?_, ?_⟩
  · simp [h, str]
  · intro he; have := congrArg List.length he; simp [str] at this
  · intro he; have := congrArg List.length he; simp [str] at this

/-- The directory of a day. -/
theorem dayDir_eq (a : Bytes) (t : Int) : pathJoin [a, formatDay t] = joinPrefix a ++ formatDay t := by
  rw [formatDay_join]
  exact join_below a (by simp [dayNames]) (dayNames_proper t)

/-- A file in the directory of a day. -/
theorem dayFile_eq (a : Bytes) (t : Int) {u : Bytes} (h : 47 ∉ u) :
    pathJoin [pathJoin [a, formatDay t], u ++ str ".json"] = joinPrefix a ++ formatDay t ++ [47] ++ u ++ str ".json" := by
  rw [formatDay_join, join_below_file a (by simp [dayNames]) (dayNames_proper t) (proper_json h)]
  simp

theorem proper_ndt7 : Proper (str "ndt7") := ⟨by decide, by decide, by decide, by decide⟩

/-- The directory of the ndt7 results of a day. -/
theorem dayDir7_eq (a : Bytes) (t : Int) : pathJoin [a, str "ndt7", formatDay t] = joinPrefix a ++ str "ndt7/" ++ formatDay t := by
  have h : ∀ c ∈ str "ndt7" :: dayNames t, Proper c := by
    intro c hc
    rcases List.mem_cons.1 hc with rfl | hc
    · exact proper_ndt7
    · exact dayNames_proper t c hc
  rw [pathJoin_three _ _ (by decide), show str "ndt7" ++ 47 :: formatDay t = join [47] (str "ndt7" :: dayNames t) by rw [formatDay_join]; simp [dayNames, join],
    join_below a (by simp) h, show join [47] (str "ndt7" :: dayNames t) = str "ndt7/" ++ formatDay t by rw [formatDay_join]; simp [dayNames, join, str], List.append_assoc]

end Verif.Go
