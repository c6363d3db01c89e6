import Verif.Go.JsonGrammar

/-! # The parser reads exactly the JSON texts of the grammar -/

namespace Verif.Go
open Verif.Spec

theorem blank_isWs {w : Bytes} : Blank w ↔ ∀ c ∈ w, isWs c = true := by
  unfold Blank
  simp [isWs, or_assoc]

theorem skipWs_split (s : Bytes) : ∃ w, s = w ++ skipWs s ∧ Blank w := by
  refine ⟨s.takeWhile isWs, (List.takeWhile_append_dropWhile).symm, blank_isWs.2 fun c hc => ?_⟩
  simpa using List.mem_takeWhile_imp hc

theorem skipWs_blank {w : Bytes} (h : Blank w) (s : Bytes) : skipWs (w ++ s) = skipWs s := by
  unfold skipWs
  rw [List.dropWhile_append_of_pos (blank_isWs.1 h)]

theorem skipWs_blank_cons {w : Bytes} (h : Blank w) {c : UInt8} (hc : isWs c = false) (t : Bytes) : skipWs (w ++ c :: t) = c :: t := by
  rw [skipWs_blank h, skipWs_cons hc]

private theorem hasPrefix_split {s p : Bytes} (h : hasPrefix s p = true) : s = p ++ s.drop p.length := by
  unfold hasPrefix at h
  rw [List.isPrefixOf_iff_prefix] at h
  obtain ⟨t, rfl⟩ := h
  simp

private theorem drop_succ {c : UInt8} {t : Bytes} (n : Nat) : t.drop n = (c :: t).drop (n + 1) := rfl

/-! ## What is read is in the grammar -/

private def SoundAt (f : Nat) : Prop :=
  (∀ {d s v r}, d ≤ maxNesting → parseValue f d s = some (v, r) → ∃ w x, s = w ++ (x ++ r) ∧ Blank w ∧ IsValue (maxNesting - d) x v) ∧
  (∀ {d s kvs r}, d ≤ maxNesting → parseMembers f d s = some (kvs, r) → ∃ x, s = x ++ 125 :: r ∧ IsMembers (maxNesting - d) x kvs) ∧
  (∀ {d s vs r}, d ≤ maxNesting → parseElems f d s = some (vs, r) → ∃ x, s = x ++ 93 :: r ∧ IsElements (maxNesting - d) x vs)

private theorem sound (f : Nat) : SoundAt f := by
  induction f with
  | zero => exact ⟨fun _ h => by simp [parseValue] at h, fun _ h => by simp [parseMembers] at h, fun _ h => by simp [parseElems] at h⟩
  | succ f ih =>
    obtain ⟨ihv, ihm, ihe⟩ := ih
    refine ⟨?_, ?_, ?_⟩
    · intro d s v r hd h
      obtain ⟨w, hw, hb⟩ := skipWs_split s
      suffices hs : ∃ x, skipWs s = x ++ r ∧ IsValue (maxNesting - d) x v by
        obtain ⟨x, h1, h2⟩ := hs
        exact ⟨w, x, by rw [← h1]; exact hw, hb, h2⟩
      clear hw hb w
      simp only [parseValue] at h
      split at h
      · cases h
      · rename_i c t hs
        rw [hs]
        clear hs
        split at h
        · rename_i hc
          subst hc
          simp only [Option.map_eq_some_iff, Prod.mk.injEq] at h
          obtain ⟨⟨text, r'⟩, hp, rfl, rfl⟩ := h
          obtain ⟨body, rfl, hbody⟩ := parseStr_sound hp
          exact ⟨34 :: body ++ [34], by simp, .string hbody⟩
        split at h
        · rename_i hc
          subst hc
          split at h
          · cases h
          · rename_i hdep
            have e : maxNesting - d = maxNesting - (d + 1) + 1 := by omega
            rw [e]
            obtain ⟨w, hw, hb⟩ := skipWs_split t
            split at h
            · rename_i r' hs
              cases h
              rw [hs] at hw
              exact ⟨123 :: w ++ [125], by rw [hw]; simp, .emptyObject hb⟩
            · simp only [Option.map_eq_some_iff, Prod.mk.injEq] at h
              obtain ⟨⟨kvs, r'⟩, hp, rfl, rfl⟩ := h
              obtain ⟨x, rfl, hx⟩ := ihm (by omega) hp
              exact ⟨123 :: x ++ [125], by simp, .object hx⟩
        split at h
        · rename_i hc
          subst hc
          split at h
          · cases h
          · rename_i hdep
            have e : maxNesting - d = maxNesting - (d + 1) + 1 := by omega
            rw [e]
            obtain ⟨w, hw, hb⟩ := skipWs_split t
            split at h
            · rename_i r' hs
              cases h
              rw [hs] at hw
              exact ⟨91 :: w ++ [93], by rw [hw]; simp, .emptyArray hb⟩
            · simp only [Option.map_eq_some_iff, Prod.mk.injEq] at h
              obtain ⟨⟨vs, r'⟩, hp, rfl, rfl⟩ := h
              obtain ⟨x, rfl, hx⟩ := ihe (by omega) hp
              exact ⟨91 :: x ++ [93], by simp, .array hx⟩
        split at h
        · rename_i hp
          cases h
          exact ⟨_, hasPrefix_split hp, .true⟩
        split at h
        · rename_i hp
          cases h
          exact ⟨_, hasPrefix_split hp, .false⟩
        split at h
        · rename_i hp
          cases h
          exact ⟨_, hasPrefix_split hp, .null⟩
        · simp only [Option.map_eq_some_iff, Prod.mk.injEq] at h
          obtain ⟨⟨raw, r'⟩, hp, rfl, rfl⟩ := h
          obtain ⟨h1, h2⟩ := parseNum_sound hp
          exact ⟨raw, h1, .number h2⟩
    · intro d s kvs r hd h
      obtain ⟨w, hw, hb⟩ := skipWs_split s
      simp only [parseMembers] at h
      split at h
      · rename_i t hs
        rw [hs] at hw
        subst hw
        split at h
        · cases h
        · rename_i k r0 hp
          obtain ⟨body, rfl, hbody⟩ := parseStr_sound hp
          obtain ⟨w1, hw1, hb1⟩ := skipWs_split r0
          split at h
          · rename_i r1 hs1
            rw [hs1] at hw1
            subst hw1
            split at h
            · cases h
            · rename_i v r2 hv
              obtain ⟨w2, x, rfl, hb2, hx⟩ := ihv hd hv
              obtain ⟨w', hw', hb'⟩ := skipWs_split r2
              split at h
              · rename_i r3 hs2
                rw [hs2] at hw'
                subst hw'
                cases h
                exact ⟨_, by simp, .one hb hbody hb1 hb2 hx hb'⟩
              · rename_i r3 hs2
                rw [hs2] at hw'
                subst hw'
                simp only [Option.map_eq_some_iff, Prod.mk.injEq] at h
                obtain ⟨⟨kvs', r'⟩, hp, rfl, rfl⟩ := h
                obtain ⟨y, rfl, hy⟩ := ihm hd hp
                exact ⟨_, by simp, .more hb hbody hb1 hb2 hx hb' hy⟩
              · cases h
          · cases h
      · cases h
    · intro d s vs r hd h
      simp only [parseElems] at h
      split at h
      · cases h
      · rename_i v r0 hv
        obtain ⟨w, x, rfl, hb, hx⟩ := ihv hd hv
        obtain ⟨w', hw', hb'⟩ := skipWs_split r0
        split at h
        · rename_i r1 hs
          rw [hs] at hw'
          subst hw'
          cases h
          exact ⟨_, by simp, .one hb hx hb'⟩
        · rename_i r1 hs
          rw [hs] at hw'
          subst hw'
          simp only [Option.map_eq_some_iff, Prod.mk.injEq] at h
          obtain ⟨⟨vs', r'⟩, hp, rfl, rfl⟩ := h
          obtain ⟨y, rfl, hy⟩ := ihe hd hp
          exact ⟨_, by simp, .more hb hx hb' hy⟩
        · cases h

/-! ## What is in the grammar is read -/

private theorem value_head {n : Nat} {x : Bytes} {v : Json} (h : IsValue n x v) : ∃ c t, x = c :: t ∧ isWs c = false ∧ c ≠ 93 ∧ c ≠ 125 := by
  cases h with
  | null => exact ⟨110, _, rfl, by decide, by decide, by decide⟩
  | «true» => exact ⟨116, _, rfl, by decide, by decide, by decide⟩
  | «false» => exact ⟨102, _, rfl, by decide, by decide, by decide⟩
  | number h =>
    obtain ⟨c, t, he, hc⟩ := (numText_iff.2 h).head
    obtain ⟨k1, k2, k3, -⟩ := numHead hc
    exact ⟨c, t, he, k1, k2, k3⟩
  | string => exact ⟨34, _, rfl, by decide, by decide, by decide⟩
  | emptyArray => exact ⟨91, _, rfl, by decide, by decide, by decide⟩
  | array => exact ⟨91, _, rfl, by decide, by decide, by decide⟩
  | emptyObject => exact ⟨123, _, rfl, by decide, by decide, by decide⟩
  | object => exact ⟨123, _, rfl, by decide, by decide, by decide⟩

private theorem stop_blank {w r : Bytes} (h : Blank w) (hr : Stop r) : Stop (w ++ r) := by
  intro c hc
  cases w with
  | nil => exact hr c hc
  | cons b w =>
    simp at hc
    subst hc
    exact .inr (.inr (.inr (blank_isWs.1 h b (by simp))))

private theorem stop_cons {c : UInt8} {r : Bytes} (h : c = 44 ∨ c = 93 ∨ c = 125) : Stop (c :: r) := by
  intro b hb
  simp at hb
  subst hb
  rcases h with h | h | h <;> simp [h]

private theorem parseValue_blank {f d : Nat} {w s : Bytes} (h : Blank w) : parseValue f d (w ++ s) = parseValue f d s := by
  cases f with
  | zero => simp [parseValue]
  | succ f => simp only [parseValue, skipWs_blank h]

private def ReadsValue (n : Nat) (x : Bytes) (v : Json) : Prop :=
  ∀ {r f d}, Stop r → d + n ≤ maxNesting → 2 * x.length ≤ f → parseValue f d (x ++ r) = some (v, r)
private def ReadsElems (n : Nat) (x : Bytes) (vs : List Json) : Prop :=
  ∀ {r f d}, d + n ≤ maxNesting → 2 * x.length + 1 ≤ f → parseElems f d (x ++ 93 :: r) = some (vs, r)
private def ReadsMembers (n : Nat) (x : Bytes) (kvs : List (Bytes × Json)) : Prop :=
  ∀ {r f d}, d + n ≤ maxNesting → 2 * x.length + 1 ≤ f → parseMembers f d (x ++ 125 :: r) = some (kvs, r)

private theorem elems_head {n : Nat} {x : Bytes} {vs : List Json} (h : IsElements n x vs) : ∃ w c t, x = w ++ c :: t ∧ Blank w ∧ isWs c = false ∧ c ≠ 93 := by
  cases h with
  | one hb hv hb' =>
    obtain ⟨c, t, rfl, h1, h2, -⟩ := value_head hv
    exact ⟨_, c, _, rfl, hb, h1, h2⟩
  | more hb hv hb' _ =>
    obtain ⟨c, t, rfl, h1, h2, -⟩ := value_head hv
    exact ⟨_, c, _, rfl, hb, h1, h2⟩

private theorem members_head {n : Nat} {x : Bytes} {kvs : List (Bytes × Json)} (h : IsMembers n x kvs) : ∃ w t, x = w ++ 34 :: t ∧ Blank w := by
  cases h with
  | one hb => exact ⟨_, _, rfl, hb⟩
  | more hb => exact ⟨_, _, rfl, hb⟩

private theorem fuel_pos {f k : Nat} (h : 1 ≤ k) (hf : k ≤ f) : ∃ g, f = g + 1 := ⟨f - 1, by omega⟩

private theorem reads {n : Nat} {x : Bytes} {v : Json} (h : IsValue n x v) : ReadsValue n x v := by
  refine IsValue.rec (motive_1 := fun n x v _ => ReadsValue n x v) (motive_2 := fun n x vs _ => ReadsElems n x vs)
    (motive_3 := fun n x kvs _ => ReadsMembers n x kvs) ?_ ?_ ?_ ?_ ?_ ?_ ?_ ?_ ?_ ?_ ?_ ?_ ?_ h
  · intro n r f d _ _ hf
    obtain ⟨f, rfl⟩ := fuel_pos (k := 2 * (str "null").length) (by decide) hf
    simp [parseValue, str, skipWs, isWs, hasPrefix]
  · intro n r f d _ _ hf
    obtain ⟨f, rfl⟩ := fuel_pos (k := 2 * (str "true").length) (by decide) hf
    simp [parseValue, str, skipWs, isWs, hasPrefix]
  · intro n r f d _ _ hf
    obtain ⟨f, rfl⟩ := fuel_pos (k := 2 * (str "false").length) (by decide) hf
    simp [parseValue, str, skipWs, isWs, hasPrefix]
  · intro n raw hn r f d hs _ hf
    have hn := numText_iff.2 hn
    obtain ⟨c, t, he, -⟩ := hn.head
    obtain ⟨f, rfl⟩ := fuel_pos (by rw [he]; simp; omega) hf
    exact parseValue_num hn hs
  · intro n body text hb r f d _ _ hf
    obtain ⟨f, rfl⟩ := fuel_pos (by simp; omega) hf
    have := stringBody_parse hb (f := (body ++ 34 :: r).length + 1) (r := r) (by simp; omega)
    simp only [List.cons_append, List.append_assoc, List.nil_append, parseValue]
    rw [skipWs_cons (by decide)]
    simp only [if_pos]
    rw [this]; rfl
  · intro n w hb r f d _ hd hf
    obtain ⟨f, rfl⟩ := fuel_pos (by simp; omega) hf
    simp only [List.cons_append, List.append_assoc, List.nil_append, parseValue]
    rw [skipWs_cons (by decide)]
    simp only
    rw [if_neg (by decide), if_neg (by decide), if_pos trivial, if_neg (by omega), skipWs_blank_cons hb (by decide)]
    rfl
  · intro n s vs he ih r f d _ hd hf
    obtain ⟨f, rfl⟩ := fuel_pos (by simp; omega) hf
    have := ih (r := r) (f := f) (d := d + 1) (by omega) (by simp at hf; omega)
    obtain ⟨w, c, t, rfl, hb, hc, hc2⟩ := elems_head he
    simp only [List.cons_append, List.append_assoc, List.nil_append, parseValue] at this ⊢
    rw [skipWs_cons (by decide)]
    simp only
    rw [if_neg (by decide), if_neg (by decide), if_pos trivial, if_neg (by omega), skipWs_blank_cons hb hc]
    split
    · rename_i h'; cases h'; exact absurd rfl hc2
    · rw [this]; rfl
  · intro n w hb r f d _ hd hf
    obtain ⟨f, rfl⟩ := fuel_pos (by simp; omega) hf
    simp only [List.cons_append, List.append_assoc, List.nil_append, parseValue]
    rw [skipWs_cons (by decide)]
    simp only
    rw [if_neg (by decide), if_pos trivial, if_neg (by omega), skipWs_blank_cons hb (by decide)]
    rfl
  · intro n s kvs he ih r f d _ hd hf
    obtain ⟨f, rfl⟩ := fuel_pos (by simp; omega) hf
    have := ih (r := r) (f := f) (d := d + 1) (by omega) (by simp at hf; omega)
    obtain ⟨w, t, rfl, hb⟩ := members_head he
    simp only [List.cons_append, List.append_assoc, List.nil_append, parseValue] at this ⊢
    rw [skipWs_cons (by decide)]
    simp only
    rw [if_neg (by decide), if_pos trivial, if_neg (by omega), skipWs_blank_cons hb (by decide)]
    show Option.map _ (parseMembers f (d + 1) _) = _
    rw [this]; rfl
  · intro n w s w' v hb hv hb' ih r f d hd hf
    obtain ⟨f, rfl⟩ := fuel_pos (by omega) hf
    simp only [List.append_assoc, parseElems]
    rw [parseValue_blank hb, ih (stop_blank hb' (stop_cons (by simp))) hd (by simp at hf; omega)]
    simp only
    rw [skipWs_blank_cons hb' (by decide)]
    rfl
  · intro n w s w' rest v vs hb hv hb' _ ih ihr r f d hd hf
    obtain ⟨f, rfl⟩ := fuel_pos (by omega) hf
    simp only [List.append_assoc, List.cons_append, parseElems]
    rw [parseValue_blank hb, ih (stop_blank hb' (stop_cons (by simp))) hd (by simp at hf; omega)]
    simp only
    rw [skipWs_blank_cons hb' (by decide)]
    simp only
    rw [ihr hd (by simp at hf; omega)]
    rfl
  · intro n w body key w1 w2 s w' v hb hbody hb1 hb2 hv hb' ih r f d hd hf
    obtain ⟨f, rfl⟩ := fuel_pos (by omega) hf
    simp only [List.append_assoc, List.cons_append, parseMembers]
    rw [skipWs_blank_cons hb (by decide)]
    simp only
    rw [stringBody_parse hbody (by simp; omega)]
    simp only
    rw [skipWs_blank_cons hb1 (by decide)]
    simp only
    rw [parseValue_blank hb2, ih (stop_blank hb' (stop_cons (by simp))) hd (by simp at hf; omega)]
    simp only
    rw [skipWs_blank_cons hb' (by decide)]
    rfl
  · intro n w body key w1 w2 s w' rest v kvs hb hbody hb1 hb2 hv hb' _ ih ihr r f d hd hf
    obtain ⟨f, rfl⟩ := fuel_pos (by omega) hf
    simp only [List.append_assoc, List.cons_append, parseMembers]
    rw [skipWs_blank_cons hb (by decide)]
    simp only
    rw [stringBody_parse hbody (by simp; omega)]
    simp only
    rw [skipWs_blank_cons hb1 (by decide)]
    simp only
    rw [parseValue_blank hb2, ih (stop_blank hb' (stop_cons (by simp))) hd (by simp at hf; omega)]
    simp only
    rw [skipWs_blank_cons hb' (by decide)]
    simp only
    rw [ihr hd (by simp at hf; omega)]
    rfl

/-- The parser accepts exactly the JSON texts, with their value. -/
theorem parseJson_iff {doc : Bytes} {v : Json} : parseJson doc = some v ↔ IsJson doc v := by
  unfold parseJson
  constructor
  · intro h
    split at h
    · cases h
    · rename_i v' r hv
      split at h
      · rename_i hr
        cases h
        obtain ⟨w, x, rfl, hb, hx⟩ := (sound _).1 (Nat.zero_le _) hv
        obtain ⟨w', hw', hb'⟩ := skipWs_split r
        rw [hr, List.append_nil] at hw'
        exact ⟨w, x, r, rfl, hb, hx, by rw [hw']; exact hb'⟩
      · cases h
  · rintro ⟨w, x, w', rfl, hb, hx, hb'⟩
    rw [parseValue_blank hb, reads hx (f := 2 * (w ++ (x ++ w')).length + 2) (d := 0) ?_ (by simp [maxNesting]) (by simp; omega)]
    · simp only
      rw [if_pos]
      have := skipWs_blank hb' []
      rw [List.append_nil] at this
      rw [this]
      rfl
    · have := stop_blank hb' (r := []) (by intro c hc; cases hc)
      rwa [List.append_nil] at this

/-- A text is the JSON text of at most one value. -/
theorem isJson_unique {doc : Bytes} {v v' : Json} (h : IsJson doc v) (h' : IsJson doc v') : v = v' := by
  have := parseJson_iff.2 h
  rw [parseJson_iff.2 h'] at this
  cases this
  rfl

end Verif.Go
