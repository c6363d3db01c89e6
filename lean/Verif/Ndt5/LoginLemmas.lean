import Verif.Ndt5.Login
import Verif.Ndt5.ProtocolLemmas
import Verif.Spec.Login
import Verif.Go.JsonParse
import Verif.Go.DecimalLemmas

/-! # Lemmas about decoding login messages -/

namespace Verif.Ndt5
open Verif.Go Verif.Spec

theorem atoi_nil : atoi [] = none := rfl

/-- Small letters other than `k`. -/
private def PlainName (name : Bytes) : Prop := ∀ c ∈ name, 97 ≤ c ∧ c ≤ 122 ∧ c ≠ 107

private theorem foldKey_cons {b : UInt8} {t : Bytes} (h : b ≠ 0xC5) : foldKey (b :: t) = (if 97 ≤ b ∧ b ≤ 122 then b - 32 else b) :: foldKey t := by
  rw [foldKey]
  intro t' h'
  cases h'
  exact fun _ => h rfl

private theorem foldKey_same {name key : Bytes} (hn : PlainName name) : foldKey key = name.map (· - 32) ↔ SameName name key := by
  constructor
  · intro h
    induction key using foldKey.induct generalizing name with
    | case1 t ih =>
      rw [foldKey] at h
      cases name with
      | nil => cases h
      | cons c name =>
        simp only [List.map_cons, List.cons.injEq] at h
        obtain ⟨h1, h2⟩ := h
        have hc := hn c (by simp)
        have : c = 115 := by
          simp only [← UInt8.toNat_inj, UInt8.le_iff_toNat_le, UInt8.toNat_sub, UInt8.reduceToNat] at *
          omega
        subst this
        exact .cons (b := [0xC5, 0xBF]) (.inr (.inr (.inr (.inl ⟨.inr rfl, rfl⟩)))) (ih (fun c hc => hn c (by simp [hc])) h2)
    | case2 b t hb ih =>
      rw [foldKey] at h
      · cases name with
        | nil => cases h
        | cons c name =>
          simp only [List.map_cons, List.cons.injEq] at h
          obtain ⟨h1, h2⟩ := h
          have hc := hn c (by simp)
          refine .cons (b := [b]) ?_ (ih (fun c hc => hn c (by simp [hc])) h2)
          split at h1
          · left
            have : b = c := by
              simp only [← UInt8.toNat_inj, UInt8.le_iff_toNat_le, UInt8.toNat_sub, UInt8.reduceToNat] at *
              omega
            rw [this]
          · exact .inr (.inl ⟨hc.1, hc.2.1, by rw [h1]⟩)
      · exact hb
    | case3 =>
      cases name with
      | nil => exact .nil
      | cons c name => cases h
  · intro h
    induction h with
    | nil => rfl
    | @cons c b name key hl _ ih =>
      have hc := hn c (by simp)
      have ih := ih (fun c hc => hn c (by simp [hc]))
      have hk : SameLetter c b → b = [c] ∨ b = [c - 32] ∨ (c = 115 ∧ b = [0xC5, 0xBF]) := by
        rintro (h | ⟨_, _, h⟩ | ⟨h1, h2, h⟩ | ⟨h1, h⟩ | ⟨h1, h⟩)
        · exact .inl h
        · exact .inr (.inl h)
        · simp only [UInt8.le_iff_toNat_le, UInt8.reduceToNat] at *
          omega
        · rcases h1 with rfl | rfl
          · exact absurd hc.1 (by decide)
          · exact .inr (.inr ⟨rfl, h⟩)
        · rcases h1 with rfl | rfl
          · exact absurd hc.1 (by decide)
          · exact absurd rfl hc.2.2
      rcases hk hl with rfl | rfl | ⟨rfl, rfl⟩
      · rw [List.singleton_append, foldKey_cons, if_pos ⟨hc.1, hc.2.1⟩, ih]; · rfl
        rintro rfl
        exact absurd hc.2.1 (by decide)
      · rw [List.singleton_append, foldKey_cons, if_neg, ih]; · rfl
        all_goals
          simp only [ne_eq, ← UInt8.toNat_inj, UInt8.le_iff_toNat_le, UInt8.toNat_sub, UInt8.reduceToNat] at *
          omega
      · show foldKey (0xC5 :: 0xBF :: key) = _
        rw [foldKey, ih]; rfl

theorem fieldOf_msg_iff {k : Bytes} : fieldOf k = .msg ↔ SameName (str "msg") k := by
  rw [← foldKey_same (by unfold PlainName; decide), show (str "msg").map (· - 32) = str "MSG" by decide]
  unfold fieldOf
  split
  · simp_all
  · split <;> simp_all

theorem fieldOf_tests_iff {k : Bytes} : fieldOf k = .tests ↔ SameName (str "tests") k := by
  rw [← foldKey_same (by unfold PlainName; decide), show (str "tests").map (· - 32) = str "TESTS" by decide]
  unfold fieldOf
  split
  · rename_i h
    rw [h]
    simp only [reduceCtorEq, false_iff]
    decide
  · split <;> simp_all

theorem foldl_store_err {kvs : List (Bytes × Json)} {m : JsonMessage} {e : Bool} :
    (kvs.foldl storeMember (m, e)).2 = true ↔ e = true ∨ ¬ MessageObject kvs := by
  induction kvs generalizing m e with
  | nil => simp [MessageObject]
  | cons kv kvs ih =>
    obtain ⟨k, v⟩ := kv
    simp only [List.foldl_cons]
    have hcons : MessageObject ((k, v) :: kvs) ↔
        (fieldOf k = .msg ∨ fieldOf k = .tests → (∃ s, v = .str s) ∨ v = .null) ∧ MessageObject kvs := by
      simp [MessageObject, fieldOf_msg_iff, fieldOf_tests_iff]
    rw [hcons]
    cases hf : fieldOf k with
    | other => simp only [storeMember, hf]; rw [ih]; simp
    | msg =>
      cases v <;> simp only [storeMember, hf] <;> rw [ih] <;> simp
    | tests =>
      cases v <;> simp only [storeMember, hf] <;> rw [ih] <;> simp

private theorem lastString_cons {name : String} {k : Bytes} {v : Json} {kvs : List (Bytes × Json)} {s : Bytes} : LastString name ((k, v) :: kvs) s ↔
    LastString name kvs s ∨ (SameName (str name) k ∧ v = .str s ∧ NoString name kvs) := by
  constructor
  · rintro ⟨before, k', after, h1, h2, h3⟩
    cases before with
    | nil =>
      simp at h1
      obtain ⟨⟨rfl, rfl⟩, rfl⟩ := h1
      exact Or.inr ⟨h2, rfl, h3⟩
    | cons b before =>
      simp at h1
      exact Or.inl ⟨before, k', after, h1.2, h2, h3⟩
  · rintro (⟨before, k', after, h1, h2, h3⟩ | ⟨h1, h2, h3⟩)
    · exact ⟨(k, v) :: before, k', after, by rw [h1]; rfl, h2, h3⟩
    · exact ⟨[], k, kvs, by rw [h2]; rfl, h1, h3⟩

private theorem noString_cons {name : String} {k : Bytes} {v : Json} {kvs : List (Bytes × Json)} : NoString name ((k, v) :: kvs) ↔
    (SameName (str name) k → ¬ ∃ s', v = .str s') ∧ NoString name kvs := by
  simp [NoString]

/-- The `tests` member after storing the members `kvs`. -/
theorem foldl_store_tests {kvs : List (Bytes × Json)} {m : JsonMessage} {e : Bool} {s : Bytes} :
    (kvs.foldl storeMember (m, e)).1.tests = s ↔
      LastString "tests" kvs s ∨ (NoString "tests" kvs ∧ m.tests = s) := by
  induction kvs generalizing m e with
  | nil =>
    simp [LastString, NoString]
  | cons kv kvs ih =>
    obtain ⟨k, v⟩ := kv
    simp only [List.foldl_cons]
    rw [lastString_cons, noString_cons, ← fieldOf_tests_iff]
    cases hf : fieldOf k with
    | other => simp only [storeMember, hf]; rw [ih]; simp
    | msg =>
      cases v <;> simp only [storeMember, hf] <;> rw [ih] <;> simp
    | tests =>
      cases v <;> simp only [storeMember, hf] <;> rw [ih] <;> simp [eq_comm]
      · rw [and_comm]

/-- The `msg` member after storing the members `kvs`. -/
theorem foldl_store_msg {kvs : List (Bytes × Json)} {m : JsonMessage} {e : Bool} {s : Bytes} :
    (kvs.foldl storeMember (m, e)).1.msg = s ↔
      LastString "msg" kvs s ∨ (NoString "msg" kvs ∧ m.msg = s) := by
  induction kvs generalizing m e with
  | nil =>
    simp [LastString, NoString]
  | cons kv kvs ih =>
    obtain ⟨k, v⟩ := kv
    simp only [List.foldl_cons]
    rw [lastString_cons, noString_cons, ← fieldOf_msg_iff]
    cases hf : fieldOf k with
    | other => simp only [storeMember, hf]; rw [ih]; simp
    | tests =>
      cases v <;> simp only [storeMember, hf] <;> rw [ih] <;> simp
    | msg =>
      cases v <;> simp only [storeMember, hf] <;> rw [ih] <;> simp [eq_comm]
      · rw [and_comm]

/-- What decoding a message yields. -/
theorem unmarshal_ok {doc : Bytes} {m : JsonMessage} : unmarshal doc = .ok m ↔
    ∃ kvs, IsJson doc (.obj kvs) ∧ MessageObject kvs ∧ (LastString "msg" kvs m.msg ∨ (NoString "msg" kvs ∧ m.msg = [])) ∧
      (LastString "tests" kvs m.tests ∨ (NoString "tests" kvs ∧ m.tests = [])) := by
  simp only [← parseJson_iff]
  unfold unmarshal
  cases hp : parseJson doc with
  | none => simp
  | some j =>
    cases j with
    | obj kvs =>
      simp only [Option.some.injEq, Json.obj.injEq, exists_eq_left']
      have h1 := foldl_store_err (kvs := kvs) (m := {}) (e := false)
      have h2 := foldl_store_tests (kvs := kvs) (m := {}) (e := false) (s := m.tests)
      have h3 := foldl_store_msg (kvs := kvs) (m := {}) (e := false) (s := m.msg)
      rw [eq_comm] at h2 h3
      constructor
      · intro hm
        split at hm
        · cases hm
        · rename_i hne2
          cases hm
          refine ⟨?_, ?_, ?_⟩
          · by_cases hmo : MessageObject kvs
            · exact hmo
            · exact absurd (h1.2 (Or.inr hmo)) hne2
          · rcases h3.1 rfl with h | ⟨h, h'⟩
            · exact .inl h
            · exact .inr ⟨h, h'.symm⟩
          · rcases h2.1 rfl with h | ⟨h, h'⟩
            · exact .inl h
            · exact .inr ⟨h, h'.symm⟩
      · rintro ⟨hmo, hm, ht⟩
        have : ¬ (kvs.foldl storeMember ({}, false)).2 = true := by
          intro h; rcases h1.1 h with h | h
          · cases h
          · exact h hmo
        rw [if_neg this]
        have e2 := h2.2 (ht.imp_right fun h => ⟨h.1, h.2.symm⟩)
        have e3 := h3.2 (hm.imp_right fun h => ⟨h.1, h.2.symm⟩)
        congr 1
        cases m
        simp only at e2 e3
        rw [JsonMessage.mk.injEq]
        exact ⟨e3.symm, e2.symm⟩
    | _ => simp

/-- Decoding succeeds with a `tests` text exactly for acceptable objects with that text. -/
theorem unmarshal_tests {doc : Bytes} {tests : Bytes} (hne : tests ≠ []) :
    (∃ m, unmarshal doc = .ok m ∧ m.tests = tests) ↔
      ∃ kvs, IsJson doc (.obj kvs) ∧ MessageObject kvs ∧ LastString "tests" kvs tests := by
  constructor
  · rintro ⟨m, hm, rfl⟩
    obtain ⟨kvs, h1, h2, -, h | ⟨-, h⟩⟩ := unmarshal_ok.1 hm
    · exact ⟨kvs, h1, h2, h⟩
    · exact absurd h hne
  · rintro ⟨kvs, h1, h2, h3⟩
    have hm := (foldl_store_msg (kvs := kvs) (m := {}) (e := false)).1 rfl
    exact ⟨⟨_, tests⟩, unmarshal_ok.2 ⟨kvs, h1, h2, hm.imp_right fun h => ⟨h.1, h.2.symm⟩, .inl h3⟩, rfl⟩

theorem unmarshal_null {doc : Bytes} : unmarshal doc = .null ↔ IsJson doc .null := by
  rw [← parseJson_iff]
  unfold unmarshal
  cases hp : parseJson doc with
  | none => simp
  | some j =>
    cases j <;> simp
    split <;> simp

theorem atoi_ne_nil {s : Bytes} {n : Int} (h : atoi s = some n) : s ≠ [] := by
  rintro rfl; cases h

theorem readTLV_ok_iff {frame : Bytes} {accepted : List MsgType} {payload : Bytes} {t : MsgType} :
    readTLV (.ok frame) accepted = .ok (payload, t) ↔ IsFrame frame t payload ∧ t ∈ accepted := by
  constructor
  · intro h
    simp only [readTLV] at h
    split at h
    · rename_i hi lo _
      split at h
      · split at h
        · cases h; exact ⟨⟨hi, lo, rfl, by assumption⟩, by assumption⟩
        · cases h
      · cases h
    · cases h
  · rintro ⟨⟨hi, lo, rfl, h2⟩, h1⟩
    simp [readTLV, h1, h2]

end Verif.Ndt5
