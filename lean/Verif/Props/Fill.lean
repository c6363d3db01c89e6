import Verif.Ndt5.Fill

/-!
# C65: the download filler
-/

namespace Verif.Props
open Verif.Go Verif.Ndt5

/-- The bytes accepted by the connection. -/
def acceptedBytes (evs : List FillEv) : Nat := (evs.map fun | .write _ k _ => k | _ => 0).sum

/-- The bytes accepted in writes that succeeded. -/
def acceptedOk (evs : List FillEv) : Nat := (evs.map fun | .write _ k none => k | _ => 0).sum

/-- A successful write accepted the whole buffer: the contract of writers. -/
def FullWrites (buf : Bytes) (as : List FillAns) : Prop := ∀ a ∈ as, a.err = none → a.accepted = buf.length

/-- Between the deadline and the failures: every write directly follows a reading of the clock before the deadline and succeeds,
up to the end, which is a reading at or after the deadline or a failing write. -/
inductive FillsUntil (deadline : Int) (buf : Bytes) : List FillEv → Option Err → Prop
  | deadline {t : Int} : deadline ≤ t → FillsUntil deadline buf [.clock t] none
  | failure {t : Int} {k : Nat} {e : Err} : t < deadline → FillsUntil deadline buf [.clock t, .write buf k (some e)] (some e)
  | write {t : Int} {k : Nat} {evs : List FillEv} {r : Option Err} : t < deadline → FillsUntil deadline buf evs r →
      FillsUntil deadline buf (.clock t :: .write buf k none :: evs) r

/-- The stream of bytes of the successful writes. -/
def fillStream : List FillEv → Bytes
  | [] => []
  | .write p _ none :: evs => p ++ fillStream evs
  | _ :: evs => fillStream evs

private theorem fill_loop (ws : Bool) (deadline : Int) (buf : Bytes) (as : List FillAns) (hf : ws = true → FullWrites buf as) :
    ∀ n0 evs n e, fillLoop ws deadline buf as n0 = (evs, some (n, e)) →
      FillsUntil deadline buf evs e ∧ n = n0 + acceptedOk evs ∧
      (∀ p k r, .write p k r ∈ evs → p = buf) ∧
      (e = none → acceptedBytes evs = acceptedOk evs) ∧
      (∃ k, fillStream evs = (List.replicate k buf).flatten) := by
  induction as with
  | nil => intro n0 evs n e h; simp [fillLoop] at h
  | cons a as ih =>
    intro n0 evs n e h
    have ih := ih (fun hw b hb => hf hw b (List.mem_cons_of_mem _ hb))
    rw [fillLoop] at h
    split at h
    · rename_i ht
      split at h
      · rename_i e' he
        cases h
        refine ⟨.failure ht, by simp [acceptedOk], ?_, by simp, 0, by simp [fillStream]⟩
        intro p k r hm
        simp at hm
        exact hm.1
      · rename_i he
        cases hr : fillLoop ws deadline buf as (n0 + if ws then buf.length else a.accepted) with
        | mk evs' r =>
        rw [hr] at h
        cases h
        obtain ⟨h1, h2, h3, h4, k, h5⟩ := ih _ _ _ _ hr
        refine ⟨.write ht h1, ?_, ?_, ?_, k + 1, ?_⟩
        · rw [h2]
          simp only [acceptedOk, List.map_cons, List.sum_cons]
          cases ws with
          | true => have := hf rfl a (by simp) he; simp; omega
          | false => simp; omega
        · intro p k r hm
          simp at hm
          rcases hm with hm | hm
          · exact hm.1
          · exact h3 p k r hm
        · intro he'
          have := h4 he'
          simp only [acceptedBytes, acceptedOk, List.map_cons, List.sum_cons] at this ⊢
          omega
        · simp [fillStream, h5, List.replicate_succ]
    · rename_i ht
      cases h
      refine ⟨.deadline (by omega), by simp [acceptedOk], by simp, by simp [acceptedOk, acceptedBytes], 0, by simp [fillStream]⟩

/-- C65 as far as it holds: for every buffer, deadline and sequence of clock readings and write outcomes, on both kinds of connection,
when `FillUntil` returns it has written only the given buffer, again and again, each time after seeing a clock before the
deadline; it ended at the deadline or at the first failing write, and returned the error of that write; the count is
the number of bytes of the successful writes. Without an error this is the number of all bytes accepted by the connection. Missing: bytes
accepted by the write that failed, see `C65_partial_write_false`. (On a websocket, success means that the whole message was
written.) -/
theorem C65_fill_partial (ws : Bool) (deadline : Int) (buf : Bytes) (as : List FillAns) (evs : List FillEv) (n : Nat) (e : Option Err)
    (hf : ws = true → FullWrites buf as) (h : fillUntil ws none deadline buf as = (evs, some (n, e))) :
    FillsUntil deadline buf evs e ∧ n = acceptedOk evs ∧ (e = none → n = acceptedBytes evs) ∧
    (∃ k, fillStream evs = (List.replicate k buf).flatten) := by
  have h' : fillLoop ws deadline buf as 0 = (evs, some (n, e)) := by
    unfold fillUntil at h
    cases ws <;> exact h
  obtain ⟨h1, h2, h3, h4, h5⟩ := fill_loop ws deadline buf as hf _ _ _ _ h'
  refine ⟨h1, by omega, fun he => ?_, h5⟩
  have := h4 he
  omega

/-- If the message cannot be prepared nothing is written and the error is returned. -/
theorem C65_not_prepared (e : Err) (deadline : Int) (buf : Bytes) (as : List FillAns) :
    fillUntil true (some e) deadline buf as = ([], some (0, some e)) := rfl

/-- C65: the download test writes 8192 bytes, byte `i` being `33 + (101·i mod 89)`, all of them printable. -/
theorem C65_pattern : dataToSend.length = 8192 ∧ (∀ b ∈ dataToSend, 33 ≤ b.toNat ∧ b.toNat ≤ 121) ∧
    ∀ i, i < 8192 → (dataToSend[i]?).map UInt8.toNat = some (33 + 101 * i % 89) := by
  refine ⟨by simp [dataToSend], fun b hb => ?_, fun i hi => ?_⟩
  · simp only [dataToSend, List.mem_map] at hb
    obtain ⟨i, -, rfl⟩ := hb
    have h := Nat.mod_lt (i * 101) (y := 122 - 33) (by decide)
    rw [UInt8.toNat_ofNat', Nat.mod_eq_of_lt (by omega)]
    omega
  · have h := Nat.mod_lt (i * 101) (y := 122 - 33) (by decide)
    have e : dataToSend[i]? = some (UInt8.ofNat ((i * 101) % (122 - 33) + 33)) := by simp [dataToSend, hi]
    rw [e, Option.map_some, UInt8.toNat_ofNat', Nat.mod_eq_of_lt (by omega), Nat.mul_comm 101 i, Nat.add_comm]

/-- C65 fails in one corner: if a raw write fails after some bytes were accepted, these are not in the count. -/
theorem C65_partial_write_false : ¬ ∀ (ws : Bool) (deadline : Int) (buf : Bytes) (as : List FillAns) (evs : List FillEv) (n : Nat) (e : Option Err),
    (ws = true → FullWrites buf as) → fillUntil ws none deadline buf as = (evs, some (n, e)) → n = acceptedBytes evs := by
  intro h
  have := h false 10 (str "abc") [⟨1, 3, none⟩, ⟨2, 1, some (str "connection reset")⟩] _ _ _ (by simp) rfl
  revert this
  decide

/-- Two writes and the deadline. -/
example : ∃ evs, fillUntil true none 10 (str "abc") [⟨1, 3, none⟩, ⟨5, 3, none⟩, ⟨10, 0, none⟩] = (evs, some (6, none)) ∧
    fillStream evs = str "abcabc" := ⟨_, rfl, by decide⟩

end Verif.Props
