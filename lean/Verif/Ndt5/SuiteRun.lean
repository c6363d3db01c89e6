import Verif.Ndt5.SuiteLemmas

/-! # The session after the login, put together from its parts -/

namespace Verif.Ndt5
open Verif.Go Verif.Spec

set_option maxRecDepth 20000
set_option linter.unusedSimpArgs false

/-! ## Bits -/

theorem hasBit_eq (tests : Int) (k : Nat) (hk : k < 64) : hasBit tests (2 ^ k) = requested tests k := by
  have h1 : (BitVec.ofInt 64 tests &&& BitVec.ofNat 64 (2 ^ k)) ≠ 0#64 ↔ (BitVec.ofInt 64 tests).getLsbD k = true := by
    have h2 : BitVec.ofNat 64 (2 ^ k) = BitVec.twoPow 64 k := by
      apply BitVec.eq_of_toNat_eq; simp [BitVec.toNat_twoPow]
    rw [h2, BitVec.and_twoPow]
    by_cases h : (BitVec.ofInt 64 tests).getLsbD k = true
    · simp only [h, if_true, iff_true]
      intro h0
      have := congrArg BitVec.toNat h0
      rw [BitVec.toNat_twoPow, Nat.mod_eq_of_lt (Nat.pow_lt_pow_right (by omega) hk)] at this
      simp at this
    · simp [h]
  unfold hasBit requested
  rw [Bool.eq_iff_iff, bne_iff_ne, h1, decide_eq_true_iff, BitVec.getLsbD, BitVec.toNat_ofInt, Nat.testBit_eq_decide_div_mod_eq,
    decide_eq_true_iff]
  have hn : (((tests % 2 ^ 64).toNat : Nat) : Int) = tests % 2 ^ 64 := Int.toNat_of_nonneg (Int.emod_nonneg _ (by decide))
  have hs : tests / 2 ^ k % 2 = (tests % 2 ^ 64) / 2 ^ k % 2 := by
    have hq := Int.mul_ediv_add_emod tests (2 ^ 64)
    generalize tests / 2 ^ 64 = q at hq
    generalize tests % 2 ^ 64 = r at hq
    have h64 : (2 : Int) ^ 64 = 2 ^ k * (2 * 2 ^ (63 - k)) := by
      rw [← Int.pow_succ', ← Int.pow_add]; congr 1; omega
    rw [← hq, h64, Int.mul_assoc, Int.add_comm, Int.add_mul_ediv_left _ _ (Int.ne_of_gt (Int.pow_pos (by decide))), Int.mul_assoc,
      Int.add_mul_emod_self_left]
  rw [hs, ← hn]
  norm_cast

theorem hasBit_c2s (tests : Int) : hasBit tests bitC2S = requested tests 1 := hasBit_eq tests 1 (by decide)
theorem hasBit_s2c (tests : Int) : hasBit tests bitS2C = requested tests 2 := hasBit_eq tests 2 (by decide)
theorem hasBit_meta (tests : Int) : hasBit tests bitMETA = requested tests 5 := hasBit_eq tests 5 (by decide)
theorem hasBit_status (tests : Int) : hasBit tests bitStatus = requested tests 4 := hasBit_eq tests 4 (by decide)
theorem hasBit_mid (tests : Int) : hasBit tests bitMID = requested tests 0 := hasBit_eq tests 0 (by decide)
theorem hasBit_sfw (tests : Int) : hasBit tests bitSFW = requested tests 3 := hasBit_eq tests 3 (by decide)

theorem announced_eq (tests : Int) : join [32] (testsToRun tests) = announced tests := by
  unfold testsToRun announced
  rw [hasBit_c2s, hasBit_s2c, hasBit_meta]
  cases requested tests 1 <;> cases requested tests 2 <;> cases requested tests 5 <;> decide

/-! ## Sending the first and the last messages -/

theorem label_of {word rest u : Bytes} {x : Err} (h : 32 ∉ word) (hw : word ∈ [str "Login", str "ParseInt", str "SrvQueue", str "MsgLoginVersion",
    str "MsgLoginTests", str "C2S", str "S2C", str "MsgResults", str "MsgLogout", str "META"]) :
    panicMsgToErrType (panicText (word ++ 32 :: rest) u x) = word := by
  have hf : firstWord 32 (panicText (word ++ 32 :: rest) u x) = word := by
    unfold firstWord panicText
    rw [cut_eq_some.2 ⟨?_, h⟩]
    rotate_right
    · simp only [List.append_assoc, List.cons_append]
      rfl
  unfold panicMsgToErrType
  simp only [hf, if_pos hw]

theorem label_SrvQueue (u : Bytes) (x : Err) : panicMsgToErrType (panicText (str "SrvQueue - Could not send SrvQueue") u x) = str "SrvQueue" :=
  label_of (word := str "SrvQueue") (rest := str "- Could not send SrvQueue") (by decide) (by decide)
theorem label_MsgLoginVersion (u : Bytes) (x : Err) : panicMsgToErrType (panicText (str "MsgLoginVersion - Could not send MsgLogin with version") u x) = str "MsgLoginVersion" :=
  label_of (word := str "MsgLoginVersion") (rest := str "- Could not send MsgLogin with version") (by decide) (by decide)
theorem label_MsgLoginTests (u : Bytes) (x : Err) : panicMsgToErrType (panicText (str "MsgLoginTests - Could not send MsgLogin with the tests") u x) = str "MsgLoginTests" :=
  label_of (word := str "MsgLoginTests") (rest := str "- Could not send MsgLogin with the tests") (by decide) (by decide)
theorem label_C2S (u : Bytes) (x : Err) : panicMsgToErrType (panicText (str "C2S - Could not run c2s test") u x) = str "C2S" :=
  label_of (word := str "C2S") (rest := str "- Could not run c2s test") (by decide) (by decide)
theorem label_S2C (u : Bytes) (x : Err) : panicMsgToErrType (panicText (str "S2C - Could not run s2c test") u x) = str "S2C" :=
  label_of (word := str "S2C") (rest := str "- Could not run s2c test") (by decide) (by decide)
theorem label_META (u : Bytes) (x : Err) : panicMsgToErrType (panicText (str "META - Could not run meta test") u x) = str "META" :=
  label_of (word := str "META") (rest := str "- Could not run meta test") (by decide) (by decide)
theorem label_MsgResults (u : Bytes) (x : Err) : panicMsgToErrType (panicText (str "MsgResults - Could not send test results message") u x) = str "MsgResults" :=
  label_of (word := str "MsgResults") (rest := str "- Could not send test results message") (by decide) (by decide)
theorem label_MsgLogout (u : Bytes) (x : Err) : panicMsgToErrType (panicText (str "MsgLogout - Could not send MsgLogout") u x) = str "MsgLogout" :=
  label_of (word := str "MsgLogout") (rest := str "- Could not send MsgLogout") (by decide) (by decide)
theorem label_Login (u : Bytes) (x : Err) : panicMsgToErrType (panicText (str "Login - error reading JSON message") u x) = str "Login" :=
  label_of (word := str "Login") (rest := str "- error reading JSON message") (by decide) (by decide)

/-- The events and the outcome of one message of the session. -/
theorem wp_sendOrPanic (m : Messager) (t : MsgType) (c text : Bytes) (s : Ctl) (P : List Ev → Outcome Unit → Ctl → Prop) :
    wp (sendOrPanic m t c text) s P ↔
      P [.call (.send (m.frame t c)) (.ok none)] (.ok ()) s ∧
      (∀ x, P [.call (.send (m.frame t c)) (.ok (some x))] (.panic (panicText text s.record.uuid x)) s) ∧
      ∀ msg, P [.call (.send (m.frame t c)) (.panic msg)] (.panic msg) s := by
  unfold sendOrPanic panicOnError
  wps []
  constructor
  · intro h
    exact ⟨h.1 none, fun x => h.1 (some x), h.2⟩
  · intro h
    refine ⟨?_, h.2.2⟩
    intro a
    cases a with
    | none => exact h.1
    | some x => exact h.2.1 x

/-- An event that sends a message on the control connection. -/
def isSend : Ev → Bool
  | .call (.send _) _ => true
  | _ => false

/-- The record after the greeting. -/
def Ctl.greeted (s : Ctl) (m : Messager) : Ctl := { s with record := { s.record with messageProtocol := encodingName m.encoding.toInt } }

theorem greet_spec (tests : Int) (m : Messager) (s : Ctl) : wp (greet tests m) s (fun e o s' =>
    s' = s.greeted m ∧ (∀ x ∈ e, isSend x = true) ∧
    OnScript [m.frame MsgType.srvQueue (str "0"), m.frame MsgType.msgLogin (str "v5.0-NDTinGO"), m.frame MsgType.msgLogin (announced tests)] e (∃ v, o = .ok v) ∧
    ∀ msg, o = .panic msg → NoCrash e → attempts e ≠ sent e ∧
      ((attempts e).length = 1 ∧ panicMsgToErrType msg = str "SrvQueue" ∨
       (attempts e).length = 2 ∧ panicMsgToErrType msg = str "MsgLoginVersion" ∨
       (attempts e).length = 3 ∧ panicMsgToErrType msg = str "MsgLoginTests")) := by
  refine wp_opaque fun Q hQ => ?_
  wp_paths [greet, wp_sendOrPanic, announced_eq]
  all_goals refine hQ _ _ _ ?_
  all_goals clear hQ
  all_goals refine ⟨rfl, by simp [isSend], ?_, ?_⟩
  all_goals first
    | (constructor <;> ev_simp []; done)
    | skip
  all_goals ev_simp [label_SrvQueue, label_MsgLoginVersion, label_MsgLoginTests, label_MsgResults, label_MsgLogout]

theorem farewell_spec (m : Messager) (c2sRate s2cRate : F64) (s : Ctl) : wp (farewell m c2sRate s2cRate) s (fun e o s' =>
    s' = s ∧ (∀ x ∈ e, isSend x = true) ∧
    OnScript [m.frame MsgType.msgResults (closingText c2sRate s2cRate), m.frame MsgType.msgLogout []] e (∃ v, o = .ok v) ∧
    ∀ msg, o = .panic msg → NoCrash e → attempts e ≠ sent e ∧
      ((attempts e).length = 1 ∧ panicMsgToErrType msg = str "MsgResults" ∨
       (attempts e).length = 2 ∧ panicMsgToErrType msg = str "MsgLogout")) := by
  refine wp_opaque fun Q hQ => ?_
  wp_paths [farewell, wp_sendOrPanic, show speedMsg c2sRate s2cRate = closingText c2sRate s2cRate from rfl]
  all_goals refine hQ _ _ _ ?_
  all_goals clear hQ
  all_goals refine ⟨rfl, by simp [isSend], ?_, ?_⟩
  all_goals first
    | (constructor <;> ev_simp []; done)
    | skip
  all_goals ev_simp [label_SrvQueue, label_MsgLoginVersion, label_MsgLoginTests, label_MsgResults, label_MsgLogout]

end Verif.Ndt5
