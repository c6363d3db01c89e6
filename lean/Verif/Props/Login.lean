import Verif.Ndt5.LoginLemmas

/-!
# Properties of ndt5 logins (C08, C09, C10)
-/

namespace Verif.Props
open Verif.Go Verif.Ndt5 Verif.Spec

/-! ## C09: raw TCP login -/

/-- C09. On the raw port a login succeeds with mask `n` exactly for a legacy login or an extended
login asking for `n`. -/
theorem C09_plain_login_iff (frame : Bytes) (n : Int) :
    (plainLogin (.ok frame)).2 = .ok n ↔ LegacyLogin frame n ∨ ExtendedLogin frame n := by
  unfold plainLogin
  constructor
  · intro h
    split at h
    · cases h
    · rename_i v t hr
      obtain ⟨hfr, ht⟩ := readTLV_ok_iff.1 hr
      split at h
      · rename_i hx
        right
        simp only at h
        split at h
        · cases h
        · rename_i tests htests
          have ha : atoi tests = some n := by
            unfold atoiE at h; split at h
            · cases h; assumption
            · cases h
          have hne := atoi_ne_nil ha
          unfold unmarshalTests at htests
          split at htests
          · cases htests
          · cases htests; exact absurd rfl hne
          · rename_i m hm
            cases htests
            obtain ⟨kvs, h1, h2, h3⟩ := (unmarshal_tests hne).1 ⟨m, hm, rfl⟩
            subst hx
            exact ⟨v, kvs, m.tests, hfr, h1, h2, h3, atoi_iff.1 ha⟩
      · split at h
        · rename_i hx
          left
          simp only at h
          split at h
          · rename_i b
            cases h
            subst hx
            exact ⟨b, hfr, rfl⟩
          · cases h
        · cases h
  · rintro (⟨b, hfr, rfl⟩ | ⟨doc, kvs, tests, hfr, hp, hmo, hl, hd⟩)
    · rw [readTLV_ok_iff.2 ⟨hfr, by decide⟩]
      rfl
    · have ha := atoi_iff.2 hd
      rw [readTLV_ok_iff.2 ⟨hfr, by decide⟩]
      obtain ⟨m, hm, hmt⟩ := (unmarshal_tests (atoi_ne_nil ha)).2 ⟨kvs, hp, hmo, hl⟩
      have : unmarshalTests doc = .ok tests := by simp [unmarshalTests, hm, hmt]
      simp only
      rw [if_pos (show (11 : MsgType) = MsgType.msgExtendedLogin from rfl)]
      simp [this, atoiE, ha]

/-- C09. If the transport fails, so does the login. -/
theorem C09_transport_error (e : Err) : (plainLogin (.error e)).2 = .error e := rfl

-- a legacy login for mask 22, and an extended one
example : (plainLogin (.ok [2, 0, 1, 22])).2 = .ok 22 :=
  (C09_plain_login_iff _ _).2 (Or.inl ⟨22, ⟨0, 1, rfl, by decide⟩, by decide⟩)

/-! ## C08: the login fixes the encoding -/

/-- C08. After a successful login on the raw port the encoding is TLV for a legacy login and JSON for
an extended login; in both cases a messager exists. -/
theorem C08_encoding_fixed (received : Except Err Bytes) (n : Int)
    (h : (plainLogin received).2 = .ok n) :
    ∃ t payload frame, received = .ok frame ∧ IsFrame frame t payload ∧
      ((t = 2 ∧ (plainLogin received).1 = .tlv ∧ (plainLogin received).1.messager = some .tlv) ∨
       (t = 11 ∧ (plainLogin received).1 = .json ∧ (plainLogin received).1.messager = some .json)) := by
  unfold plainLogin at h ⊢
  split at h
  · cases h
  · rename_i v t hr
    cases received with
    | error e => cases hr
    | ok frame =>
      obtain ⟨hfr, ht⟩ := readTLV_ok_iff.1 hr
      refine ⟨t, v, frame, rfl, hfr, ?_⟩
      split at h
      · rename_i hx; right; subst hx; simp; exact ⟨by decide, by decide⟩
      · split at h
        · rename_i h1 hx; left; subst hx; simp [h1]; exact ⟨by decide, by decide⟩
        · cases h

/-- C08. A first message that is neither a legacy nor an extended login is refused and leaves the encoding
undecided. -/
theorem C08_other_types_refused (frame : Bytes) (t : MsgType) (rest : Bytes)
    (hf : frame = t :: rest) (h2 : t ≠ 2) (h11 : t ≠ 11) :
    (plainLogin (.ok frame)).1 = .unknown ∧ ∃ e, (plainLogin (.ok frame)).2 = .error e := by
  have : ∀ v u, readTLV (.ok frame) [MsgType.msgLogin, MsgType.msgExtendedLogin] ≠ .ok (v, u) := by
    intro v u hr
    obtain ⟨⟨hi, lo, h1, _⟩, hu⟩ := readTLV_ok_iff.1 hr
    rw [hf] at h1
    simp at h1 hu
    rcases hu with hu | hu
    · exact h2 (h1.1.trans hu)
    · exact h11 (h1.1.trans hu)
  unfold plainLogin
  split
  · exact ⟨rfl, _, rfl⟩
  · rename_i hr; exact absurd hr (this _ _)

/-- C08. The messager of an encoding sends frames of exactly that encoding: TLV messages carry the
text itself, JSON messages an object with the text as `msg`. -/
theorem C08_messager_encoding (e : Encoding) (m : Messager) (h : e.messager = some m)
    (t : MsgType) (text : Bytes) :
    m.encoding = e ∧ m.frame t text = tlvFrame t (match e with
      | .tlv => text
      | _ => JsonMessage.marshal { msg := text }) := by
  cases e <;> cases h <;> exact ⟨rfl, rfl⟩

example : (plainLogin (.ok [2, 0, 1, 22])).1.messager = some .tlv := by decide
example : (plainLogin (.ok [7, 0, 0])).1 = .unknown :=
  (C08_other_types_refused _ 7 [0, 0] rfl (by decide) (by decide)).1

/-! ## C10: websocket login -/

/-- C10. On a websocket a login succeeds with mask `n` exactly for an extended login asking for `n`. -/
theorem C10_ws_login_iff (frame : Bytes) (n : Int) :
    wsLogin (.ok frame) = .ok (.ok n) ↔ ExtendedLogin frame n := by
  unfold wsLogin receiveJSON
  constructor
  · intro h
    cases hr : readTLV (.ok frame) [MsgType.msgExtendedLogin] with
    | error e => rw [hr] at h; simp at h
    | ok p =>
      obtain ⟨payload, t⟩ := p
      rw [hr] at h
      obtain ⟨hfr, ht⟩ := readTLV_ok_iff.1 hr
      simp at ht
      subst ht
      simp only at h
      cases hu : unmarshal payload with
      | failed => rw [hu] at h; simp at h
      | null => rw [hu] at h; simp at h
      | ok m =>
        rw [hu] at h
        simp only [Outcome.ok.injEq] at h
        have ha : atoi m.tests = some n := by
          unfold atoiE at h; split at h
          · cases h; assumption
          · cases h
        obtain ⟨kvs, h1, h2, h3⟩ := (unmarshal_tests (atoi_ne_nil ha)).1 ⟨m, hu, rfl⟩
        exact ⟨payload, kvs, m.tests, hfr, h1, h2, h3, atoi_iff.1 ha⟩
  · rintro ⟨doc, kvs, tests, hfr, hp, hmo, hl, hd⟩
    have ha := atoi_iff.2 hd
    obtain ⟨m, hm, rfl⟩ := (unmarshal_tests (atoi_ne_nil ha)).2 ⟨kvs, hp, hmo, hl⟩
    rw [readTLV_ok_iff.2 ⟨hfr, by decide⟩]
    simp [hm, atoiE, ha]

example : ExtendedLogin (tlvFrame 11 (str "{\"msg\":\"v3.7\",\"tests\":\"22\"}")) 22 :=
  (C10_ws_login_iff _ _).1 (by decide +kernel)

example : (plainLogin (.ok (tlvFrame 11 (str "{\"msg\":\"v3.7\",\"tests\":\"22\"}")))).2 = .ok 22 := by
  decide +kernel

/-- C10, exact extent of the defect: the websocket login crashes exactly when the client sends an extended
login whose payload is the JSON document `null`. -/
theorem C10_ws_login_crash_iff (frame : Bytes) :
    (∃ msg, wsLogin (.ok frame) = .panic msg) ↔
      ∃ doc, IsFrame frame 11 doc ∧ IsJson doc .null := by
  unfold wsLogin receiveJSON
  constructor
  · rintro ⟨msg, h⟩
    cases hr : readTLV (.ok frame) [MsgType.msgExtendedLogin] with
    | error e => rw [hr] at h; simp at h
    | ok p =>
      obtain ⟨payload, t⟩ := p
      rw [hr] at h
      obtain ⟨hfr, ht⟩ := readTLV_ok_iff.1 hr
      simp at ht
      subst ht
      simp only at h
      cases hu : unmarshal payload with
      | failed => rw [hu] at h; simp at h
      | null => exact ⟨payload, hfr, unmarshal_null.1 hu⟩
      | ok m => rw [hu] at h; simp at h
  · rintro ⟨doc, hfr, hp⟩
    rw [readTLV_ok_iff.2 ⟨hfr, by decide⟩]
    simp [unmarshal_null.2 hp]

/-- C10 is violated: there is a client message on which the login crashes instead of failing. -/
theorem C10_ws_login_never_crashes_false :
    ¬ ∀ frame, ∃ r, wsLogin (.ok frame) = .ok r := by
  intro h
  obtain ⟨r, hr⟩ := h (tlvFrame 11 (str "null"))
  exact absurd hr (by
    obtain ⟨msg, hm⟩ := (C10_ws_login_crash_iff (tlvFrame 11 (str "null"))).2
      ⟨str "null", ⟨0, 4, rfl, by decide⟩, parseJson_iff.1 rfl⟩
    rw [hm]; simp)

/-- C10, the part that holds: unless the payload is the JSON document `null`, the login returns, and it
returns an error unless the frame is an extended login. Missing for the full property: the `null` document. -/
theorem C10_ws_login_partial (frame : Bytes)
    (hnull : ∀ doc, IsFrame frame 11 doc → ¬ IsJson doc .null) :
    ∃ r, wsLogin (.ok frame) = .ok r ∧ ((∃ n, r = .ok n) ↔ ∃ n, ExtendedLogin frame n) := by
  cases hw : wsLogin (.ok frame) with
  | panic msg =>
    obtain ⟨doc, h1, h2⟩ := (C10_ws_login_crash_iff frame).1 ⟨msg, hw⟩
    exact absurd h2 (hnull doc h1)
  | ok r =>
    refine ⟨r, rfl, ?_⟩
    constructor
    · rintro ⟨n, rfl⟩; exact ⟨n, (C10_ws_login_iff _ _).1 hw⟩
    · rintro ⟨n, hn⟩
      have := (C10_ws_login_iff _ _).2 hn
      rw [hw] at this
      exact ⟨n, by simpa using this⟩

-- on the raw port the same payload is an ordinary login error
example : (plainLogin (.ok (tlvFrame 11 (str "null")))).2 = .error atoiError := by decide +kernel

example : wsLogin (.ok (tlvFrame 11 (str "{\"tests\":\"-1\"}"))) = .ok (.ok (-1)) := by decide +kernel
example : wsLogin (.ok (tlvFrame 11 (str "{\"tests\":16}"))) = .ok (.error jsonError) := by decide +kernel

end Verif.Props
