import Verif.Ndt5.ProtocolLemmas
import Verif.Ndt5.LoginLemmas

/-!
# Properties of ndt5 messages (C01, C02, C03, C05, C06, C64)
-/

namespace Verif.Props
open Verif.Go Verif.Ndt5 Verif.Spec

/-! ## C01: framing round trip -/

/-- C01. What is written with the TLV writer is read back unchanged. -/
theorem C01_tlv_roundtrip (t : MsgType) (payload : Bytes) (accepted : List MsgType)
    (hlen : payload.length < 65536) (ht : t ∈ accepted) :
    readTLV (.ok (tlvFrame t payload)) accepted = .ok (payload, t) := by
  rw [readTLV_frame, if_pos ht, if_pos hlen]

example : readTLV (.ok (tlvFrame MsgType.testMsg (str "1234 0 99"))) [MsgType.msgLogin, MsgType.testMsg] =
    .ok (str "1234 0 99", MsgType.testMsg) :=
  C01_tlv_roundtrip _ _ _ (by decide) (by decide)

/-- C01. The bytes on the wire are the type, the big-endian 16-bit length and the payload. -/
theorem C01_wire_format (t : MsgType) (payload : Bytes) (hlen : payload.length < 65536) :
    ∃ hi lo : UInt8, tlvFrame t payload = t :: hi :: lo :: payload ∧
      hi.toNat * 256 + lo.toNat = payload.length := by
  refine ⟨_, _, rfl, ?_⟩
  rw [lenBytes_eq, Nat.mod_eq_of_lt hlen]

example : ∃ hi lo : UInt8, tlvFrame 1 (List.replicate 300 7) = 1 :: hi :: lo :: List.replicate 300 7 ∧
    hi.toNat * 256 + lo.toNat = (List.replicate 300 (7 : UInt8)).length :=
  C01_wire_format 1 (List.replicate 300 7) (by rw [List.length_replicate]; try omega)

/-- C01. Different messages have different frames. -/
theorem C01_frames_unambiguous (t t' : MsgType) (p p' : Bytes) (h : tlvFrame t p = tlvFrame t' p') :
    t = t' ∧ p = p' := by
  simp only [tlvFrame, List.cons.injEq] at h
  exact ⟨h.1, h.2.2.2⟩

example : tlvFrame 4 [] ≠ tlvFrame 6 [] := by
  intro h; exact absurd (C01_frames_unambiguous _ _ _ _ h).1 (by decide)

/-! ## C02: acceptance -/

/-- C02. A receive succeeds exactly on the well-formed frames of an accepted type, and returns
exactly the bytes after the header. -/
theorem C02_accepts_iff (received : Except Err Bytes) (accepted : List MsgType) (payload : Bytes) (t : MsgType) :
    readTLV received accepted = .ok (payload, t) ↔
      ∃ hi lo : UInt8, received = .ok (t :: hi :: lo :: payload) ∧ t ∈ accepted ∧
        hi.toNat * 256 + lo.toNat = payload.length := by
  constructor
  · intro h
    unfold readTLV at h
    split at h
    · cases h
    · split at h
      · rename_i hi lo _
        split at h
        · split at h
          · cases h; exact ⟨hi, lo, rfl, by assumption, by assumption⟩
          · cases h
        · cases h
      · cases h
  · rintro ⟨hi, lo, rfl, h1, h2⟩
    simp [readTLV, h1, h2]

example : readTLV (.ok [5, 0, 2, 104, 105]) [5] = .ok ([104, 105], 5) :=
  (C02_accepts_iff _ _ _ _).2 ⟨0, 2, rfl, by decide, by decide⟩

/-- C02. Every other delivery is an error, and the error names the reason: the transport's own
error, fewer than three bytes, a type that is not accepted, or a length that does not match. -/
theorem C02_error_reason (received : Except Err Bytes) (accepted : List MsgType) (e : TlvErr) :
    readTLV received accepted = .error e ↔
      match e with
      | .transport te => received = .error te
      | .tooShort => ∃ b, received = .ok b ∧ b.length < 3
      | .wrongType t => ∃ rest, received = .ok (t :: rest) ∧ 2 ≤ rest.length ∧ t ∉ accepted
      | .badLength d a => ∃ t hi lo p, received = .ok (t :: hi :: lo :: p) ∧ t ∈ accepted ∧
          d = hi.toNat * 256 + lo.toNat ∧ a = p.length ∧ d ≠ a := by
  cases received with
  | error te =>
    cases e <;> simp [readTLV]
  | ok b =>
    match b with
    | [] => cases e <;> simp [readTLV]
    | [_] => cases e <;> simp [readTLV]
    | [_, _] => cases e <;> simp [readTLV]
    | t :: hi :: lo :: p =>
      simp only [readTLV]
      by_cases h1 : t ∈ accepted
      · by_cases h2 : hi.toNat * 256 + lo.toNat = p.length
        · simp only [h1, h2, if_true]
          cases e <;> grind
        · simp only [h1, h2, if_true, if_false]
          cases e <;> grind
      · simp only [h1, if_false]
        cases e with
        | wrongType got =>
          constructor
          · intro h; cases h; exact ⟨_, rfl, by simp, h1⟩
          · rintro ⟨rest, h, -⟩; cases h; rfl
        | _ => grind

example : readTLV (.ok [9, 0, 0]) [5] = .error (.wrongType 9) :=
  (C02_error_reason _ _ (.wrongType 9)).2 ⟨[0, 0], rfl, by decide, by decide⟩

/-! ## C03: oversized payloads -/

/-- C03. A payload that does not fit the length field is reported as an error by every reader. -/
theorem C03_oversized_detected (t : MsgType) (payload : Bytes) (accepted : List MsgType)
    (hlen : 65536 ≤ payload.length) :
    ∃ e, readTLV (.ok (tlvFrame t payload)) accepted = .error e := by
  rw [readTLV_frame, if_neg (by omega : ¬ payload.length < 65536)]
  split <;> exact ⟨_, rfl⟩

example : ∃ e, readTLV (.ok (tlvFrame 5 (List.replicate 65536 0))) [5] = .error e :=
  C03_oversized_detected _ _ _ (by rw [List.length_replicate]; try omega)

/-! ## C05: JSON messages -/

/-- C05. Arbitrary bytes sent as a JSON message arrive with exactly the invalid UTF-8 bytes
replaced by U+FFFD, without an error. -/
theorem C05_json_roundtrip (t : MsgType) (text : Bytes)
    (hfit : (JsonMessage.marshal { msg := text }).length < 65536) :
    ∃ text', Repaired text text' ∧ Messager.json.receive (.ok (Messager.json.frame t text)) t = (some text', none) :=
  ⟨_, toValid_iff.1 rfl, receive_frame_json t text hfit⟩

/-- C05. Every Unicode text sent as a JSON message arrives unchanged. -/
theorem C05_json_roundtrip_text (t : MsgType) (text : String)
    (hfit : (JsonMessage.marshal { msg := text.toUTF8.data.toList }).length < 65536) :
    Messager.json.receive (.ok (Messager.json.frame t text.toUTF8.data.toList)) t =
      (some text.toUTF8.data.toList, none) := by
  rw [receive_frame_json t _ hfit, toUTF8_eq, toValid_of_valid (utf8Text_valid _)]

/-- C05. The text is escaped so that the JSON document is one object with the single member `msg`. -/
theorem C05_json_document (text : Bytes) :
    ∃ text', Repaired text text' ∧ IsJson (JsonMessage.marshal { msg := text }) (.obj [(str "msg", .str text')]) := by
  refine ⟨_, toValid_iff.1 rfl, ?_⟩
  rw [← parseJson_iff]
  unfold JsonMessage.marshal
  rw [parseJson_objectOfStrings (by simp)]
  simp [toValid_msg]

/-- C05. The login message of a client (text and test mask) is read back field by field. -/
theorem C05_json_login_roundtrip (t : MsgType) (m : JsonMessage) (hfit : m.marshal.length < 65536) :
    ∃ msg tests, Repaired m.msg msg ∧ Repaired m.tests tests ∧ receiveJSON (.ok (tlvFrame t m.marshal)) t = (some { msg := msg, tests := tests }, none) :=
  ⟨_, _, toValid_iff.1 rfl, toValid_iff.1 rfl, receiveJSON_frame t m hfit⟩

-- quotes, a backslash, a line break, an HTML character, U+2028 and an invalid byte
example : Messager.json.receive (.ok (Messager.json.frame MsgType.testMsg
      [34, 92, 10, 60, 0xE2, 0x80, 0xA8, 0xFF])) MsgType.testMsg =
    (some [34, 92, 10, 60, 0xE2, 0x80, 0xA8, 0xEF, 0xBF, 0xBD], none) :=
  receive_frame_json MsgType.testMsg [34, 92, 10, 60, 0xE2, 0x80, 0xA8, 0xFF] (by decide)

example : Messager.json.receive (.ok (Messager.json.frame 5 "λ<\"".toUTF8.data.toList)) 5 =
    (some "λ<\"".toUTF8.data.toList, none) :=
  C05_json_roundtrip_text 5 "λ<\"" (by rw [toUTF8_eq]; decide)

/-- C05 (legacy encoding). With TLV encoding the bytes arrive unchanged. -/
theorem C05_tlv_roundtrip (t : MsgType) (contents : Bytes) (hfit : contents.length < 65536) :
    Messager.tlv.receive (.ok (Messager.tlv.frame t contents)) t = (some contents, none) := by
  simp [Messager.receive, Messager.frame, readTLV_frame, hfit]

example : Messager.tlv.receive (.ok (Messager.tlv.frame 3 (str "3001"))) 3 = (some (str "3001"), none) :=
  C05_tlv_roundtrip 3 _ (by decide)

/-! ## C85: which frames are messages -/

/-- C85 (JSON encoding). A message of type `t` is received exactly if the frame is one message of that type whose payload is a JSON object in which `msg` and
`tests` (up to case) are strings or null; its contents are the last string given for `msg`, or empty. -/
theorem C85_json_received_iff (frame : Bytes) (t : MsgType) (c : Bytes) :
    Messager.json.receive (.ok frame) t = (some c, none) ↔
      ∃ doc kvs, IsFrame frame t doc ∧ IsJson doc (.obj kvs) ∧ MessageObject kvs ∧ (LastString "msg" kvs c ∨ NoString "msg" kvs ∧ c = []) := by
  unfold Messager.receive receiveJSON
  constructor
  · intro h
    cases hr : readTLV (.ok frame) [t] with
    | error e => rw [hr] at h; simp at h
    | ok p =>
      obtain ⟨doc, t'⟩ := p
      rw [hr] at h
      obtain ⟨hf, ht⟩ := readTLV_ok_iff.1 hr
      simp at ht
      subst ht
      simp only at h
      cases hu : unmarshal doc with
      | failed => rw [hu] at h; simp at h
      | null => rw [hu] at h; simp at h
      | ok m =>
        rw [hu] at h
        simp at h
        subst h
        obtain ⟨kvs, h1, h2, h3, -⟩ := unmarshal_ok.1 hu
        exact ⟨doc, kvs, hf, h1, h2, h3⟩
  · rintro ⟨doc, kvs, hf, h1, h2, h3⟩
    rw [readTLV_ok_iff.2 ⟨hf, by simp⟩]
    have ht := (foldl_store_tests (kvs := kvs) (m := {}) (e := false)).1 rfl
    have := unmarshal_ok.2 ⟨kvs, h1, h2, (show LastString "msg" kvs (JsonMessage.mk c _).msg ∨ _ from h3), ht.imp_right fun h => ⟨h.1, h.2.symm⟩⟩
    simp [this]

/-- C85 (login messages). Both fields are the last strings given for them, or empty. -/
theorem C85_login_received_iff (frame : Bytes) (t : MsgType) (m : JsonMessage) :
    receiveJSON (.ok frame) t = (some m, none) ↔
      ∃ doc kvs, IsFrame frame t doc ∧ IsJson doc (.obj kvs) ∧ MessageObject kvs ∧ (LastString "msg" kvs m.msg ∨ NoString "msg" kvs ∧ m.msg = []) ∧
        (LastString "tests" kvs m.tests ∨ NoString "tests" kvs ∧ m.tests = []) := by
  unfold receiveJSON
  constructor
  · intro h
    cases hr : readTLV (.ok frame) [t] with
    | error e => rw [hr] at h; simp at h
    | ok p =>
      obtain ⟨doc, t'⟩ := p
      rw [hr] at h
      obtain ⟨hf, ht⟩ := readTLV_ok_iff.1 hr
      simp at ht
      subst ht
      simp only at h
      cases hu : unmarshal doc with
      | failed => rw [hu] at h; simp at h
      | null => rw [hu] at h; simp at h
      | ok m =>
        rw [hu] at h
        simp at h
        subst h
        obtain ⟨kvs, h1, h2, h3⟩ := unmarshal_ok.1 hu
        exact ⟨doc, kvs, hf, h1, h2, h3⟩
  · rintro ⟨doc, kvs, hf, h1, h2, h3⟩
    rw [readTLV_ok_iff.2 ⟨hf, by simp⟩]
    simp [unmarshal_ok.2 ⟨kvs, h1, h2, h3⟩]

/-- C85 (TLV encoding). A message of type `t` is received exactly if the frame is one message of that type; its contents are the payload. -/
theorem C85_tlv_received_iff (frame : Bytes) (t : MsgType) (c : Bytes) : Messager.tlv.receive (.ok frame) t = (some c, none) ↔ IsFrame frame t c := by
  unfold Messager.receive
  constructor
  · intro h
    cases hr : readTLV (.ok frame) [t] with
    | error e => rw [hr] at h; simp at h
    | ok p =>
      obtain ⟨doc, t'⟩ := p
      rw [hr] at h
      obtain ⟨hf, ht⟩ := readTLV_ok_iff.1 hr
      simp at ht h
      subst ht h
      exact hf
  · intro h
    rw [readTLV_ok_iff.2 ⟨h, by simp⟩]

/-- C85. When no message is received there is an error. -/
theorem C85_never_silent (m : Messager) (r : Except Err Bytes) (t : MsgType) (h : (m.receive r t).2 = none) :
    ∃ c, m.receive r t = (some c, none) := by
  cases hm : m.receive r t with
  | mk a b =>
    rw [hm] at h
    simp only at h
    subst h
    cases a with
    | some c => exact ⟨c, rfl⟩
    | none =>
      exfalso
      unfold Messager.receive at hm
      cases m with
      | json => simp only at hm; split at hm <;> simp at hm
      | tlv => simp only at hm; split at hm <;> simp at hm

-- names in another case, the last of two, other members, white space
example : Messager.json.receive (.ok (tlvFrame 5 (str " {\"Msg\":\"a\",\"x\":[1],\"MSG\":\"\\u0062\",\"msg\":null}"))) 5 = (some (str "b"), none) := by decide +kernel

example : ∃ doc kvs, IsFrame (tlvFrame 5 (str "{\"mSg\":\"a\"}")) 5 doc ∧ IsJson doc (.obj kvs) ∧ MessageObject kvs ∧
    (LastString "msg" kvs (str "a") ∨ NoString "msg" kvs ∧ str "a" = []) := (C85_json_received_iff _ _ _).1 (by decide +kernel)

/-! ## C06: S2C results -/

/-- C06 (JSON). The client finds the three numbers under their names, as decimal strings. -/
theorem C06_s2c_results_json (kbps unsent total : Int)
    (h1 : InInt64 kbps) (h2 : InInt64 unsent) (h3 : InInt64 total) :
    ∃ doc x y z, readTLV (.ok (Messager.json.s2cFrame kbps unsent total)) [MsgType.testMsg] = .ok (doc, MsgType.testMsg) ∧
      IsJson doc (.obj [(str "ThroughputValue", .str x), (str "UnsentDataAmount", .str y),
        (str "TotalSentByte", .str z)]) ∧
      Decimal64 x kbps ∧ Decimal64 y unsent ∧ Decimal64 z total := by
  refine ⟨s2cResultJson kbps unsent total, itoa kbps, itoa unsent, itoa total, ?_, ?_,
    atoi_iff.1 (atoi_itoa h1), atoi_iff.1 (atoi_itoa h2), atoi_iff.1 (atoi_itoa h3)⟩
  · exact C01_tlv_roundtrip _ _ _ (s2cResultJson_length h1 h2 h3) (by simp)
  · rw [← parseJson_iff]
    unfold s2cResultJson
    rw [parseJson_objectOfStrings (by simp)]
    simp only [List.map_cons, List.map_nil, toValid_itoa]
    have e1 : toValid (str "ThroughputValue") = str "ThroughputValue" := by decide
    have e2 : toValid (str "UnsentDataAmount") = str "UnsentDataAmount" := by decide
    have e3 : toValid (str "TotalSentByte") = str "TotalSentByte" := by decide
    rw [e1, e2, e3]

/-- C06 (TLV). The client finds the three numbers separated by single spaces. -/
theorem C06_s2c_results_tlv (kbps unsent total : Int)
    (h1 : InInt64 kbps) (h2 : InInt64 unsent) (h3 : InInt64 total) :
    ∃ body x y z, readTLV (.ok (Messager.tlv.s2cFrame kbps unsent total)) [MsgType.testMsg] = .ok (body, MsgType.testMsg) ∧
      body = x ++ 32 :: (y ++ 32 :: z) ∧ 32 ∉ x ∧ 32 ∉ y ∧ 32 ∉ z ∧
      Decimal64 x kbps ∧ Decimal64 y unsent ∧ Decimal64 z total := by
  have nospace : ∀ v : Int, (32 : UInt8) ∉ itoa v := by
    intro v hv
    rcases itoa_chars _ hv with h | h
    · exact absurd h (by decide)
    · exact absurd h (by decide)
  refine ⟨_, itoa kbps, itoa unsent, itoa total, ?_, rfl, nospace _, nospace _, nospace _,
    atoi_iff.1 (atoi_itoa h1), atoi_iff.1 (atoi_itoa h2), atoi_iff.1 (atoi_itoa h3)⟩
  have l1 := itoa_length h1
  have l2 := itoa_length h2
  have l3 := itoa_length h3
  have := C01_tlv_roundtrip MsgType.testMsg (itoa kbps ++ 32 :: (itoa unsent ++ 32 :: itoa total)) [MsgType.testMsg]
    (by simp; omega) (by simp)
  simpa [Messager.s2cFrame] using this

example : ∃ doc x y z, readTLV (.ok (Messager.json.s2cFrame 94321 0 (-7))) [5] = .ok (doc, 5) ∧
    IsJson doc (.obj [(str "ThroughputValue", .str x), (str "UnsentDataAmount", .str y),
        (str "TotalSentByte", .str z)]) ∧
    Decimal64 x 94321 ∧ Decimal64 y 0 ∧ Decimal64 z (-7) :=
  C06_s2c_results_json 94321 0 (-7) (by decide) (by decide) (by decide)

example : ∃ body x y z, readTLV (.ok (Messager.tlv.s2cFrame 94321 0 (2^63-1))) [5] = .ok (body, 5) ∧
    body = x ++ 32 :: (y ++ 32 :: z) ∧ 32 ∉ x ∧ 32 ∉ y ∧ 32 ∉ z ∧
    Decimal64 x 94321 ∧ Decimal64 y 0 ∧ Decimal64 z (2^63-1) :=
  C06_s2c_results_tlv 94321 0 (2^63-1) (by decide) (by decide) (by decide)

/-! ## C64: names -/

/-- The message types with a name of their own. -/
private def known : List MsgType := [1, 2, 3, 4, 5, 6, 7, 8, 9, 10, 11]

private theorem name_unknown {a : MsgType} (h : a ∉ known) :
    MsgType.name a = str "UnknownMessage(0x" ++ MsgType.hexByte a ++ str ")" := by
  simp only [known, List.mem_cons, List.not_mem_nil, or_false, not_or] at h
  obtain ⟨h1, h2, h3, h4, h5, h6, h7, h8, h9, h10, h11⟩ := h
  simp only [MsgType.name, MsgType.srvQueue, MsgType.msgLogin, MsgType.testPrepare, MsgType.testStart, MsgType.testMsg,
    MsgType.testFinalize, MsgType.msgError, MsgType.msgResults, MsgType.msgLogout, MsgType.msgWaiting,
    MsgType.msgExtendedLogin, h1, h2, h3, h4, h5, h6, h7, h8, h9, h10, h11, if_false]

private theorem hexUp_toNat {n : Nat} (h : n < 16) : (MsgType.hexUp n).toNat = if n < 10 then 48 + n else 55 + n := by
  unfold MsgType.hexUp
  split <;> simp <;> omega

private theorem hexUp_inj {n m : Nat} (hn : n < 16) (hm : m < 16) (h : MsgType.hexUp n = MsgType.hexUp m) : n = m := by
  have := congrArg UInt8.toNat h
  rw [hexUp_toNat hn, hexUp_toNat hm] at this
  split at this <;> split at this <;> omega

private theorem hexByte_inj {a b : UInt8} (h : MsgType.hexByte a = MsgType.hexByte b) : a = b := by
  apply UInt8.toNat_inj.1
  have ha : a.toNat < 256 := a.toNat_lt
  have hb : b.toNat < 256 := b.toNat_lt
  unfold MsgType.hexByte at h
  split at h <;> split at h
  · simp only [List.cons.injEq, and_true] at h
    exact hexUp_inj (by assumption) (by assumption) h
  · simp at h
  · simp at h
  · simp only [List.cons.injEq, and_true] at h
    have h1 := hexUp_inj (by omega) (by omega) h.1
    have h2 := hexUp_inj (by omega) (by omega) h.2
    omega

/-- C64. Distinct message types have distinct names. -/
theorem C64_type_names_distinct (a b : MsgType) (h : MsgType.name a = MsgType.name b) : a = b := by
  have kk : ∀ a ∈ known, ∀ b ∈ known, MsgType.name a = MsgType.name b → a = b := by decide
  have ku : ∀ a ∈ known, ¬ (str "U").isPrefixOf (MsgType.name a) = true := by decide
  have uu : ∀ a, a ∉ known → (str "U").isPrefixOf (MsgType.name a) = true := by
    intro a ha
    rw [name_unknown ha, List.append_assoc, List.isPrefixOf_iff_prefix]
    have : str "U" <+: str "UnknownMessage(0x" := by decide
    exact this.trans (List.prefix_append _ _)
  by_cases ha : a ∈ known
  · by_cases hb : b ∈ known
    · exact kk a ha b hb h
    · exact absurd (uu b hb) (by rw [← h]; exact ku a ha)
  · by_cases hb : b ∈ known
    · exact absurd (uu a ha) (by rw [h]; exact ku b hb)
    · rw [name_unknown ha, name_unknown hb] at h
      exact hexByte_inj (List.append_cancel_left (List.append_cancel_right h))

/-- C64. No message type has an empty name. -/
theorem C64_type_names_nonempty (a : MsgType) : MsgType.name a ≠ [] := by
  by_cases ha : a ∈ known
  · have : ∀ a ∈ known, MsgType.name a ≠ [] := by decide
    exact this a ha
  · rw [name_unknown ha]; simp [str]

/-- C64. Distinct encoding values have distinct names, also the invalid ones. -/
theorem C64_encoding_names_distinct (e e' : Int) (h : encodingName e = encodingName e') : e = e' := by
  have hb : ∀ x : Int, str "Bad Encoding value: " ++ itoa x ≠ str "Unknown" ∧
      str "Bad Encoding value: " ++ itoa x ≠ str "JSON" ∧ str "Bad Encoding value: " ++ itoa x ≠ str "TLV" := by
    intro x
    refine ⟨?_, ?_, ?_⟩ <;> (intro hh; have := congrArg List.head? hh; revert this; simp [str])
  unfold encodingName at h
  have d1 : str "Unknown" ≠ str "JSON" := by decide
  have d2 : str "Unknown" ≠ str "TLV" := by decide
  have d3 : str "JSON" ≠ str "TLV" := by decide
  repeat' split at h
  all_goals first
    | (rename_i h1 h2; exact h1.trans h2.symm)
    | (rename_i _ h1 _ h2; exact h1.trans h2.symm)
    | (rename_i _ _ h1 _ _ h2; exact h1.trans h2.symm)
    | exact absurd h d1
    | exact absurd h.symm d1
    | exact absurd h d2
    | exact absurd h.symm d2
    | exact absurd h d3
    | exact absurd h.symm d3
    | exact absurd h (hb _).1
    | exact absurd h (hb _).2.1
    | exact absurd h (hb _).2.2
    | exact absurd h.symm (hb _).1
    | exact absurd h.symm (hb _).2.1
    | exact absurd h.symm (hb _).2.2
    | exact itoa_injective (List.append_cancel_left h)

/-- C64. The names of the encodings that clients can negotiate are the ones used in archival data. -/
theorem C64_encoding_names (e : Encoding) :
    encodingName e.toInt = match e with
      | .unknown => str "Unknown" | .json => str "JSON" | .tlv => str "TLV" := by
  cases e <;> rfl

example : MsgType.name 0xAB = str "UnknownMessage(0xAB)" := by decide
example : MsgType.name 200 ≠ MsgType.name 201 := fun h => absurd (C64_type_names_distinct _ _ h) (by decide)
example : encodingName 7 ≠ encodingName 8 := fun h => absurd (C64_encoding_names_distinct _ _ h) (by decide)

end Verif.Props
