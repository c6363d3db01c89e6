import Verif.Ndt5.NetConnLemmas

/-!
# Properties of reading from TCP connections (C04, C11)
-/

namespace Verif.Props
open Verif.Go Verif.Ndt5 Verif.Spec

/-! ## C04: message boundaries over TCP -/

/-- C04 is violated: the full claim would be that however the network cuts the bytes of a message, the reader
returns this message. -/
theorem C04_segmentation_independent_false :
    ¬ ∀ (t : MsgType) (payload : Bytes) (segs : Segs), payload.length ≤ 65535 → [] ∉ segs →
      segs.flatten = wire [(t, payload)] → (netReadAll 1 segs).1 = [(t, payload)] := by
  intro h
  have := h 5 [104, 105] [[5, 0, 2, 104], [105]] (by decide) (by decide) (by decide)
  exact absurd this (by decide)

/-- C04, the part that holds: if no piece ends inside a header or a body, reading returns exactly the messages sent and
nothing is left. Missing for the full property: pieces that end inside a header or body. -/
theorem C04_segmentation_partial (ms : List (MsgType × Bytes)) (segs : Segs)
    (hsize : ∀ m ∈ ms, m.2.length ≤ 65535) (hw : WholeParts ms segs) :
    netReadAll ms.length segs = (ms, []) := by
  obtain ⟨groups, hf, rfl, hg⟩ := hw
  induction ms generalizing groups with
  | nil =>
    have : groups = [] := by
      cases groups with
      | nil => rfl
      | cons g gs =>
        have h1 := hg g (by simp)
        have h2 := hf
        simp at h2
        exact absurd h2.1 h1
    subst this
    rfl
  | cons m ms ih =>
    obtain ⟨groups', h1, h2, h3⟩ := netReceive_groups (m := m) (rest := ms.flatMap messageParts)
      (hsize m (by simp)) (by simpa using hf) hg (by
        intro q hq
        simp at hq
        obtain ⟨t, p, h4, h5⟩ := hq
        exact messageParts_ne q h5)
    have ih' := ih (fun m hm => hsize m (by simp [hm])) groups' h2 h3
    have hr := readTLV_frame_ok m.1 m.2 [m.1] (hsize m (by simp)) (by simp)
    simp only [List.length_cons, netReadAll, h1]
    have : (tlvFrame m.1 m.2).take 1 = [m.1] := rfl
    rw [this, hr]
    simp only [ih']

/-- C04: pieces made of whole parts carry exactly the bytes sent. -/
theorem C04_whole_parts_wire (ms : List (MsgType × Bytes)) (segs : Segs) (hw : WholeParts ms segs) :
    segs.flatten = wire ms := by
  obtain ⟨groups, hf, rfl, _⟩ := hw
  have hparts : ∀ m : MsgType × Bytes, (messageParts m).flatten = tlvFrame m.1 m.2 := by
    intro m
    unfold messageParts
    simp only
    split
    · rename_i h; rw [h]; simp [tlvFrame]
    · simp [tlvFrame]
  have : (groups.map List.flatten).flatten = groups.flatten.flatten := by
    clear hf
    induction groups with
    | nil => rfl
    | cons g gs ih => simp_all
  rw [this, hf]
  clear hf this
  induction ms with
  | nil => rfl
  | cons m ms ih => simp [wire, hparts] at ih ⊢; exact ih

/-- C04, what happens in the remaining case: if the body arrives in more than one piece, the reader reports a message
whose body is the first piece followed by zeros, and the next read starts inside the body. -/
theorem C04_short_read_zero_filled (t hi lo : UInt8) (part : Bytes) (rest : Segs)
    (hlt : part.length < hi.toNat * 256 + lo.toNat) :
    netReceive ([t, hi, lo] :: part :: rest) =
      (.ok ([t, hi, lo] ++ part ++ List.replicate (hi.toNat * 256 + lo.toNat - part.length) 0), rest) := by
  unfold netReceive netReadMessage
  rw [readOnce_whole (by omega) (by simp)]
  have hpad : padTo 3 [t, hi, lo] = [t, hi, lo] := rfl
  simp only [hpad, List.getD_cons_succ, List.getD_cons_zero]
  rw [readOnce_whole (by omega) (by omega)]
  simp [padTo]

/-- C04: the length check of `ReadTLVMessage` can never fail on a TCP connection: whatever arrives, the result is
accepted (if its type is) or the transport failed. -/
theorem C04_length_check_vacuous (segs : Segs) (accepted : List MsgType) (err : TlvErr)
    (h : readTLV (netReceive segs).1 accepted = .error err) :
    (∃ e, err = .transport e) ∨ ∃ t, t ∉ accepted ∧ err = .wrongType t := by
  unfold netReceive at h
  match hrm : netReadMessage segs with
  | ((b, some e), rest) =>
    rw [hrm] at h
    simp only [readTLV, Except.error.injEq] at h
    exact Or.inl ⟨e, h.symm⟩
  | ((b, none), rest) =>
    rw [hrm] at h
    simp only at h
    right
    obtain ⟨t, hi, lo, payload, rfl, hl⟩ : ∃ t hi lo payload, b = t :: hi :: lo :: payload ∧
        hi.toNat * 256 + lo.toNat = payload.length := by
      unfold netReadMessage at hrm
      match h3 : readOnce 3 segs with
      | (.error e, s1) => rw [h3] at hrm; simp at hrm
      | (.ok hd, s1) =>
        rw [h3] at hrm
        simp only at hrm
        have hhd : hd.length ≤ 3 := by
          simp only [readOnce] at h3
          rw [if_neg (by omega)] at h3
          split at h3
          · cases h3
          · split at h3
            · cases h3; simp; omega
            · cases h3; omega
        obtain ⟨t, hi, lo, hpad⟩ : ∃ t hi lo, padTo 3 hd = [t, hi, lo] := by
          have := padTo_length 3 hd hhd
          match padTo 3 hd, this with
          | [t, hi, lo], _ => exact ⟨t, hi, lo, rfl⟩
        rw [hpad] at hrm
        simp only [List.getD_cons_succ, List.getD_cons_zero] at hrm
        generalize hsz : hi.toNat * 256 + lo.toNat = size at hrm
        match h4 : readOnce size s1 with
        | (.error e, s2) => rw [h4] at hrm; simp at hrm
        | (.ok body, s2) =>
          rw [h4] at hrm
          simp at hrm
          refine ⟨t, hi, lo, padTo size body, hrm.1.symm, ?_⟩
          rw [padTo_length]
          · exact hsz
          · simp only [readOnce] at h4
            split at h4
            · cases h4; simp
            · split at h4
              · cases h4
              · split at h4
                · cases h4; simp; omega
                · cases h4; omega
    simp only [readTLV] at h
    split at h
    · cases h
    · cases h; exact ⟨t, by assumption, rfl⟩

-- two messages, the first piece containing a header, its body and the next header
example : netReadAll 2 [[5, 0, 2, 104, 105, 6, 0, 1], [33]] = ([(5, [104, 105]), (6, [33])], []) :=
  C04_segmentation_partial [(5, [104, 105]), (6, [33])] _ (by decide)
    ⟨[[[5, 0, 2], [104, 105], [6, 0, 1]], [[33]]], by decide, by decide, by decide⟩

example : netReceive [[5, 0, 3], [104], [105]] = (.ok [5, 0, 3, 104, 0, 0], [[105]]) :=
  C04_short_read_zero_filled 5 0 3 [104] [[105]] (by decide)

-- the hypothesis of the vacuity theorem is reachable: a wrong type
example : readTLV (netReceive [[9, 0, 0]]).1 [2, 11] = .error (.wrongType 9) := by rfl

/-! ## C11: sniffing -/

/-- C11. The first three bytes alone decide what happens to a connection, however they are cut into pieces, and no
byte of the stream is lost or reordered by looking at them. -/
theorem C11_sniff (segs : Segs) :
    match sniff segs with
    | .dropped => segs.flatten.length < 3
    | .forwarded segs' => segs.flatten.take 3 = str "GET" ∧ segs'.flatten = segs.flatten
    | .control kickoff segs' => 3 ≤ segs.flatten.length ∧ segs.flatten.take 3 ≠ str "GET" ∧
        segs'.flatten = segs.flatten ∧ kickoff = str "123456 654321" := by
  have h := peekAux_spec 3 [] segs
  unfold sniff peek
  split at h
  · rename_i hn; rw [hn]; simpa using h
  · rename_i lead segs' hn
    rw [hn]
    obtain ⟨h1, h2, b, rest, h3, h4, h5⟩ := h
    simp only [List.nil_append, List.length_nil, Nat.zero_add] at h1 h2 h5
    simp only
    subst h2
    by_cases hg : segs.flatten.take 3 = str "GET"
    · rw [if_pos hg]; exact ⟨hg, h5⟩
    · rw [if_neg hg]; exact ⟨h1, hg, h5, rfl⟩

/-- C11. A client starting with a login message (type 2 or 11) and any two further bytes is never
taken for a web client or dropped. -/
theorem C11_login_reaches_control (segs : Segs) (t hi lo : UInt8) (rest : Bytes)
    (ht : t = 2 ∨ t = 11) (hs : segs.flatten = t :: hi :: lo :: rest) :
    ∃ segs', sniff segs = .control (str "123456 654321") segs' ∧ segs'.flatten = segs.flatten := by
  have h := C11_sniff segs
  cases hc : sniff segs with
  | dropped => rw [hc] at h; rw [hs] at h; simp at h; omega
  | forwarded s =>
    rw [hc] at h
    have h1 := h.1
    rw [hs] at h1
    have h2 : t = 71 := (List.cons.inj h1).1
    rcases ht with rfl | rfl <;> exact absurd h2 (by decide)
  | control k s =>
    rw [hc] at h
    obtain ⟨_, _, h3, rfl⟩ := h
    exact ⟨s, rfl, h3⟩

/-- C11. A web client is always forwarded, with its whole stream. -/
theorem C11_get_forwarded (segs : Segs) (rest : Bytes) (hs : segs.flatten = str "GET" ++ rest) :
    ∃ segs', sniff segs = .forwarded segs' ∧ segs'.flatten = segs.flatten := by
  have h := C11_sniff segs
  cases hc : sniff segs with
  | dropped => rw [hc] at h; rw [hs] at h; simp [str] at h; omega
  | forwarded s => rw [hc] at h; exact ⟨s, rfl, h.2⟩
  | control k s => rw [hc] at h; exact absurd (by rw [hs]; rfl) h.2.1

/-- C11. Because of the sniffing, the header of the first message is always read whole, however it was cut: the first
message read starts with the first three bytes the client sent. -/
theorem C11_first_header_whole (segs segs' : Segs) (k : Bytes) (frame : Bytes) (rest : Segs)
    (hs : sniff segs = .control k segs') (hr : netReceive segs' = (.ok frame, rest)) :
    frame.take 3 = segs.flatten.take 3 := by
  have h := peekAux_spec 3 [] segs
  unfold sniff peek at hs
  split at h
  · rename_i hn; rw [hn] at hs; cases hs
  · rename_i lead s hn
    rw [hn] at hs
    obtain ⟨h1, h2, b, r, h3, h4, h5⟩ := h
    simp only at hs
    split at hs
    · cases hs
    · injection hs with h7 h8
      subst h8
      subst h3
      simp only [List.nil_append] at h5
      rw [← h5]
      obtain ⟨x, y, z, b', rfl⟩ : ∃ x y z b', b = x :: y :: z :: b' := exists_three h4
      have hrd : ∃ r', readOnce 3 ((x :: y :: z :: b') :: r) = (.ok [x, y, z], r') := by
        by_cases hb : b' = []
        · subst hb; exact ⟨_, readOnce_whole (by omega) (by simp)⟩
        · have : 0 < b'.length := List.length_pos_iff.2 hb
          exact ⟨_, readOnce_part (by omega) (by simp; omega)⟩
      obtain ⟨r', hrd⟩ := hrd
      unfold netReceive netReadMessage at hr
      rw [hrd] at hr
      have hpad : padTo 3 [x, y, z] = [x, y, z] := rfl
      simp only [hpad] at hr
      generalize readOnce _ r' = q at hr
      match q with
      | (.error e, s2) => cases hr
      | (.ok body, s2) =>
        simp only [Prod.mk.injEq, Except.ok.injEq] at hr
        rw [← hr.1]; simp

example : sniff [[71], [69, 84, 32]] = .forwarded [[71, 69, 84, 32]] := by decide
example : sniff [[2, 0], [1, 22]] = .control (str "123456 654321") [[2, 0, 1, 22]] := by decide
example : sniff [[2], [0]] = .dropped := by decide
example : (netReceive [[2, 0, 1, 22]]).1 = .ok [2, 0, 1, 22] := by rfl

end Verif.Props
