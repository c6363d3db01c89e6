import Verif.Ndt5.NetConn
import Verif.Ndt5.ProtocolLemmas
import Verif.Spec.Segments

/-! # Lemmas about reading from TCP connections -/

namespace Verif.Ndt5
open Verif.Go Verif.Spec

theorem exists_three {b : Bytes} (h : 3 ≤ b.length) : ∃ x y z b', b = x :: y :: z :: b' := by
  match b, h with
  | x :: y :: z :: b', _ => exact ⟨x, y, z, b', rfl⟩

theorem padTo_self (b : Bytes) : padTo b.length b = b := by simp [padTo]

theorem padTo_length (n : Nat) (b : Bytes) (h : b.length ≤ n) : (padTo n b).length = n := by
  simp [padTo]; omega

theorem readTLV_frame_ok (t : MsgType) (p : Bytes) (exp : List MsgType) (h : p.length ≤ 65535) (ht : t ∈ exp) :
    readTLV (.ok (tlvFrame t p)) exp = .ok (p, t) := by
  rw [readTLV_frame, if_pos ht, if_pos (by omega)]

theorem readOnce_whole {n : Nat} {s : Bytes} {rest : Segs} (hn : 0 < n) (h : s.length ≤ n) :
    readOnce n (s :: rest) = (.ok s, rest) := by
  simp only [readOnce]
  rw [if_neg (by omega), if_neg (by omega)]

theorem readOnce_part {n : Nat} {s : Bytes} {rest : Segs} (hn : 0 < n) (h : n < s.length) :
    readOnce n (s :: rest) = (.ok (s.take n), s.drop n :: rest) := by
  simp only [readOnce]
  rw [if_neg (by omega), if_pos h]

/-- One read returns exactly the next part if pieces consist of whole parts. -/
theorem readOnce_group {groups : List (List Bytes)} {p : Bytes} {rest : List Bytes}
    (hf : groups.flatten = p :: rest) (hg : ∀ g ∈ groups, g ≠ []) (hp : p ≠ [])
    (hr : ∀ q ∈ rest, q ≠ []) :
    ∃ groups' : List (List Bytes), readOnce p.length (groups.map List.flatten) = (.ok p, groups'.map List.flatten) ∧
      groups'.flatten = rest ∧ ∀ g ∈ groups', g ≠ [] := by
  match groups, hg with
  | [], _ => simp at hf
  | [] :: gs, hg => exact absurd rfl (hg [] (by simp))
  | (q :: g) :: gs, hg =>
    simp at hf
    obtain ⟨rfl, hf⟩ := hf
    have hlen : q.length ≠ 0 := by simpa using hp
    match g with
    | [] =>
      refine ⟨gs, ?_, by simpa using hf, fun g hg' => hg g (by simp [hg'])⟩
      simp [readOnce, hp]
    | r :: g =>
      refine ⟨(r :: g) :: gs, ?_, by simpa using hf, ?_⟩
      · have hrne : r ≠ [] := hr r (by rw [← hf]; simp)
        have : 0 < r.length := List.length_pos_iff.2 hrne
        simp only [readOnce, if_neg hlen, List.map_cons, List.flatten_cons]
        rw [if_pos (by simp; omega)]
        simp
      · intro g' hg'
        simp at hg'
        rcases hg' with rfl | hg'
        · simp
        · exact hg g' (by simp [hg'])

theorem messageParts_ne {m : MsgType × Bytes} : ∀ p ∈ messageParts m, p ≠ [] := by
  intro p hp
  unfold messageParts at hp
  simp only at hp
  split at hp
  · simp at hp; subst hp; simp [tlvFrame]
  · simp at hp
    rcases hp with rfl | rfl
    · simp [tlvFrame]
    · assumption

theorem frame_size (t : MsgType) (p : Bytes) (h : p.length ≤ 65535) :
    (UInt8.ofNat ((p.length >>> 8) &&& 0xFF)).toNat * 256 + (UInt8.ofNat (p.length &&& 0xFF)).toNat = p.length := by
  have := readTLV_frame_ok t p [t] h (by simp)
  obtain ⟨hi, lo, h1, h2⟩ : ∃ hi lo : UInt8, tlvFrame t p = t :: hi :: lo :: p ∧ hi.toNat * 256 + lo.toNat = p.length := by
    simp only [readTLV, tlvFrame] at this
    split at this
    · split at this
      · exact ⟨_, _, rfl, by assumption⟩
      · cases this
    · cases this
  simp only [tlvFrame, List.cons.injEq, true_and, and_true] at h1
  rw [h1.1, h1.2]; exact h2

/-- Reading one message off pieces made of whole parts. -/
theorem netReceive_groups {groups : List (List Bytes)} {m : MsgType × Bytes} {rest : List Bytes}
    (hm : m.2.length ≤ 65535)
    (hf : groups.flatten = messageParts m ++ rest) (hg : ∀ g ∈ groups, g ≠ [])
    (hr : ∀ q ∈ rest, q ≠ []) :
    ∃ groups' : List (List Bytes), netReceive (groups.map List.flatten) = (.ok (tlvFrame m.1 m.2), groups'.map List.flatten) ∧
      groups'.flatten = rest ∧ ∀ g ∈ groups', g ≠ [] := by
  obtain ⟨t, p⟩ := m
  simp only at hm ⊢
  have hsz := frame_size t p hm
  by_cases hp : p = []
  · subst hp
    simp only [messageParts, if_pos] at hf
    obtain ⟨g1, h1, h2, h3⟩ := readOnce_group (p := (tlvFrame t []).take 3) hf hg (by simp [tlvFrame]) hr
    refine ⟨g1, ?_, h2, h3⟩
    have h1' : readOnce 3 (groups.map List.flatten) = (.ok ((tlvFrame t []).take 3), g1.map List.flatten) := h1
    unfold netReceive netReadMessage
    rw [h1']
    simp [tlvFrame, padTo, readOnce]
  · simp only [messageParts, if_neg hp] at hf
    obtain ⟨g1, h1, h2, h3⟩ := readOnce_group (p := (tlvFrame t p).take 3) (rest := p :: rest) hf hg (by simp [tlvFrame])
      (by intro q hq; simp at hq; exact hq.elim (fun h => h ▸ hp) (hr q))
    obtain ⟨g2, h4, h5, h6⟩ := readOnce_group h2 h3 hp hr
    refine ⟨g2, ?_, h5, h6⟩
    have h1' : readOnce 3 (groups.map List.flatten) = (.ok ((tlvFrame t p).take 3), g1.map List.flatten) := by
      rw [← h1]; simp [tlvFrame]
    unfold netReceive netReadMessage
    rw [h1']
    simp only [tlvFrame, List.take_succ_cons, List.take_zero, padTo, List.length_cons, List.length_nil,
      List.replicate, List.append_nil, List.getD_cons_succ, List.getD_cons_zero, Nat.sub_self]
    rw [hsz, h4]
    simp

theorem peekAux_spec (n : Nat) (acc : Bytes) (segs : Segs) :
    match peekAux n acc segs with
    | none => acc.length + segs.flatten.length < n
    | some (lead, segs') => n ≤ acc.length + segs.flatten.length ∧ lead = (acc ++ segs.flatten).take n ∧
        ∃ b rest, segs' = b :: rest ∧ n ≤ b.length ∧ segs'.flatten = acc ++ segs.flatten := by
  induction segs generalizing acc with
  | nil =>
    simp only [peekAux]
    by_cases h : n ≤ acc.length
    · rw [if_pos h]; simp [h]
    · rw [if_neg h]; simp; omega
  | cons s segs ih =>
    simp only [peekAux]
    by_cases h : n ≤ acc.length
    · rw [if_pos h]
      refine ⟨by omega, ?_, acc, s :: segs, rfl, h, by simp⟩
      rw [List.take_append_of_le_length h]
    · rw [if_neg h]
      have := ih (acc ++ s)
      split at this
      · simp at this ⊢; omega
      · rename_i lead segs' hn

        obtain ⟨h1, h2, h3⟩ := this
        refine ⟨by simp at h1 ⊢; omega, by simpa using h2, ?_⟩
        obtain ⟨b, rest, h4, h5, h6⟩ := h3
        exact ⟨b, rest, h4, h5, by simpa using h6⟩

end Verif.Ndt5
