import Verif.Netx.Info
import Verif.Netx.Conn

/-!
# C33, C34, C35, C36: connections and their kernel statistics
-/

namespace Verif.Props
open Verif.Go Verif.Ndt5 Verif.Netx

/-! ## C33 -/

/-- A call of `Accept` for this connection is still running. -/
def Accepting (c : ConnState) : Bool := c.accept ≠ .failed ∧ c.accept ≠ .returned

/-- A call of `Close` on this connection is still running. -/
def Closing (c : ConnState) : Bool := c.closes.any (· ≠ .returned)

/-- Accepted, and nobody has called `Close`. -/
def Open (c : ConnState) : Bool := c.accept = .returned ∧ c.closes = []

/-- Accepted or being accepted, and no call of `Close` has returned. -/
def MaybeOpen (c : ConnState) : Bool := c.accept ≠ .failed ∧ .returned ∉ c.closes

private def counted (c : ConnState) : Bool := (c.accept = .ret ∨ c.accept = .returned) ∧ c.once = false

private structure ConnOk (c : ConnState) : Prop where
  early : c.accept ≠ .returned → c.closes = [] ∧ c.once = false
  once : c.once = false → ∀ p ∈ c.closes, p = .fp ∨ p = .once
  onceT : c.once = true → ∃ p ∈ c.closes, p = .tcp ∨ p = .returned
  noFp : c.accept = .dup ∨ c.accept = .dupFailed ∨ c.accept = .failed → c.fpOpen = false
  failed : c.accept = .failed → c.tcpOpen = false
  fp : (∃ p ∈ c.closes, p ≠ .fp) → c.fpOpen = false
  closed : .returned ∈ c.closes → c.fpOpen = false ∧ c.tcpOpen = false
  isOpen : c.accept = .returned → c.closes = [] → c.fpOpen = true ∧ c.tcpOpen = true
  isFp : c.accept = .inc ∨ c.accept = .ret → c.fpOpen = true ∧ c.tcpOpen = true
  isTcp : c.accept = .dup → c.tcpOpen = true

private theorem countP_set {α : Type} (p : α → Bool) {l : List α} {i : Nat} {c : α} (c' : α) (h : l[i]? = some c) :
    ((l.set i c').countP p : Int) = l.countP p - (if p c then 1 else 0) + (if p c' then 1 else 0) := by
  induction l generalizing i with
  | nil => simp at h
  | cons x l ih =>
    cases i with
    | zero =>
      simp only [List.getElem?_cons_zero, Option.some.injEq] at h
      subst h
      simp only [List.set_cons_zero, List.countP_cons]
      split <;> split <;> simp
    | succ i =>
      simp only [List.getElem?_cons_succ] at h
      have := ih h
      simp only [List.set_cons_succ, List.countP_cons]
      split <;> split <;> split <;> simp_all <;> omega

private theorem step_ok {s : NetState} {i : Nat} {c c' : ConnState} {d : Int} (h : s.conns[i]? = some c)
    (h1 : s.gauge = s.conns.countP counted) (h2 : ∀ c ∈ s.conns, ConnOk c) (hc : ConnOk c → ConnOk c')
    (hd : d = (if counted c' then 1 else 0) - (if counted c then 1 else 0)) :
    s.gauge + d = (s.conns.set i c').countP counted ∧ ∀ c ∈ s.conns.set i c', ConnOk c := by
  refine ⟨?_, fun x hx => ?_⟩
  · rw [countP_set counted c' h]
    omega
  · rcases List.mem_or_eq_of_mem_set hx with hx | rfl
    · exact h2 x hx
    · exact hc (h2 c (List.mem_of_getElem? h))

private theorem step_ok0 {s : NetState} {i : Nat} {c c' : ConnState} (h : s.conns[i]? = some c)
    (h1 : s.gauge = s.conns.countP counted) (h2 : ∀ c ∈ s.conns, ConnOk c) (hc : ConnOk c → ConnOk c')
    (hd : counted c' = counted c) :
    s.gauge = (s.conns.set i c').countP counted ∧ ∀ c ∈ s.conns.set i c', ConnOk c := by
  have := step_ok (d := 0) h h1 h2 hc (by rw [hd]; omega)
  simpa using this

private theorem mem_set {α : Type} {l : List α} {j : Nat} {y : α} (x : α) (h : l[j]? = some y) :
    (∀ p, p ∈ l.set j x → p = x ∨ p ∈ l) ∧ (∀ p, p ∈ l → p ≠ y → p ∈ l.set j x) ∧ x ∈ l.set j x ∧ l.set j x ≠ [] := by
  have hlt := (List.getElem?_eq_some_iff.1 h).1
  refine ⟨fun p hp => ?_, fun p hp hne => ?_, ?_, ?_⟩
  · rcases List.mem_or_eq_of_mem_set hp with h | h
    · exact .inr h
    · exact .inl h
  · obtain ⟨k, hk⟩ := List.mem_iff_getElem?.1 hp
    refine List.mem_iff_getElem?.2 ⟨k, ?_⟩
    rw [List.getElem?_set]
    split
    · rename_i e
      subst e
      rw [hk] at h
      cases h
      exact absurd rfl hne
    · exact hk
  · exact List.mem_set hlt x
  · intro h'
    have := congrArg List.length h'
    simp at this
    rw [this] at hlt
    simp at hlt

private theorem net_ok {as : List NetAct} {s : NetState} (h : netx.Reaches as s) :
    s.gauge = s.conns.countP counted ∧ ∀ c ∈ s.conns, ConnOk c := by
  refine LTS.state_invariant (T := netx) (P := fun s => s.gauge = s.conns.countP counted ∧ ∀ c ∈ s.conns, ConnOk c) (by simp [netx]) ?_ h
  rintro s a s' ⟨h1, h2⟩ hst
  cases a with
  | acceptTCP =>
    cases hst
    refine ⟨by simp [h1, List.countP_append, counted], fun c hc => ?_⟩
    simp only [List.mem_append, List.mem_singleton] at hc
    rcases hc with hc | rfl
    · exact h2 c hc
    · constructor <;> simp
  | acceptFails => cases hst; exact ⟨h1, h2⟩
  | inc i =>
    simp only [netx, NetState.step] at hst
    repeat' split at hst
    all_goals first | (cases hst; done) | cases hst
    rename_i c hc ha
    exact step_ok hc h1 h2 (fun ⟨_, _, _, _, _, _, _, _, _, _⟩ => by constructor <;> grind)
      (by have := (h2 c (List.mem_of_getElem? hc)).early; simp_all [counted])
  | closeStep i j =>
    simp only [netx, NetState.step] at hst
    split at hst
    · rename_i c hc
      have hok := h2 c (List.mem_of_getElem? hc)
      have hret : c.accept ≠ .returned → c.closes[j]? = none := fun h => by rw [(hok.early h).1]; rfl
      have hmem : ∀ p, c.closes[j]? = some p → p ∈ c.closes := fun p hp => List.mem_of_getElem? hp
      have hlt : ∀ p, c.closes[j]? = some p → j < c.closes.length := fun p hp => (List.getElem?_eq_some_iff.1 hp).1
      split at hst
      · rename_i hj
        cases hst
        obtain ⟨m1, m2, m3, m4⟩ := mem_set .once hj
        have := hmem _ hj
        have ha : c.accept = .returned := Decidable.byContradiction fun h => by rw [hret h] at hj; cases hj
        refine step_ok0 hc h1 h2 (fun ⟨_, _, _, _, _, _, _, _, _, _⟩ => ?_) (by simp [counted])
        clear hret hmem h1 h2
        generalize c.closes.set j .once = l at *
        constructor <;> grind
      · rename_i hj
        cases hst
        obtain ⟨m1, m2, m3, m4⟩ := mem_set .tcp hj
        have := hmem _ hj
        have ha : c.accept = .returned := Decidable.byContradiction fun h => by rw [hret h] at hj; cases hj
        have hg : (if c.once = true then s.gauge else s.gauge - 1) = s.gauge + (if c.once = true then 0 else -1) := by
          split <;> omega
        simp only [hg]
        refine step_ok hc h1 h2 (fun ⟨_, _, _, _, _, _, _, _, _, _⟩ => ?_) (by cases ho : c.once <;> simp [counted, ha, ho])
        clear hret hmem h1 h2 hg
        generalize c.closes.set j .tcp = l at *
        constructor <;> grind
      · rename_i hj
        cases hst
        obtain ⟨m1, m2, m3, m4⟩ := mem_set .returned hj
        have := hmem _ hj
        have ha : c.accept = .returned := Decidable.byContradiction fun h => by rw [hret h] at hj; cases hj
        refine step_ok0 hc h1 h2 (fun ⟨_, _, _, _, _, _, _, _, _, _⟩ => ?_) (by simp [counted])
        clear hret hmem h1 h2
        generalize c.closes.set j .returned = l at *
        constructor <;> grind
      · cases hst
    · cases hst
  | callClose i =>
    simp only [netx, NetState.step] at hst
    repeat' split at hst
    all_goals first | (cases hst; done) | cases hst
    rename_i c hc ha
    refine step_ok0 hc h1 h2 (fun ⟨_, _, _, _, _, _, _, _, _, _⟩ => ?_) (by simp [counted])
    have hm : ∀ p, p ∈ c.closes ++ [.fp] ↔ p ∈ c.closes ∨ p = .fp := by simp
    have hn : c.closes ++ [.fp] ≠ [] := by simp
    clear h1 h2
    generalize c.closes ++ [.fp] = l at *
    constructor <;> grind
  | dupFile i ok =>
    simp only [netx, NetState.step] at hst
    split at hst
    · split at hst
      · rename_i c hc ha
        cases hst
        have := (h2 c (List.mem_of_getElem? hc)).early
        refine step_ok0 hc h1 h2 (fun ⟨_, _, _, _, _, _, _, _, _, _⟩ => ?_) ?_
        · split
          all_goals constructor <;> grind
        · cases ok <;> simp [counted, ha]
      · cases hst
    · cases hst
  | closeTCP i =>
    simp only [netx, NetState.step] at hst
    repeat' split at hst
    all_goals first | (cases hst; done) | cases hst
    rename_i c hc ha
    refine step_ok0 hc h1 h2 (fun ⟨_, _, _, _, _, _, _, _, _, _⟩ => ?_) (by simp [counted, ha])
    constructor <;> grind
  | ret i =>
    simp only [netx, NetState.step] at hst
    repeat' split at hst
    all_goals first | (cases hst; done) | cases hst
    rename_i c hc ha
    refine step_ok0 hc h1 h2 (fun ⟨_, _, _, _, _, _, _, _, _, _⟩ => ?_) (by simp [counted, ha])
    constructor <;> grind

/-- C33: under every schedule of accepts and closes, successful or failing and repeated at will, the gauge is never negative, it is at
least the number of accepted connections nobody has begun to close, and at most the number of connections accepted or being
accepted whose close has not returned. Whenever no accept and no close is under way it is exactly the number of connections
accepted and not closed. -/
theorem C33_gauge {as : List NetAct} {s : NetState} (h : netx.Reaches as s) :
    0 ≤ s.gauge ∧ s.conns.countP Open ≤ s.gauge ∧ s.gauge ≤ s.conns.countP MaybeOpen ∧
    ((∀ c ∈ s.conns, Accepting c = false ∧ Closing c = false) → s.gauge = s.conns.countP Open) := by
  obtain ⟨h1, h2⟩ := net_ok h
  have ho : s.conns.countP Open ≤ s.conns.countP counted := by
    refine List.countP_mono_left fun c hc ho => ?_
    have hok := h2 c hc
    simp only [Open, decide_eq_true_eq] at ho
    have : c.once = false := by
      cases ho' : c.once with
      | false => rfl
      | true =>
        obtain ⟨p, hp, -⟩ := hok.onceT ho'
        rw [ho.2] at hp
        simp at hp
    simp [counted, ho.1, this]
  have hm : s.conns.countP counted ≤ s.conns.countP MaybeOpen := by
    refine List.countP_mono_left fun c hc ho => ?_
    have hok := h2 c hc
    simp only [counted, decide_eq_true_eq] at ho
    simp only [MaybeOpen, decide_eq_true_eq]
    refine ⟨fun e => by rw [e] at ho; simp at ho, fun hr => ?_⟩
    rcases hok.once ho.2 _ hr with h | h <;> cases h
  refine ⟨by omega, by omega, by omega, fun hq => ?_⟩
  rw [h1]
  congr 1
  refine List.countP_congr fun c hc => ?_
  have hok := h2 c hc
  obtain ⟨q1, q2⟩ := hq c hc
  simp only [Accepting, Closing, decide_eq_false_iff_not, List.any_eq_false, decide_eq_true_eq] at q1 q2
  simp only [counted, Open, decide_eq_true_eq]
  constructor
  · rintro ⟨ha, hn⟩
    refine ⟨?_, ?_⟩
    · rcases ha with ha | ha
      · rw [ha] at q1; simp at q1
      · exact ha
    · cases hcl : c.closes with
      | nil => rfl
      | cons p l =>
        have hp : p ∈ c.closes := by simp [hcl]
        have := q2 p hp
        rcases hok.once hn p hp with h | h <;> simp [h] at this
  · rintro ⟨ha, hcl⟩
    refine ⟨.inr ha, ?_⟩
    cases hn : c.once with
    | false => rfl
    | true =>
      obtain ⟨p, hp, -⟩ := hok.onceT hn
      rw [hcl] at hp
      simp at hp

/-- C33: a failed accept leaves neither the TCP connection nor a duplicated file open; an accepted connection that nobody closes has
both open; and when a close has returned both are closed. -/
theorem C33_files {as : List NetAct} {s : NetState} (h : netx.Reaches as s) : ∀ c ∈ s.conns,
    (c.accept = .failed → c.tcpOpen = false ∧ c.fpOpen = false) ∧ (Open c = true → c.tcpOpen = true ∧ c.fpOpen = true) ∧
    (.returned ∈ c.closes → c.tcpOpen = false ∧ c.fpOpen = false) := by
  intro c hc
  have hok := (net_ok h).2 c hc
  refine ⟨fun h => ⟨hok.failed h, hok.noFp (.inr (.inr h))⟩, fun h => ?_, fun h => (hok.closed h).symm⟩
  simp only [Open, decide_eq_true_eq] at h
  exact (hok.isOpen h.1 h.2).symm

/-- Two accepts, a failed one, and the first connection closed twice at the same time: one connection is open. -/
example : ∃ s, netx.Reaches [.acceptTCP, .acceptFails, .dupFile 0 true, .inc 0, .ret 0, .acceptTCP, .dupFile 1 true, .inc 1, .ret 1, .acceptTCP,
    .dupFile 2 false, .closeTCP 2, .callClose 0, .callClose 0, .closeStep 0 0, .closeStep 0 1, .closeStep 0 1, .closeStep 0 0,
    .closeStep 0 0, .closeStep 0 1] s ∧ s.gauge = 1 ∧ s.conns.countP Open = 1 ∧
    ∀ c ∈ s.conns, Accepting c = false ∧ Closing c = false := ⟨_, rfl, by decide, by decide, by decide⟩

/-! ## C34 -/

/-- C34: reading the statistics succeeds exactly when TCP_INFO can be read. It then returns the counters of the kernel, and the BBR
counters if they can be read, else zeros. On failure all counters are zero. -/
theorem C34_read_info (bbr : CcAnswer) (tcp : TcpAnswer) :
    ((readInfo bbr tcp).2.2 = none ↔ tcp.syscallConn = true ∧ tcp.control = true ∧ tcp.errno = 0) ∧
    ((readInfo bbr tcp).2.2 = none → (readInfo bbr tcp).2.1 = tcp.info ∧
      (readInfo bbr tcp).1 = if (getBBRInfo bbr).2 = none then (getBBRInfo bbr).1 else {}) ∧
    ((readInfo bbr tcp).2.2 ≠ none → (readInfo bbr tcp).1 = {} ∧ (readInfo bbr tcp).2.1 = {}) := by
  have hb : ∀ x : Option KErr, x.isSome = false ↔ x = none := by intro x; cases x <;> simp
  unfold readInfo getTCPInfo
  cases h1 : tcp.syscallConn <;> cases h2 : tcp.control <;> by_cases h3 : tcp.errno = 0 <;> simp [h3]
  cases h4 : (getBBRInfo bbr).2 <;> simp

/-- BBR unavailable (ENOSYS) but TCP_INFO readable. -/
example : readInfo { syscallConn := true, control := true, errno := ENOSYS, size := 0, words := ⟨1, 2, 3, 4, 5⟩ }
    { syscallConn := true, control := true, errno := 0, info := { bytesAcked := 7 } } = ({}, { bytesAcked := 7 }, none) := rfl

/-! ## C35 -/

/-- C35: whatever the kernel query yields, as long as a random identifier can be made when it fails, asking for the UUID yields an
identifier and no error. It is non-empty if the kernel's identifiers and random identifiers are. -/
theorem C35_uuid (kernel fallback : Option Bytes) (hk : ∀ id, kernel = some id → id ≠ [])
    (hf : ∃ id, fallback = some id ∧ id ≠ []) : ∃ id, getUUID kernel fallback = .ok (id, none) ∧ id ≠ [] := by
  obtain ⟨id, rfl, hid⟩ := hf
  cases kernel with
  | none => exact ⟨id, rfl, hid⟩
  | some k => exact ⟨k, rfl, hk k rfl⟩

/-- C35: with the kernel's identifier available, all calls give that identifier, whatever the random source does. -/
theorem C35_stable (id : Bytes) (calls : List (Option Bytes)) : ∀ r ∈ calls.map (getUUID (some id)), r = .ok (id, none) := by
  intro r hr
  simp only [List.mem_map] at hr
  obtain ⟨_, _, rfl⟩ := hr
  rfl

example : getUUID none (some (str "f81d4fae-7dec-11d0-a765-00a0c91e6bf6")) = .ok (str "f81d4fae-7dec-11d0-a765-00a0c91e6bf6", none) := rfl

/-! ## C36 -/

private theorem words_toNat (hi lo : UInt32) : ((hi.toUInt64 <<< 32) ||| lo.toUInt64).toNat = hi.toNat * 2 ^ 32 + lo.toNat := by
  have h1 := UInt32.toNat_lt hi
  have h2 := UInt32.toNat_lt lo
  simp only [UInt64.toNat_or, UInt64.toNat_shiftLeft, UInt32.toNat_toUInt64]
  have e : hi.toNat <<< (UInt64.toNat 32 % 64) % 2 ^ 64 = hi.toNat <<< 32 := by
    have : UInt64.toNat 32 % 64 = 32 := by decide
    rw [this, Nat.shiftLeft_eq]
    apply Nat.mod_eq_of_lt
    omega
  rw [e, ← Nat.shiftLeft_add_eq_or_of_lt h2, Nat.shiftLeft_eq]

/-- C36: the bandwidth is reported exactly when the query worked, the structure is the one of BBR and the value fits 63 bits; it
then is hi·2^32+lo and not negative. Otherwise an error is reported and all counters are zero. -/
theorem C36_bandwidth (k : CcAnswer) :
    let v : Nat := k.words.hi.toNat * 2 ^ 32 + k.words.lo.toNat
    ((getBBRInfo k).2 = none ↔ k.syscallConn = true ∧ k.control = true ∧ k.errno = 0 ∧ k.size = 20 ∧ v < 2 ^ 63) ∧
    ((getBBRInfo k).2 = none → (getBBRInfo k).1.bw.toInt = v ∧ 0 ≤ (getBBRInfo k).1.bw.toInt ∧
      (getBBRInfo k).1.minRTT = k.words.minRtt ∧ (getBBRInfo k).1.pacingGain = k.words.pacing ∧
      (getBBRInfo k).1.cwndGain = k.words.cwnd) ∧
    ((getBBRInfo k).2 ≠ none → (getBBRInfo k).1 = {}) := by
  intro v
  have hv := words_toNat k.words.hi k.words.lo
  change _ = v at hv
  unfold getBBRInfo
  generalize hm : (k.words.hi.toUInt64 <<< 32) ||| k.words.lo.toUInt64 = m at hv ⊢
  have hcmp : m > 9223372036854775807 ↔ ¬ v < 2 ^ 63 := by
    rw [gt_iff_lt, UInt64.lt_iff_toNat_lt, hv]
    have : UInt64.toNat 9223372036854775807 = 2 ^ 63 - 1 := by decide
    omega
  have hint : v < 2 ^ 63 → m.toInt64.toInt = v := by
    intro h
    rw [← hv] at h ⊢
    show m.toBitVec.toInt = _
    rw [BitVec.toInt_eq_toNat_of_lt]
    · rfl
    · show 2 * m.toNat < _
      omega
  cases h1 : k.syscallConn <;> cases h2 : k.control <;> by_cases h3 : k.errno = 0 <;> by_cases h4 : k.size = 20 <;>
    simp [h3, h4, bbrInfoSize]
  all_goals first | (split <;> simp; done) | skip
  by_cases hlt : v < 2 ^ 63
  · have : ¬ m > 9223372036854775807 := fun h => (hcmp.1 h) hlt
    simp only [gt_iff_lt] at this
    simp [this, hlt, hint hlt]
  · have : m > 9223372036854775807 := hcmp.2 hlt
    simp only [gt_iff_lt] at this
    simp [this]
    omega

/-- 1 Gbit/s, and a value that does not fit. -/
example : getBBRInfo { syscallConn := true, control := true, errno := 0, size := 20, words := ⟨125000000, 1, 30000, 739, 512⟩ } =
    ({ bw := 4419967296, minRTT := 30000, pacingGain := 739, cwndGain := 512 }, none) := by decide

example : (getBBRInfo { syscallConn := true, control := true, errno := 0, size := 20, words := ⟨0, 2147483648, 1, 1, 1⟩ }).2 =
    some (.errno EOVERFLOW) := by decide

end Verif.Props
