import Verif.Ndt5.FilesLemmas

/-! # The file system under many control connections -/

namespace Verif.Ndt5
open Verif.Go Verif.Spec

/-- The events are those of control connections that run side by side, each up to some point. -/
def SideBySide (cfg : Nat → Cfg) (g : List (Nat × Ev)) : Prop :=
  ∀ i, ∃ evs out, Exec (HandleControlChannel (cfg i)) () evs out () ∧ own i g <+: evs

theorem own_append (i : Nat) (a b : List (Nat × Ev)) : own i (a ++ b) = own i a ++ own i b := List.filterMap_append ..

theorem own_snoc (i j : Nat) (e : Ev) (g : List (Nat × Ev)) : own i (g ++ [(j, e)]) = if j = i then own i g ++ [e] else own i g := by
  rw [own_append]
  by_cases h : j = i <;> simp [own, h]

theorem mem_own {i : Nat} {e : Ev} {g : List (Nat × Ev)} : e ∈ own i g ↔ (i, e) ∈ g := by
  simp only [own, List.mem_filterMap]
  constructor
  · rintro ⟨⟨j, e'⟩, h1, h2⟩
    split at h2
    · rename_i h; simp only at h; subst h; cases h2; exact h1
    · cases h2
  · intro h
    exact ⟨_, h, by simp⟩

theorem mem_own_snoc {i j : Nat} {e e' : Ev} {g : List (Nat × Ev)} : e' ∈ own i (g ++ [(j, e)]) ↔ e' ∈ own i g ∨ (j = i ∧ e' = e) := by
  rw [own_snoc]
  split <;> simp_all

theorem SideBySide.of_append {cfg : Nat → Cfg} {a b : List (Nat × Ev)} (h : SideBySide cfg (a ++ b)) : SideBySide cfg a := by
  intro i
  obtain ⟨evs, out, h1, h2⟩ := h i
  refine ⟨evs, out, h1, List.IsPrefix.trans ?_ h2⟩
  rw [own_append]
  exact List.prefix_append _ _

/-- The file operations of a connection up to some point. -/
theorem SideBySide.ops {cfg : Nat → Cfg} {g : List (Nat × Ev)} (h : SideBySide cfg g) (i : Nat) (hne : diskOps (own i g) ≠ []) :
    ∃ u t, .call (.uuid .control) (.ok u) ∈ own i g ∧ .clock t ∈ own i g ∧
      DiskOps (dirOf (cfg i) t) (pathJoin [dirOf (cfg i) t, u ++ str ".json"]) u t (diskOps (own i g)) := by
  obtain ⟨evs, out, h1, h2⟩ := h i
  have hp : diskOps (own i g) <+: diskOps evs := h2.filter _
  rcases control_files h1 with h3 | ⟨u, t, a, b, rfl, hu, ht, ha, hb⟩
  · rw [h3] at hp; exact absurd (List.prefix_nil.1 hp) hne
  · have hsub : a <+: own i g := by
      rcases List.prefix_or_prefix_of_prefix h2 (List.prefix_append a b) with h | h
      · have : diskOps (own i g) <+: diskOps a := h.filter _
        rw [ha] at this
        exact absurd (List.prefix_nil.1 this) hne
      · exact h
    refine ⟨u, t, hsub.subset hu, hsub.subset ht, ?_⟩
    rw [diskOps_append, ha, List.nil_append] at hp
    exact hb.of_prefix hp

theorem DiskOps.snoc_create {d n u p : Bytes} {t : Int} {m : List Ev} {x : Outcome (Option Err)} (h : DiskOps d n u t (m ++ [.call (.create p) x])) :
    m = [] ∧ p = n ∧ u ≠ badUUID := by
  generalize hl : m ++ [.call (.create p) x] = l at h
  cases h with
  | nil => simp at hl
  | create y => rcases m with _ | ⟨a, m⟩ <;> simp_all
  | temp y => rcases m with _ | ⟨a, m⟩ <;> simp_all
  | wrote r y => rcases m with _ | ⟨a, _ | ⟨b, m⟩⟩ <;> simp_all
  | wroteTemp q r y => rcases m with _ | ⟨a, _ | ⟨b, m⟩⟩ <;> simp_all

theorem DiskOps.snoc_temp {d n u p : Bytes} {t : Int} {m : List Ev} {x : Outcome (Except Err Bytes)} (h : DiskOps d n u t (m ++ [.call (.tempFile p) x])) :
    m = [] ∧ p = d ∧ u = badUUID := by
  generalize hl : m ++ [.call (.tempFile p) x] = l at h
  cases h with
  | nil => simp at hl
  | create y => rcases m with _ | ⟨a, m⟩ <;> simp_all
  | temp y => rcases m with _ | ⟨a, m⟩ <;> simp_all
  | wrote r y => rcases m with _ | ⟨a, _ | ⟨b, m⟩⟩ <;> simp_all
  | wroteTemp q r y => rcases m with _ | ⟨a, _ | ⟨b, m⟩⟩ <;> simp_all

theorem DiskOps.snoc_write {d n u p : Bytes} {t : Int} {m : List Ev} {r : Record} {x : Outcome (Option Err)}
    (h : DiskOps d n u t (m ++ [.call (.write p r) x])) : ∃ e, m = [e] ∧ Opens p e := by
  generalize hl : m ++ [.call (.write p r) x] = l at h
  cases h with
  | nil => simp at hl
  | create y => rcases m with _ | ⟨a, m⟩ <;> simp_all
  | temp y => rcases m with _ | ⟨a, m⟩ <;> simp_all
  | wrote r y =>
    rcases m with _ | ⟨a, _ | ⟨b, m⟩⟩ <;> simp_all
    exact .inl rfl
  | wroteTemp q r y =>
    rcases m with _ | ⟨a, _ | ⟨b, m⟩⟩ <;> simp_all
    exact .inr ⟨_, rfl⟩

/-- The names of the files that are opened tell the connections apart: what is opened for an identified connection is named after its UUID, and what
is opened for another is a name for unidentified connections. -/
structure Apart (cfg : Nat → Cfg) (dir : Bytes) (day : Int → Bytes) (g : List (Nat × Ev)) : Prop where
  inDir : ∀ i, (cfg i).dataDir = dir
  days : ∀ i, (cfg i).lib.dateDir = day
  width : ∀ i t, (i, .clock t) ∈ g → (day t).length = 10
  joined : ∃ pre, ∀ t, pathJoin [dir, day t] = pre ++ day t ∧ ∀ u, 47 ∉ u → pathJoin [pathJoin [dir, day t], u ++ str ".json"] = pre ++ day t ++ [47] ++ u ++ str ".json"
  plain : ∀ i u, (i, .call (.uuid .control) (.ok u)) ∈ g → 47 ∉ u
  unique : ∀ i j u, (i, .call (.uuid .control) (.ok u)) ∈ g → (j, .call (.uuid .control) (.ok u)) ∈ g → u ≠ badUUID → i = j
  reserved : ∀ i u, (i, .call (.uuid .control) (.ok u)) ∈ g → badUUID <+: u → u = badUUID

theorem Apart.of_append {cfg : Nat → Cfg} {dir : Bytes} {day : Int → Bytes} {a b : List (Nat × Ev)} (h : Apart cfg dir day (a ++ b)) : Apart cfg dir day a :=
  ⟨h.inDir, h.days, fun i t hm => h.width i t (List.mem_append_left _ hm), h.joined, fun i u hi => h.plain i u (List.mem_append_left _ hi),
    fun i j u hi hj => h.unique i j u (List.mem_append_left _ hi) (List.mem_append_left _ hj),
    fun i u hi => h.reserved i u (List.mem_append_left _ hi)⟩

/-- What holds after the events `g`, starting from `fs0`. -/
structure Fs5Inv (json : Record → Bytes) (fs0 : Fs5) (g : List (Nat × Ev)) (fs : Fs5) : Prop where
  grows : ∀ p, fs0 p ≠ none → fs p ≠ none
  keep : ∀ p, (∀ i e, (i, e) ∈ g → ∀ x, e ≠ .call (.create p) x) → ∀ c, fs0 p = some c → fs p = some c
  fresh : ∀ i d p, .call (.tempFile d) (.ok (.ok p)) ∈ own i g → TempName d p ∧ fs0 p = none
  uniq : ∀ p i j e e', Opens p e → Opens p e' → e ∈ own i g → e' ∈ own j g → i = j
  stays : ∀ p i e, Opens p e → e ∈ own i g → fs p ≠ none
  empty : ∀ p i e, Opens p e → e ∈ own i g → (∀ r x, .call (.write p r) x ∉ own i g) → fs p = some []
  full : ∀ p i r x, .call (.write p r) x ∈ own i g → (∃ e, Opens p e ∧ e ∈ own i g) ∧
    ∃ c, fs p = some c ∧ c <+: json r ∧ (x = .ok none → c = json r)

theorem opens_inj {p q : Bytes} {e : Ev} (h1 : Opens p e) (h2 : Opens q e) : p = q := by
  rcases h1 with rfl | ⟨d, rfl⟩
  · rcases h2 with h2 | ⟨d', h2⟩
    · cases h2; rfl
    · cases h2
  · rcases h2 with h2 | ⟨d', h2⟩
    · cases h2
    · cases h2; rfl

theorem opens_isDiskOp {p : Bytes} {e : Ev} (h : Opens p e) : isDiskOp e = true := by
  rcases h with rfl | ⟨d, rfl⟩ <;> rfl

theorem opens_not_write {p q : Bytes} {r : Record} {x : Outcome (Option Err)} : ¬ Opens p (.call (.write q r) x) := by
  rintro (h | ⟨d, h⟩) <;> cases h

theorem DiskOps.mem_create {d n u p : Bytes} {t : Int} {l : List Ev} {x : Outcome (Option Err)} (h : DiskOps d n u t l) (hm : .call (.create p) x ∈ l) :
    p = n ∧ u ≠ badUUID := by
  cases h <;> simp at hm
  · exact ⟨hm.1, by assumption⟩
  · exact ⟨hm.1, by assumption⟩

theorem DiskOps.mem_temp {d n u p : Bytes} {t : Int} {l : List Ev} {x : Outcome (Except Err Bytes)} (h : DiskOps d n u t l) (hm : .call (.tempFile p) x ∈ l) :
    p = d ∧ u = badUUID := by
  cases h <;> simp at hm
  · exact ⟨hm.1, by assumption⟩
  · exact ⟨hm.1, by assumption⟩

theorem Fs5.set_self (fs : Fs5) (p c : Bytes) : fs.set p c p = some c := by simp [Fs5.set]
theorem Fs5.set_ne (fs : Fs5) {p q : Bytes} (c : Bytes) (h : q ≠ p) : fs.set p c q = fs q := by simp [Fs5.set, h]

section
variable {json : Record → Bytes} {fs0 fs : Fs5} {g : List (Nat × Ev)} {cfg : Nat → Cfg} {dir : Bytes} {day : Int → Bytes}

/-- Nobody has opened the file that an identified connection is about to create. -/
theorem Fs5Inv.unopened (hi : Fs5Inv json fs0 g fs) (hs : SideBySide cfg g) (j : Nat) (p : Bytes) (x : Outcome (Option Err))
    (hint : SideBySide cfg (g ++ [(j, .call (.create p) x)])) (ha : Apart cfg dir day (g ++ [(j, .call (.create p) x)])) :
    diskOps (own j g) = [] ∧ ∀ i e, Opens p e → e ∉ own i g := by
  have hops : diskOps (own j (g ++ [(j, .call (.create p) x)])) = diskOps (own j g) ++ [.call (.create p) x] := by
    rw [own_snoc, if_pos rfl, diskOps_append]; rfl
  obtain ⟨u, t, hu, ht, hd⟩ := hint.ops j (by rw [hops]; simp)
  rw [hops] at hd
  obtain ⟨hm, rfl, hub⟩ := hd.snoc_create
  refine ⟨hm, fun i e hop he => ?_⟩
  have hne : diskOps (own i g) ≠ [] := List.ne_nil_of_mem (mem_diskOps.2 ⟨he, opens_isDiskOp hop⟩)
  obtain ⟨u', t', hu', ht', hd'⟩ := hs.ops i hne
  have he' := mem_diskOps.2 ⟨he, opens_isDiskOp hop⟩
  have w1 := ha.width j t (mem_own.1 ht)
  have w2 := ha.width i t' (List.mem_append_left _ (mem_own.1 ht'))
  have hu := mem_own.1 hu
  have hu' := List.mem_append_left [(j, Event.call (S := sig) (.create (pathJoin [dirOf (cfg j) t, u ++ str ".json"])) x)] (mem_own.1 hu')
  obtain ⟨pre, hpre⟩ := ha.joined
  rcases hop with rfl | ⟨d, rfl⟩
  · obtain ⟨hn, hub'⟩ := hd'.mem_create he'
    simp only [dirOf, ha.inDir, ha.days] at hn
    rw [(hpre _).2 _ (ha.plain _ _ hu), (hpre _).2 _ (ha.plain _ _ hu')] at hn
    simp only [List.append_assoc] at hn
    have hn := List.append_cancel_left hn
    have hn := List.append_cancel_left (List.append_inj hn (by rw [w1, w2])).2
    have hn := List.append_cancel_right hn
    subst hn
    have := ha.unique i j u hu' hu hub
    subst this
    exact hne hm
  · obtain ⟨hn, hub'⟩ := hd'.mem_temp he'
    obtain ⟨num, hp⟩ := (hi.fresh i d _ he).1
    rw [hn] at hp
    simp only [dirOf, ha.inDir, ha.days] at hp
    rw [(hpre _).2 _ (ha.plain _ _ hu), (hpre _).1] at hp
    simp only [List.append_assoc] at hp
    have hp := List.append_cancel_left hp
    have hp := List.append_cancel_left (List.append_inj hp (by rw [w1, w2])).2
    rw [← List.append_assoc] at hp
    have hp := List.append_cancel_right hp
    refine hub (ha.reserved j u hu ⟨num, ?_⟩)
    rw [hp]; rfl

/-- An event that opens nothing and writes nothing. -/
theorem Fs5Inv.idle (hi : Fs5Inv json fs0 g fs) (j : Nat) (e : Ev) (fs2 : Fs5) (h1 : ∀ p, ¬ Opens p e) (h2 : ∀ p r x, e ≠ .call (.write p r) x)
    (h3 : ∀ p i e', Opens p e' → e' ∈ own i g → fs2 p = fs p) (h4 : ∀ p, fs p ≠ none → fs2 p ≠ none)
    (h5 : ∀ p, (∀ x, e ≠ .call (.create p) x) → fs p ≠ none → fs2 p = fs p) : Fs5Inv json fs0 (g ++ [(j, e)]) fs2 := by
  obtain ⟨grows, keep, fresh, uniq, stays, empty, full⟩ := hi
  have ho : ∀ {p i e'}, Opens p e' → e' ∈ own i (g ++ [(j, e)]) → e' ∈ own i g := by
    intro p i e' hop hm
    rcases mem_own_snoc.1 hm with hm | ⟨-, rfl⟩
    · exact hm
    · exact absurd hop (h1 p)
  have hw : ∀ {p r x i}, .call (.write p r) x ∈ own i (g ++ [(j, e)]) → .call (.write p r) x ∈ own i g := by
    intro p r x i hm
    rcases mem_own_snoc.1 hm with hm | ⟨-, hm⟩
    · exact hm
    · exact absurd hm.symm (h2 p r x)
  refine ⟨fun p hp => h4 p (grows p hp), ?_, ?_, ?_, ?_, ?_, ?_⟩
  · intro p hp c hc
    have hk := keep p (fun i e' hm => hp i e' (List.mem_append_left _ hm)) c hc
    rw [h5 p (hp j e (by simp)) (by rw [hk]; simp)]
    exact hk
  · intro i d p hm
    have hop : Opens p (.call (.tempFile d) (.ok (.ok p))) := .inr ⟨d, rfl⟩
    exact fresh i d p (ho hop hm)
  · intro p i i' e1 e2 o1 o2 m1 m2
    exact uniq p i i' e1 e2 o1 o2 (ho o1 m1) (ho o2 m2)
  · intro p i e' hop hm; exact h4 p (stays p i e' hop (ho hop hm))
  · intro p i e' hop hm hn
    rw [h3 p i e' hop (ho hop hm)]
    exact empty p i e' hop (ho hop hm) fun r x h => hn r x (mem_own_snoc.2 (.inl h))
  · intro p i r x hm
    obtain ⟨⟨e', f1, f2⟩, f3⟩ := full p i r x (hw hm)
    rw [h3 p i e' f1 f2]
    exact ⟨⟨e', f1, mem_own_snoc.2 (.inl f2)⟩, f3⟩

/-- An event that opens a file. -/
theorem Fs5Inv.opened (hi : Fs5Inv json fs0 g fs) (j : Nat) (e : Ev) (p : Bytes) (hop : Opens p e) (hno : ∀ i e', Opens p e' → e' ∉ own i g)
    (hk : (∀ x, e ≠ .call (.create p) x) → fs p = none) (ht : ∀ d, e = .call (.tempFile d) (.ok (.ok p)) → TempName d p) :
    Fs5Inv json fs0 (g ++ [(j, e)]) (fs.set p []) := by
  obtain ⟨grows, keep, fresh, uniq, stays, empty, full⟩ := hi
  have hnw : ∀ i r x, .call (.write p r) x ∉ own i g := by
    intro i r x hx
    obtain ⟨⟨e', h1, h2⟩, -⟩ := full p i r x hx
    exact hno i e' h1 h2
  have hne : ∀ q, fs q ≠ none → fs.set p [] q ≠ none := by
    intro q hq
    by_cases hqp : q = p
    · rw [hqp, Fs5.set_self]; simp
    · rwa [Fs5.set_ne _ _ hqp]
  refine ⟨fun q hq => hne q (grows q hq), ?_, ?_, ?_, ?_, ?_, ?_⟩
  · intro q hq c hc
    have h1 := keep q (fun i e' hm => hq i e' (List.mem_append_left _ hm)) c hc
    rw [Fs5.set_ne _ _ ?_]
    · exact h1
    · rintro rfl
      rw [hk (hq j e (by simp))] at h1
      cases h1
  · intro i d q hm
    replace hm := mem_own_snoc.1 hm
    rcases hm with hm | ⟨rfl, hm⟩
    · exact fresh i d q hm
    · have := opens_inj (q := q) hop (.inr ⟨d, hm.symm⟩)
      subst this
      refine ⟨ht d hm.symm, Decidable.byContradiction fun h => grows p h (hk ?_)⟩
      intro x h
      rw [← hm] at h
      cases h
  · intro q i i' e1 e2 o1 o2 m1 m2
    replace m1 := mem_own_snoc.1 m1
    replace m2 := mem_own_snoc.1 m2
    rcases m1 with m1 | ⟨rfl, rfl⟩
    · rcases m2 with m2 | ⟨rfl, rfl⟩
      · exact uniq q i i' e1 e2 o1 o2 m1 m2
      · have := opens_inj hop o2
        subst this
        exact absurd m1 (hno i e1 o1)
    · rcases m2 with m2 | ⟨rfl, rfl⟩
      · have := opens_inj hop o1
        subst this
        exact absurd m2 (hno i' e2 o2)
      · rfl
  · intro q i e' o1 m1
    replace m1 := mem_own_snoc.1 m1
    rcases m1 with m1 | ⟨rfl, rfl⟩
    · exact hne q (stays q i e' o1 m1)
    · have := opens_inj hop o1
      subst this
      rw [Fs5.set_self]; simp
  · intro q i e' o1 m1 hn
    by_cases hqp : q = p
    · rw [hqp, Fs5.set_self]
    · rw [Fs5.set_ne _ _ hqp]
      replace m1 := mem_own_snoc.1 m1
      rcases m1 with m1 | ⟨rfl, rfl⟩
      · exact empty q i e' o1 m1 fun r x h => hn r x (mem_own_snoc.2 (.inl h))
      · exact absurd (opens_inj o1 hop) hqp
  · intro q i r x hm
    replace hm := mem_own_snoc.1 hm
    rcases hm with hm | ⟨rfl, rfl⟩
    · have hqp : q ≠ p := by rintro rfl; exact hnw i r x hm
      rw [Fs5.set_ne _ _ hqp]
      obtain ⟨⟨e', f1, f2⟩, f3⟩ := full q i r x hm
      exact ⟨⟨e', f1, mem_own_snoc.2 (.inl f2)⟩, f3⟩
    · exact absurd hop opens_not_write

/-- A write. -/
theorem Fs5Inv.wrote (hi : Fs5Inv json fs0 g fs) (j : Nat) (p : Bytes) (r : Record) (x : Outcome (Option Err)) (c c' : Bytes)
    (hint : SideBySide cfg (g ++ [(j, .call (.write p r) x)])) (hc : fs p = some c) (h1 : c = [] → c' <+: json r)
    (h2 : c = [] → x = .ok none → c' = json r) : Fs5Inv json fs0 (g ++ [(j, .call (.write p r) x)]) (fs.set p c') := by
  have hops : diskOps (own j (g ++ [(j, .call (.write p r) x)])) = diskOps (own j g) ++ [.call (.write p r) x] := by
    rw [own_snoc, if_pos rfl, diskOps_append]; rfl
  obtain ⟨u, t, -, -, hd⟩ := hint.ops j (by rw [hops]; simp)
  rw [hops] at hd
  obtain ⟨e, hm, hop⟩ := hd.snoc_write
  have hopen : e ∈ own j g := (mem_diskOps.1 (by rw [hm]; exact List.mem_singleton.2 rfl : e ∈ diskOps (own j g))).1
  have hnw : ∀ q r x, .call (.write q r) x ∉ own j g := by
    intro q r x hx
    have : Event.call (S := sig) (.write q r) x ∈ diskOps (own j g) := mem_diskOps.2 ⟨hx, rfl⟩
    rw [hm, List.mem_singleton] at this
    subst this
    exact opens_not_write hop
  obtain ⟨grows, keep, fresh, uniq, stays, empty, full⟩ := hi
  have hc0 : c = [] := by
    have := empty p j e hop hopen fun r x => hnw p r x
    rw [hc] at this
    exact Option.some.inj this
  replace h1 := h1 hc0
  replace h2 := h2 hc0
  have hnw' : ∀ i r x, .call (.write p r) x ∉ own i g := by
    intro i r x hx
    obtain ⟨⟨e', f1, f2⟩, -⟩ := full p i r x hx
    have := uniq p i j e' e f1 hop f2 hopen
    subst this
    exact hnw p r x hx
  have ho : ∀ {q i e'}, Opens q e' → e' ∈ own i (g ++ [(j, .call (.write p r) x)]) → e' ∈ own i g := by
    intro q i e' hop hm
    rcases mem_own_snoc.1 hm with hm | ⟨-, rfl⟩
    · exact hm
    · exact absurd hop opens_not_write
  have hne : ∀ q, fs q ≠ none → fs.set p c' q ≠ none := by
    intro q hq
    by_cases hqp : q = p
    · rw [hqp, Fs5.set_self]; simp
    · rwa [Fs5.set_ne _ _ hqp]
  refine ⟨fun q hq => hne q (grows q hq), ?_, ?_, ?_, ?_, ?_, ?_⟩
  · intro q hq c0 hc0'
    have h1 := keep q (fun i e' hm => hq i e' (List.mem_append_left _ hm)) c0 hc0'
    rw [Fs5.set_ne _ _ ?_]
    · exact h1
    · rintro rfl
      rcases hop with rfl | ⟨d, rfl⟩
      · exact hq j _ (List.mem_append_left _ (mem_own.1 hopen)) _ rfl
      · rw [(fresh j d q hopen).2] at hc0'
        cases hc0'
  · intro i d q hm
    have hop' : Opens q (.call (.tempFile d) (.ok (.ok q))) := .inr ⟨d, rfl⟩
    exact fresh i d q (ho hop' hm)
  · intro q i i' e1 e2 o1 o2 m1 m2
    exact uniq q i i' e1 e2 o1 o2 (ho o1 m1) (ho o2 m2)
  · intro q i e' o1 m1; exact hne q (stays q i e' o1 (ho o1 m1))
  · intro q i e' o1 m1 hn
    by_cases hqp : q = p
    · subst hqp
      have := uniq q i j e' e o1 hop (ho o1 m1) hopen
      subst this
      exact absurd (mem_own_snoc.2 (.inr ⟨rfl, rfl⟩)) (hn r x)
    · rw [Fs5.set_ne _ _ hqp]
      exact empty q i e' o1 (ho o1 m1) fun r x h => hn r x (mem_own_snoc.2 (.inl h))
  · intro q i r' x' hm
    replace hm := mem_own_snoc.1 hm
    rcases hm with hm | ⟨rfl, hm⟩
    · have hqp : q ≠ p := by rintro rfl; exact hnw' i r' x' hm
      rw [Fs5.set_ne _ _ hqp]
      obtain ⟨⟨e', f1, f2⟩, f3⟩ := full q i r' x' hm
      exact ⟨⟨e', f1, mem_own_snoc.2 (.inl f2)⟩, f3⟩
    · cases hm
      rw [Fs5.set_self]
      exact ⟨⟨e, hop, mem_own_snoc.2 (.inl hopen)⟩, _, rfl, h1, h2⟩

theorem fs5_inv (hr : Fs5Run json fs0 g fs) (hint : SideBySide cfg g) (ha : Apart cfg dir day g) : Fs5Inv json fs0 g fs := by
  induction hr with
  | nil => refine ⟨fun _ h => h, fun _ _ _ h => h, ?_, ?_, ?_, ?_, ?_⟩ <;> simp [own]
  | snoc g j e fs1 fs2 hr hs ih =>
    have hi := ih hint.of_append ha.of_append
    cases hs with
    | create p =>
      refine hi.opened j _ p (.inl rfl) (hi.unopened hint.of_append j p _ hint ha).2 (fun h => absurd rfl (h _)) ?_
      intro d h; cases h
    | createCrash p msg =>
      have hno := (hi.unopened hint.of_append j p _ hint ha).2
      refine hi.idle j _ _ ?_ (by intro q r x h; cases h) ?_ ?_ ?_
      · rintro q (h | ⟨d, h⟩) <;> cases h
      · intro q i e' hop he'
        exact Fs5.set_ne _ _ (by rintro rfl; exact hno i e' hop he')
      · intro q hq
        by_cases hqp : q = p
        · rw [hqp, Fs5.set_self]; simp
        · rwa [Fs5.set_ne _ _ hqp]
      · intro q hq _
        exact Fs5.set_ne _ _ (by rintro rfl; exact hq _ rfl)
    | noCreate p x hx =>
      refine hi.idle j _ _ ?_ (by intro q r x h; cases h) (fun _ _ _ _ _ => rfl) (fun _ h => h) (fun _ _ _ => rfl)
      rintro q (h | ⟨d, h⟩)
      · cases h; exact hx rfl
      · cases h
    | temp d p ht hp =>
      refine hi.opened j _ p (.inr ⟨d, rfl⟩) (fun i e' hop he' => hi.stays p i e' hop he' hp) (fun _ => hp) ?_
      intro d' h; cases h; exact ht
    | tempCrash d p msg ht hp =>
      refine hi.idle j _ _ ?_ (by intro q r x h; cases h) ?_ ?_ ?_
      · rintro q (h | ⟨d, h⟩) <;> cases h
      · intro q i e' hop he'
        exact Fs5.set_ne _ _ (by rintro rfl; exact hi.stays _ i e' hop he' hp)
      · intro q hq
        by_cases hqp : q = p
        · rw [hqp, Fs5.set_self]; simp
        · rwa [Fs5.set_ne _ _ hqp]
      · intro q _ hq
        exact Fs5.set_ne _ _ (by rintro rfl; exact hq hp)
    | noTemp d x hx =>
      refine hi.idle j _ _ ?_ (by intro q r x h; cases h) (fun _ _ _ _ _ => rfl) (fun _ h => h) (fun _ _ _ => rfl)
      rintro q (h | ⟨d, h⟩)
      · cases h
      · cases h; exact hx _ rfl
    | write p c c' r x hc h1 h2 => exact hi.wrote j p r x c c' hint hc h1 h2
    | other =>
      rename_i h1 h2 h3
      refine hi.idle j _ _ ?_ h3 (fun _ _ _ _ _ => rfl) (fun _ h => h) (fun _ _ _ => rfl)
      rintro q (h | ⟨d, h⟩)
      · exact h1 _ _ h
      · exact h2 _ _ h

end
end Verif.Ndt5
