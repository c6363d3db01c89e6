import Verif.Spec.Totals
import Verif.Ndt5.ServerShape
import Verif.Ndt5.FilesInv
import Verif.Ndt7.CounterShape
import Verif.Ndt7.FilesInv
import Verif.Props.SharedDisk
import Mathlib.Algebra.BigOperators.Group.Finset.Piecewise
import Mathlib.Algebra.Order.BigOperators.Group.Finset
import Mathlib.Algebra.BigOperators.Ring.Finset

/-!
# The metrics of the process

C98: whatever connections of both protocols do, side by side, and at every moment: the gauge of active tests tells how many control connections are being served, and the
counters of control connections, test servers and ndt7 requests tell how many there were.
-/

namespace Verif.Props
open Verif.Go Verif.Spec
open scoped Classical

set_option maxRecDepth 20000

/-! ## Sums over all connections -/

private def sum5 (w : Ndt5.Ev → Int) (e : List Ndt5.Ev) : Int := (e.map w).sum

private theorem own_cons (i j : Nat) (e : Ndt5.Ev) (g : List (Nat × Ndt5.Ev)) : own i ((j, e) :: g) = if j = i then e :: own i g else own i g := by
  unfold own
  by_cases h : j = i <;> simp [h]

private theorem mine_cons (i j : Nat) (e : Ndt7.Ev) (g : List (Nat × Ndt7.Ev)) : mine i ((j, e) :: g) = if j = i then e :: mine i g else mine i g := by
  unfold mine
  by_cases h : j = i <;> simp [h]

private theorem sum_own (w : Ndt5.Ev → Int) (T : Finset Nat) (g : List (Nat × Ndt5.Ev)) (hT : ∀ x ∈ g, x.1 ∈ T) :
    (g.map fun x => w x.2).sum = ∑ i ∈ T, sum5 w (own i g) := by
  induction g with
  | nil => simp [sum5, own]
  | cons x g ih =>
    obtain ⟨j, e⟩ := x
    have hj : j ∈ T := hT (j, e) (by simp)
    rw [List.map_cons, List.sum_cons, ih fun x hx => hT x (by simp [hx])]
    have : ∀ i, sum5 w (own i ((j, e) :: g)) = (if j = i then w e else 0) + sum5 w (own i g) := by
      intro i
      rw [own_cons]
      split <;> simp [sum5]
    rw [Finset.sum_congr rfl fun i _ => this i, Finset.sum_add_distrib, Finset.sum_ite_eq, if_pos hj]

private theorem count_mine (p : Ndt7.Ev → Bool) (T : Finset Nat) (g : List (Nat × Ndt7.Ev)) (hT : ∀ x ∈ g, x.1 ∈ T) :
    g.countP (fun x => p x.2) = ∑ i ∈ T, (mine i g).countP p := by
  induction g with
  | nil => simp [mine]
  | cons x g ih =>
    obtain ⟨j, e⟩ := x
    have hj : j ∈ T := hT (j, e) (by simp)
    rw [List.countP_cons, ih fun x hx => hT x (by simp [hx])]
    have : ∀ i, (mine i ((j, e) :: g)).countP p = (if j = i then (if p e then 1 else 0) else 0) + (mine i g).countP p := by
      intro i
      rw [mine_cons]
      split <;> simp [List.countP_cons, Nat.add_comm]
    rw [Finset.sum_congr rfl fun i _ => this i, Finset.sum_add_distrib, Finset.sum_ite_eq, if_pos hj, Nat.add_comm]

private theorem count_own (p : Ndt5.Ev → Bool) (T : Finset Nat) (g : List (Nat × Ndt5.Ev)) (hT : ∀ x ∈ g, x.1 ∈ T) :
    g.countP (fun x => p x.2) = ∑ i ∈ T, count p (own i g) := by
  induction g with
  | nil => simp [own, count]
  | cons x g ih =>
    obtain ⟨j, e⟩ := x
    have hj : j ∈ T := hT (j, e) (by simp)
    rw [List.countP_cons, ih fun x hx => hT x (by simp [hx])]
    have : ∀ i, count p (own i ((j, e) :: g)) = (if j = i then (if p e then 1 else 0) else 0) + count p (own i g) := by
      intro i
      rw [own_cons]
      split <;> simp [count, List.countP_cons, Nat.add_comm]
    rw [Finset.sum_congr rfl fun i _ => this i, Finset.sum_add_distrib, Finset.sum_ite_eq, if_pos hj, Nat.add_comm]

private theorem tally_eq (p : Ndt5.Ev → Bool) (g : List AnyEv) : tally p g = (ndt5Of g).countP fun x => p x.2 := by
  unfold tally ndt5Of
  rw [List.countP_filterMap]
  congr 1
  funext x
  cases x <;> rfl

private theorem tally7_eq (p : Ndt7.Ev → Bool) (g : List AnyEv) : tally7 p g = (ndt7Of g).countP fun x => p x.2 := by
  unfold tally7 ndt7Of
  rw [List.countP_filterMap]
  congr 1
  funext x
  cases x <;> rfl

/-- The change of the gauge by an event. -/
private def weigh (label : Bytes) : Ndt5.Ev → Int
  | .emit (.activeTests l d) => if l = label then d else 0
  | _ => 0

private theorem gauge_eq (label : Bytes) (g : List AnyEv) : gauge label g = ((ndt5Of g).map fun x => weigh label x.2).sum := by
  unfold gauge ndt5Of
  induction g with
  | nil => rfl
  | cons x g ih =>
    cases x with
    | ndt5 i e =>
      rw [List.filterMap_cons]
      simp only [List.map_cons, List.sum_cons, ih]
      congr 1
      unfold weigh
      split <;> split <;> simp_all
    | ndt7 i e =>
      rw [List.filterMap_cons]
      simp only [List.map_cons, List.sum_cons, ih, zero_add]

private def all5 (g : List AnyEv) : Finset Nat := ((ndt5Of g).map Prod.fst).toFinset
private def all7 (g : List AnyEv) : Finset Nat := ((ndt7Of g).map Prod.fst).toFinset

private theorem all5_mem {g : List AnyEv} : ∀ x ∈ ndt5Of g, x.1 ∈ all5 g := by
  intro x hx
  simp only [all5, List.mem_toFinset, List.mem_map]
  exact ⟨x, hx, rfl⟩

private theorem all7_mem {g : List AnyEv} : ∀ x ∈ ndt7Of g, x.1 ∈ all7 g := by
  intro x hx
  simp only [all7, List.mem_toFinset, List.mem_map]
  exact ⟨x, hx, rfl⟩

private theorem begun_mem {g : List AnyEv} {i : Nat} (h : Begun i g) : i ∈ all5 g := by
  obtain ⟨e, he⟩ := List.exists_mem_of_ne_nil _ h
  exact all5_mem _ (Ndt5.mem_own.1 he)

private theorem begun7_mem {g : List AnyEv} {i : Nat} (h : Begun7 i g) : i ∈ all7 g := by
  obtain ⟨e, he⟩ := List.exists_mem_of_ne_nil _ h
  exact all7_mem _ (Ndt7.mem_mine.1 he)

private noncomputable def those (g : List AnyEv) (p : Nat → Prop) : Finset Nat := (all5 g).filter p
private noncomputable def those7 (g : List AnyEv) (p : Nat → Prop) : Finset Nat := (all7 g).filter p

private theorem card_sum {g : List AnyEv} (q : Nat → Prop) : (those g q).card = ∑ i ∈ all5 g, if q i then 1 else 0 := by
  rw [those, Finset.card_filter]

private theorem card_none {g : List AnyEv} {q : Nat → Prop} (h : ∀ i, ¬ q i) : (those g q).card = 0 := by
  rw [card_sum]
  exact Finset.sum_eq_zero fun i _ => if_neg (h i)

private theorem are_filter5 {g : List AnyEv} {p : Nat → Prop} (h : ∀ i, p i → Begun i g) : Are (those g p) p := by
  intro i
  unfold those
  rw [Finset.mem_filter]
  exact ⟨And.right, fun hp => ⟨begun_mem (h i hp), hp⟩⟩

private theorem are_filter7 {g : List AnyEv} {p : Nat → Prop} (h : ∀ i, p i → Begun7 i g) : Are (those7 g p) p := by
  intro i
  unfold those7
  rw [Finset.mem_filter]
  exact ⟨And.right, fun hp => ⟨begun7_mem (h i hp), hp⟩⟩

private theorem are_unique {S T : Finset Nat} {p : Nat → Prop} (h1 : Are S p) (h2 : Are T p) : S = T := by
  ext i; rw [h1 i, h2 i]

/-! ## One control connection, up to some point -/

section
open Verif.Ndt5

private theorem shape {cfg : Cfg} {evs : List Ev} {out : Outcome Unit} (h : Exec (HandleControlChannel cfg) () evs out ()) :
    ∃ mid, evs = .emit (.activeTests cfg.label 1) :: (mid ++ [.emit (.activeTests cfg.label (-1))]) := by
  cases (whole h).2 with
  | early mid t0 t1 o => exact ⟨.clock t0 :: (mid ++ (endNotes cfg o ++ [.clock t1, .emit (.duration cfg.label (t1 - t0))])), by simp⟩
  | run t0 t t1 a u eS eF oS oF r s h1 h2 =>
    exact ⟨[.clock t0, .call (.addrs .control) (.ok a), .clock t, .call (.uuid .control) (.ok u)] ++ (eS ++ (eF ++ (.call (.close .control) r ::
      (endNotes cfg (after (after oS oF) r) ++ [.clock t1, .emit (.duration cfg.label (t1 - t0))])))), by simp [preEvents, postEvents]⟩

/-- How far a control connection has come, by what it has accounted for. -/
private inductive Stage (cfg : Cfg) (e : List Ev) : List Note → Prop
  | idle : e = [] → Stage cfg e []
  | serving : e ≠ [] → (¬ ∃ out, Exec (HandleControlChannel cfg) () e out ()) → Stage cfg e [.activeTests cfg.label 1]
  | crashed (w : Bytes) : e ≠ [] → (¬ ∃ out, Exec (HandleControlChannel cfg) () e out ()) → Stage cfg e [.activeTests cfg.label 1, .panicCount cfg.label w]
  | counted (l : List Note) (r : Bytes) (d : List Note) : e ≠ [] → (¬ ∃ out, Exec (HandleControlChannel cfg) () e out ()) →
      (r = str "okay" ∧ l = [] ∨ r = str "panic" ∧ ∃ w, l = [.panicCount cfg.label w]) → (d = [] ∨ ∃ ns, d = [.duration cfg.label ns]) →
      Stage cfg e (.activeTests cfg.label 1 :: (l ++ .controlCount cfg.label r :: d))
  | over (l : List Note) (r : Bytes) (ns : Int) : e ≠ [] → (∃ out, Exec (HandleControlChannel cfg) () e out ()) →
      (r = str "okay" ∧ l = [] ∨ r = str "panic" ∧ ∃ w, l = [.panicCount cfg.label w]) →
      Stage cfg e (.activeTests cfg.label 1 :: (l ++ [.controlCount cfg.label r, .duration cfg.label ns, .activeTests cfg.label (-1)]))

private theorem whole_ledger {cfg : Cfg} {evs : List Ev} {out : Outcome Unit} (h : Exec (HandleControlChannel cfg) () evs out ()) :
    ∃ o ns, accounts evs = ledger cfg o ns := by
  cases (whole h).2 with
  | early mid t0 t1 o h1 => exact ⟨o, _, accounts_early h1⟩
  | run t0 t t1 a u eS eF oS oF r s h1 h2 => exact ⟨_, _, accounts_run h1 h2⟩

private theorem ledger_ne {cfg : Cfg} {o o' : Outcome Unit} {ns ns' : Int} {x : List Note} (h : ledger cfg o ns = x ++ [.activeTests cfg.label (-1)])
    (h' : ledger cfg o' ns' <+: x) : False := by
  have hm : .activeTests cfg.label (-1) ∈ x := h'.subset (by simp [ledger])
  have : x = (ledger cfg o ns).dropLast := by rw [h]; simp
  rw [this] at hm
  cases o <;> simp [ledger] at hm

private theorem stage {cfg : Cfg} {evs e : List Ev} {out : Outcome Unit} (h : Exec (HandleControlChannel cfg) () evs out ()) (hp : e <+: evs) :
    Stage cfg e (accounts e) := by
  obtain ⟨mid, hmid⟩ := shape h
  obtain ⟨o, ns, hl⟩ := whole_ledger h
  have hlast : ledger cfg o ns = (.activeTests cfg.label 1 :: accounts mid) ++ [.activeTests cfg.label (-1)] := by
    rw [← hl, hmid, ← List.singleton_append, accounts_append, accounts_append]
    rfl
  by_cases he : e = []
  · subst he; exact .idle rfl
  have hproper : (e = evs) ∨ e <+: .emit (.activeTests cfg.label 1) :: mid := by
    rw [hmid, ← List.cons_append] at hp
    rcases List.prefix_concat_iff.1 hp with h' | h'
    · left; rw [h', hmid]; simp
    · exact .inr h'
  rcases hproper with rfl | hproper
  · rw [hl]
    cases o with
    | ok v => exact .over [] (str "okay") ns he ⟨_, h⟩ (.inl ⟨rfl, rfl⟩)
    | panic msg => exact .over [.panicCount cfg.label (panicMsgToErrType msg)] (str "panic") ns he ⟨_, h⟩ (.inr ⟨rfl, _, rfl⟩)
  have hacc : accounts e <+: .activeTests cfg.label 1 :: accounts mid := by
    have : accounts e <+: accounts (.emit (.activeTests cfg.label 1) :: mid) := (hproper.filterMap _).filter _
    exact this
  have hover : ¬ ∃ out, Exec (HandleControlChannel cfg) () e out () := by
    rintro ⟨out', h'⟩
    obtain ⟨o', ns', hl'⟩ := whole_ledger h'
    rw [hl'] at hacc
    exact ledger_ne hlast hacc
  have hfirst : accounts e ≠ [] := by
    obtain ⟨a, b, rfl⟩ := List.exists_cons_of_ne_nil he
    have : a = .emit (.activeTests cfg.label 1) := by
      obtain ⟨t, ht⟩ := hproper
      exact (List.cons.inj ht).1
    subst this
    show accounts ([.emit (.activeTests cfg.label 1)] ++ b) ≠ []
    rw [accounts_append]
    simp [accounts, notes, noteOf, accounting]
  have hmidl : accounts mid = (ledger cfg o ns).tail.dropLast := by rw [hlast]; simp
  rw [hmidl] at hacc
  cases o with
  | ok v =>
    simp only [ledger, List.cons_append, List.nil_append, List.tail_cons, List.dropLast, List.prefix_cons_iff, List.prefix_nil] at hacc
    rcases hacc with h0 | ⟨t, ht, h0 | ⟨t', rfl, h0 | ⟨t'', rfl, rfl⟩⟩⟩
    · exact absurd h0 hfirst
    · rw [ht, h0]; exact .serving he hover
    · rw [ht, h0]; exact .counted [] _ [] he hover (.inl ⟨rfl, rfl⟩) (.inl rfl)
    · rw [ht]; exact .counted [] _ [_] he hover (.inl ⟨rfl, rfl⟩) (.inr ⟨_, rfl⟩)
  | panic msg =>
    simp only [ledger, List.cons_append, List.nil_append, List.tail_cons, List.dropLast, List.prefix_cons_iff, List.prefix_nil] at hacc
    rcases hacc with h0 | ⟨t, ht, h0 | ⟨t', rfl, h0 | ⟨t'', rfl, h0 | ⟨t3, rfl, rfl⟩⟩⟩⟩
    · exact absurd h0 hfirst
    · rw [ht, h0]; exact .serving he hover
    · rw [ht, h0]; exact .crashed _ he hover
    · rw [ht, h0]; exact .counted [.panicCount cfg.label (panicMsgToErrType msg)] _ [] he hover (.inr ⟨rfl, _, rfl⟩) (.inl rfl)
    · rw [ht]; exact .counted [.panicCount cfg.label (panicMsgToErrType msg)] _ [_] he hover (.inr ⟨rfl, _, rfl⟩) (.inr ⟨_, rfl⟩)

private theorem sum_accounts (label : Bytes) (e : List Ev) : sum5 (weigh label) e = ((accounts e).map fun o => weigh label (.emit o)).sum := by
  induction e with
  | nil => rfl
  | cons x e ih =>
    have hc : accounts (x :: e) = accounts [x] ++ accounts e := accounts_append [x] e
    rw [hc, List.map_append, List.sum_append, ← ih]
    unfold sum5
    rw [List.map_cons, List.sum_cons]
    congr 1
    cases x with
    | emit o => cases o <;> simp [accounts, notes, noteOf, accounting, weigh, List.filter_cons]
    | _ => rfl

private theorem count_accounts {p : Ev → Bool} (hp : ∀ x, p x = true → ∃ o, x = .emit o ∧ accounting o = true) (e : List Ev) :
    count p e = (accounts e).countP fun o => p (.emit o) := by
  induction e with
  | nil => rfl
  | cons x e ih =>
    have hc : accounts (x :: e) = accounts [x] ++ accounts e := accounts_append [x] e
    rw [hc, List.countP_append, ← ih, count_cons, Nat.add_comm]
    have : (accounts [x]).countP (fun o => p (.emit o)) = if p x then 1 else 0 := by
      by_cases hx : p x = true
      · obtain ⟨o, rfl, ho⟩ := hp x hx
        simp [accounts, notes, noteOf, ho, hx]
      · cases x with
        | emit o => by_cases ho : accounting o = true <;> simp_all [accounts, notes, noteOf]
        | _ => simp [accounts, notes, noteOf, hx]
    omega

end

section
variable {cfg : Nat → Ndt5.Cfg} {g : List AnyEv}

private theorem stages (hs : Ndt5.SideBySide cfg (ndt5Of g)) (i : Nat) : Stage (cfg i) (own i (ndt5Of g)) (accounts (own i (ndt5Of g))) := by
  obtain ⟨evs, out, h1, h2⟩ := hs i
  exact stage h1 h2

private theorem over_begun {i : Nat} (h : Over cfg i g) : Begun i g := by
  obtain ⟨out, h⟩ := h
  obtain ⟨mid, hm⟩ := shape h
  unfold Begun
  rw [hm]
  simp

private theorem label_inj {k k' : Ndt5.Kind} : (Ndt5.Kind.label k = labelText k') ↔ k = k' := by
  cases k <;> cases k' <;> decide

private theorem gauge_one (hs : Ndt5.SideBySide cfg (ndt5Of g)) (i : Nat) (label : Bytes) :
    sum5 (weigh label) (own i (ndt5Of g)) = if InProgress cfg i g ∧ (cfg i).label = label then 1 else 0 := by
  rw [sum_accounts]
  generalize ha : accounts (own i (ndt5Of g)) = a
  have hst := stages hs i
  rw [ha] at hst
  by_cases hl : (cfg i).label = label
  · cases hst with
    | idle he => rw [if_neg fun h => h.1.1 he]; rfl
    | serving h1 h2 => rw [if_pos ⟨⟨h1, h2⟩, hl⟩]; simp [weigh, hl]
    | crashed w h1 h2 => rw [if_pos ⟨⟨h1, h2⟩, hl⟩]; simp [weigh, hl]
    | counted l r d h1 h2 h3 h4 =>
      rw [if_pos ⟨⟨h1, h2⟩, hl⟩]
      rcases h3 with ⟨-, rfl⟩ | ⟨-, w, rfl⟩ <;> rcases h4 with rfl | ⟨ns, rfl⟩ <;> simp [weigh, hl]
    | over l r ns h1 h2 h3 =>
      rw [if_neg fun h => h.1.2 h2]
      rcases h3 with ⟨-, rfl⟩ | ⟨-, w, rfl⟩ <;> simp [weigh, hl]
  · rw [if_neg fun h => hl h.2]
    cases hst with
    | counted l r d h1 h2 h3 h4 => rcases h3 with ⟨-, rfl⟩ | ⟨-, w, rfl⟩ <;> rcases h4 with rfl | ⟨ns, rfl⟩ <;> simp [weigh, hl]
    | over l r ns h1 h2 h3 => rcases h3 with ⟨-, rfl⟩ | ⟨-, w, rfl⟩ <;> simp [weigh, hl]
    | _ => simp [weigh, hl]

private theorem gauge_sum (hs : Ndt5.SideBySide cfg (ndt5Of g)) (label : Bytes) :
    gauge label g = (those g fun i => InProgress cfg i g ∧ (cfg i).label = label).card := by
  rw [gauge_eq, sum_own _ (all5 g) _ all5_mem, Finset.sum_congr rfl fun i _ => gauge_one hs i label, card_sum, Nat.cast_sum]
  refine Finset.sum_congr rfl fun i _ => ?_
  by_cases h : InProgress cfg i g ∧ (cfg i).label = label
  · rw [if_pos h, if_pos h]; rfl
  · rw [if_neg h, if_neg h]; rfl

/-- C98, the part that holds: at every moment the gauge of active tests of an ndt5 protocol is the number of control connections of that protocol that are being served,
whatever they and others do and however sessions end. Missing for the full property: ndt7 requests. -/
theorem C98_gauge_partial (hs : Ndt5.SideBySide cfg (ndt5Of g)) (k : Ndt5.Kind) :
    ∃ S, Are S (fun i => InProgress cfg i g ∧ (cfg i).kind = k) ∧ gauge (labelText k) g = S.card := by
  refine ⟨_, are_filter5 (fun i h => h.1.1), ?_⟩
  rw [gauge_sum hs]
  simp only [Ndt5.Cfg.label, label_inj]

/-- C98: the gauge has no other labels than those of the three protocols. -/
theorem C98_gauge_labels (hs : Ndt5.SideBySide cfg (ndt5Of g)) (label : Bytes) (hl : ∀ k, label ≠ labelText k) : gauge label g = 0 := by
  rw [gauge_sum hs, card_none]
  · rfl
  · rintro i ⟨-, h⟩
    exact hl (cfg i).kind (by rw [← h, label_eq])

/-- C98: when no control connection is being served, the gauge is zero. -/
theorem C98_gauge_idle (hs : Ndt5.SideBySide cfg (ndt5Of g)) (hi : ∀ i, ¬ InProgress cfg i g) (label : Bytes) : gauge label g = 0 := by
  rw [gauge_sum hs, card_none]
  · rfl
  · rintro i ⟨h, -⟩
    exact hi i h

/-! ## The counters of control connections -/

/-- The counters of one connection, in terms of how far it has come. -/
private theorem counts_one (hs : Ndt5.SideBySide cfg (ndt5Of g)) (i : Nat) (label : Bytes) :
    let c := fun p => count p (own i (ndt5Of g))
    c (countsAnyControl label) = c (countsControl label (str "okay")) + c (countsControl label (str "panic")) ∧
    (if Over cfg i g ∧ (cfg i).label = label then 1 else 0) ≤ c (countsDuration label) ∧ c (countsDuration label) ≤ c (countsAnyControl label) ∧
    c (countsAnyControl label) ≤ (if Begun i g ∧ (cfg i).label = label then 1 else 0) ∧
    c (countsControl label (str "panic")) ≤ c (countsPanic label) ∧
    c (countsPanic label) ≤ c (countsControl label (str "panic")) + (if InProgress cfg i g ∧ (cfg i).label = label then 1 else 0) := by
  intro c
  have hne : str "okay" ≠ str "panic" := by decide
  have key : ∀ p : Ndt5.Ev → Bool, (∀ x, p x = true → ∃ o, x = .emit o ∧ Spec.accounting o = true) →
      c p = (accounts (own i (ndt5Of g))).countP fun o => p (.emit o) := fun p hp => count_accounts hp _
  rw [key (countsAnyControl label) (fun x h => by unfold countsAnyControl at h; split at h <;> simp_all [accounting]),
    key (countsControl label (str "okay")) (fun x h => by unfold countsControl at h; split at h <;> simp_all [accounting]),
    key (countsControl label (str "panic")) (fun x h => by unfold countsControl at h; split at h <;> simp_all [accounting]),
    key (countsDuration label) (fun x h => by unfold countsDuration at h; split at h <;> simp_all [accounting]),
    key (countsPanic label) (fun x h => by unfold countsPanic at h; split at h <;> simp_all [accounting])]
  clear key c
  generalize ha : accounts (own i (ndt5Of g)) = a
  have hst := stages hs i
  rw [ha] at hst
  by_cases hl : (cfg i).label = label
  · cases hst with
    | idle he =>
      have h1 : ¬ Over cfg i g := fun h => over_begun h he
      simp [h1]
    | serving h1 h2 =>
      have h1 : Begun i g := h1
      have h2 : ¬ Over cfg i g := h2
      simp [h1, h2, hl, InProgress, countsAnyControl, countsControl, countsDuration, countsPanic]
    | crashed w h1 h2 =>
      have h1 : Begun i g := h1
      have h2 : ¬ Over cfg i g := h2
      simp [h1, h2, hl, InProgress, countsAnyControl, countsControl, countsDuration, countsPanic]
    | counted l r d h1 h2 h3 h4 =>
      have h1 : Begun i g := h1
      have h2 : ¬ Over cfg i g := h2
      rcases h3 with ⟨rfl, rfl⟩ | ⟨rfl, w, rfl⟩ <;> rcases h4 with rfl | ⟨ns, rfl⟩ <;>
        simp [h1, h2, hl, hne, hne.symm, InProgress, countsAnyControl, countsControl, countsDuration, countsPanic]
    | over l r ns h1 h2 h3 =>
      have h1 : Begun i g := h1
      have h2 : Over cfg i g := h2
      rcases h3 with ⟨rfl, rfl⟩ | ⟨rfl, w, rfl⟩ <;>
        simp [h1, h2, hl, hne, hne.symm, InProgress, countsAnyControl, countsControl, countsDuration, countsPanic]
  · cases hst with
    | counted l r d h1 h2 h3 h4 =>
      rcases h3 with ⟨rfl, rfl⟩ | ⟨rfl, w, rfl⟩ <;> rcases h4 with rfl | ⟨ns, rfl⟩ <;>
        simp [hl, countsAnyControl, countsControl, countsDuration, countsPanic]
    | over l r ns h1 h2 h3 =>
      rcases h3 with ⟨rfl, rfl⟩ | ⟨rfl, w, rfl⟩ <;> simp [hl, countsAnyControl, countsControl, countsDuration, countsPanic]
    | _ => simp [hl, countsAnyControl, countsControl, countsDuration, countsPanic]

private theorem tally_sum (p : Ndt5.Ev → Bool) : tally p g = ∑ i ∈ all5 g, count p (own i (ndt5Of g)) := by
  rw [tally_eq, count_own p (all5 g) _ all5_mem]

/-- C98: at every moment, for every ndt5 protocol: the results of control connections are 'okay' or 'panic'; there is a result for every connection that is over, and at most
one for each that has begun; the same holds of the durations, and no duration is observed before its result is counted. -/
theorem C98_results (hs : Ndt5.SideBySide cfg (ndt5Of g)) (k : Ndt5.Kind) :
    ∃ B O, Are B (fun i => Begun i g ∧ (cfg i).kind = k) ∧ Are O (fun i => Over cfg i g ∧ (cfg i).kind = k) ∧
      O.card ≤ tally (countsDuration (labelText k)) g ∧ tally (countsDuration (labelText k)) g ≤ tally (countsAnyControl (labelText k)) g ∧
      tally (countsAnyControl (labelText k)) g ≤ B.card ∧
      tally (countsAnyControl (labelText k)) g = tally (countsControl (labelText k) (str "okay")) g + tally (countsControl (labelText k) (str "panic")) g := by
  have hk : ∀ i, (cfg i).kind = k ↔ (cfg i).label = labelText k := fun i => by rw [Ndt5.Cfg.label, label_inj]
  refine ⟨_, _, are_filter5 (fun i h => h.1), are_filter5 (fun i h => over_begun h.1), ?_, ?_, ?_, ?_⟩
  · rw [tally_sum, card_sum]
    exact Finset.sum_le_sum fun i _ => by simpa only [hk] using (counts_one hs i (labelText k)).2.1
  · rw [tally_sum, tally_sum]
    exact Finset.sum_le_sum fun i _ => (counts_one hs i (labelText k)).2.2.1
  · rw [tally_sum, card_sum]
    exact Finset.sum_le_sum fun i _ => by simpa only [hk] using (counts_one hs i (labelText k)).2.2.2.1
  · rw [tally_sum, tally_sum, tally_sum, ← Finset.sum_add_distrib]
    exact Finset.sum_congr rfl fun i _ => (counts_one hs i (labelText k)).1

/-- C98: at every moment, for every protocol, the panics counted are the results 'panic', except for connections that are just being served. -/
theorem C98_panics (hs : Ndt5.SideBySide cfg (ndt5Of g)) (label : Bytes) :
    tally (countsControl label (str "panic")) g ≤ tally (countsPanic label) g ∧
    (tally (countsPanic label) g : Int) ≤ tally (countsControl label (str "panic")) g + gauge label g := by
  constructor
  · rw [tally_sum, tally_sum]
    exact Finset.sum_le_sum fun i _ => (counts_one hs i label).2.2.2.2.1
  · rw [gauge_sum hs, card_sum, tally_sum, tally_sum]
    norm_cast
    rw [← Finset.sum_add_distrib]
    refine Finset.sum_le_sum fun i _ => ?_
    have h := (counts_one hs i label).2.2.2.2.2
    by_cases hp : InProgress cfg i g ∧ (cfg i).label = label
    · rw [if_pos hp] at h ⊢; exact h
    · rw [if_neg hp] at h ⊢; exact h

/-- C98: when no control connection is being served, every protocol has one result and one duration for every connection there was, and as many panics as results 'panic'. -/
theorem C98_idle_counters (hs : Ndt5.SideBySide cfg (ndt5Of g)) (hi : ∀ i, ¬ InProgress cfg i g) (k : Ndt5.Kind) :
    ∃ B, Are B (fun i => Begun i g ∧ (cfg i).kind = k) ∧ tally (countsAnyControl (labelText k)) g = B.card ∧ tally (countsDuration (labelText k)) g = B.card ∧
      tally (countsPanic (labelText k)) g = tally (countsControl (labelText k) (str "panic")) g := by
  obtain ⟨B, O, hB, hO, h1, h2, h3, -⟩ := C98_results hs k
  have : O = B := are_unique hO (fun i => by
    rw [hB i]
    constructor
    · rintro ⟨hb, hk⟩
      exact ⟨Classical.byContradiction fun hn => hi i ⟨hb, hn⟩, hk⟩
    · rintro ⟨ho, hk⟩
      exact ⟨over_begun ho, hk⟩)
  subst this
  have hp := C98_panics hs (labelText k)
  rw [C98_gauge_idle hs hi] at hp
  refine ⟨O, hB, by omega, by omega, by omega⟩

/-! ## Test servers -/

private theorem prefix_append {α : Type} {l a b : List α} (h : l <+: a ++ b) : l <+: a ∨ ∃ m, l = a ++ m ∧ m <+: b := by
  obtain ⟨t, ht⟩ := h
  rcases List.append_eq_append_iff.1 ht with ⟨x, hx, -⟩ | ⟨x, hx, hy⟩
  · exact .inl ⟨x, hx.symm⟩
  · exact .inr ⟨x, hx, t, hy.symm⟩

/-- What always holds of the counters of test servers. -/
private structure Bal (l : List Ndt5.Ev) : Prop where
  stop (q : Bytes) : l.countP (countsStop q) ≤ l.countP (countsStart q)
  opened : l.countP listenWorks + l.countP listenFails ≤ l.countP countsAnyStart
  ends : l.countP listenEnds ≤ l.countP countsAnyStop
  works : l.countP countsAnyStop ≤ l.countP listenWorks

/-- What holds of them up to something that is happening right now. -/
private structure Near (n : Nat) (l : List Ndt5.Ev) : Prop where
  starts : l.countP countsAnyStart ≤ l.countP listenWorks + l.countP listenFails + n
  stops : l.countP countsAnyStop ≤ l.countP listenEnds + n

private theorem Bal.append {a b : List Ndt5.Ev} (ha : Bal a) (hb : Bal b) : Bal (a ++ b) := by
  constructor
  · intro q
    have := ha.stop q; have := hb.stop q
    simp only [List.countP_append]; omega
  · have := ha.opened; have := hb.opened
    simp only [List.countP_append]; omega
  · have := ha.ends; have := hb.ends
    simp only [List.countP_append]; omega
  · have := ha.works; have := hb.works
    simp only [List.countP_append]; omega

private theorem Near.append {n : Nat} {a b : List Ndt5.Ev} (ha : Near 0 a) (hb : Near n b) : Near n (a ++ b) := by
  constructor
  · have := ha.starts; have := hb.starts
    simp only [List.countP_append]; omega
  · have := ha.stops; have := hb.stops
    simp only [List.countP_append]; omega

private theorem Near.mono {n : Nat} {a : List Ndt5.Ev} (ha : Near 0 a) : Near n a :=
  ⟨by have := ha.starts; omega, by have := ha.stops; omega⟩

private theorem run_near {c : Ndt5.Cfg} {d : Ndt5.Dir} {l : List Ndt5.Ev} (h : Ndt5.ServerRun c d l) : Near 0 l := by
  cases h <;> constructor <;> simp [countsAnyStart, countsAnyStop, listenWorks, listenFails, listenEnds, List.countP_cons]

private theorem run_prefix {c : Ndt5.Cfg} {d : Ndt5.Dir} {l m : List Ndt5.Ev} (h : Ndt5.ServerRun c d l) (hp : m <+: l) : Bal m ∧ Near 1 m := by
  cases h
  all_goals simp only [List.prefix_cons_iff, List.prefix_nil] at hp
  case none => subst hp; constructor <;> constructor <;> simp
  case crashed =>
    rcases hp with rfl | ⟨_, rfl, rfl | ⟨_, rfl, rfl⟩⟩ <;> constructor <;> constructor <;>
      simp [countsStart, countsStop, countsAnyStart, countsAnyStop, listenWorks, listenFails, listenEnds, List.countP_cons]
  case failed =>
    rcases hp with rfl | ⟨_, rfl, rfl | ⟨_, rfl, rfl⟩⟩ <;> constructor <;> constructor <;>
      simp [countsStart, countsStop, countsAnyStart, countsAnyStop, listenWorks, listenFails, listenEnds, List.countP_cons]
  case left =>
    rcases hp with rfl | ⟨_, rfl, rfl | ⟨_, rfl, rfl⟩⟩ <;> constructor <;> constructor <;>
      simp [countsStart, countsStop, countsAnyStart, countsAnyStop, listenWorks, listenFails, listenEnds, List.countP_cons]
  case closed =>
    rcases hp with rfl | ⟨_, rfl, rfl | ⟨_, rfl, rfl | ⟨_, rfl, rfl | ⟨_, rfl, rfl⟩⟩⟩⟩ <;> constructor <;> constructor <;>
      simp [countsStart, countsStop, countsAnyStart, countsAnyStop, listenWorks, listenFails, listenEnds, List.countP_cons]

private theorem count_servers {p : Ndt5.Ev → Bool} (hp : ∀ x, p x = true → Ndt5.isServer x = true) (e : List Ndt5.Ev) : e.countP p = (e.filter Ndt5.isServer).countP p := by
  rw [List.countP_filter]
  congr 1
  funext x
  cases h : p x
  · simp
  · simp [hp x h]

private theorem bal_servers {e : List Ndt5.Ev} : Bal (e.filter Ndt5.isServer) → Bal e := by
  rintro ⟨h1, h2, h3, h4⟩
  constructor
  · intro q
    have := h1 q
    rwa [← count_servers, ← count_servers] at this
    all_goals intro x hx; simp only [countsStart, countsStop] at hx; split at hx <;> simp_all [Ndt5.isServer]
  · rwa [← count_servers, ← count_servers, ← count_servers] at h2
    all_goals intro x hx; simp only [countsAnyStart, listenWorks, listenFails] at hx; split at hx <;> simp_all [Ndt5.isServer]
  · rwa [← count_servers, ← count_servers] at h3
    all_goals intro x hx; simp only [countsAnyStop, listenEnds] at hx; split at hx <;> simp_all [Ndt5.isServer]
  · rwa [← count_servers, ← count_servers] at h4
    all_goals intro x hx; simp only [countsAnyStop, listenWorks] at hx; split at hx <;> simp_all [Ndt5.isServer]

private theorem near_servers {n : Nat} {e : List Ndt5.Ev} : Near n (e.filter Ndt5.isServer) → Near n e := by
  rintro ⟨h1, h2⟩
  constructor
  · rwa [← count_servers, ← count_servers, ← count_servers] at h1
    all_goals intro x hx; simp only [countsAnyStart, listenWorks, listenFails] at hx; split at hx <;> simp_all [Ndt5.isServer]
  · rwa [← count_servers, ← count_servers] at h2
    all_goals intro x hx; simp only [countsAnyStop, listenEnds] at hx; split at hx <;> simp_all [Ndt5.isServer]

private theorem servers_one (hs : Ndt5.SideBySide cfg (ndt5Of g)) (i : Nat) :
    Bal (own i (ndt5Of g)) ∧ Near (if InProgress cfg i g then 1 else 0) (own i (ndt5Of g)) := by
  obtain ⟨evs, out, h1, h2⟩ := hs i
  obtain ⟨a, b, hab, ha, hb⟩ := Ndt5.servers_whole (Ndt5.whole h1).2
  have hp : (own i (ndt5Of g)).filter Ndt5.isServer <+: a ++ b := hab ▸ h2.filter _
  have hw : Bal (own i (ndt5Of g)) ∧ Near 1 (own i (ndt5Of g)) := by
    rcases prefix_append hp with h | ⟨m, hm, h⟩
    · exact ⟨bal_servers (run_prefix ha h).1, near_servers (run_prefix ha h).2⟩
    · refine ⟨bal_servers ?_, near_servers ?_⟩
      · rw [hm]; exact (run_prefix ha (List.prefix_refl _)).1.append (run_prefix hb h).1
      · rw [hm]; exact (run_near ha).append (run_prefix hb h).2
  refine ⟨hw.1, ?_⟩
  by_cases hi : InProgress cfg i g
  · rw [if_pos hi]; exact hw.2
  · rw [if_neg hi]
    by_cases hb : Begun i g
    · have : Over cfg i g := Classical.byContradiction fun h => hi ⟨hb, h⟩
      obtain ⟨out, h⟩ := this
      obtain ⟨a, b, hab, ha, hb⟩ := Ndt5.servers_whole (Ndt5.whole h).2
      exact near_servers (hab ▸ (run_near ha).append (run_near hb))
    · have : own i (ndt5Of g) = [] := Classical.byContradiction fun h => hb h
      rw [this]
      constructor <;> simp

/-- C98: at every moment, no protocol has more test servers stopped than started; every opened or failed listener of a test server is counted as started, and every closed one as
stopped; and no more than one test server for each connection being served is counted as started before its listener is there, or as stopped before its listener is closed. -/
theorem C98_servers (hs : Ndt5.SideBySide cfg (ndt5Of g)) :
    (∀ protocol, tally (countsStop protocol) g ≤ tally (countsStart protocol) g) ∧
    tally listenWorks g + tally listenFails g ≤ tally countsAnyStart g ∧
    tally listenEnds g ≤ tally countsAnyStop g ∧ tally countsAnyStop g ≤ tally listenWorks g ∧
    ∃ S, Are S (fun i => InProgress cfg i g) ∧ tally countsAnyStart g ≤ tally listenWorks g + tally listenFails g + S.card ∧
      tally countsAnyStop g ≤ tally listenEnds g + S.card := by
  refine ⟨fun q => ?_, ?_, ?_, ?_, _, are_filter5 (fun i h => h.1), ?_, ?_⟩ <;> simp only [tally_sum, card_sum, ← Finset.sum_add_distrib]
  · exact Finset.sum_le_sum fun i _ => (servers_one hs i).1.stop q
  · exact Finset.sum_le_sum fun i _ => (servers_one hs i).1.opened
  · exact Finset.sum_le_sum fun i _ => (servers_one hs i).1.ends
  · exact Finset.sum_le_sum fun i _ => (servers_one hs i).1.works
  · exact Finset.sum_le_sum fun i _ => (servers_one hs i).2.starts
  · exact Finset.sum_le_sum fun i _ => (servers_one hs i).2.stops

/-- C98: when no control connection is being served, the test servers counted as started and not as stopped are exactly those whose listener could not be opened, and those whose
listener is still open. -/
theorem C98_servers_idle (hs : Ndt5.SideBySide cfg (ndt5Of g)) (hi : ∀ i, ¬ InProgress cfg i g) :
    tally countsAnyStart g = tally countsAnyStop g + tally listenFails g + (tally listenWorks g - tally listenEnds g) ∧ tally countsAnyStop g = tally listenEnds g := by
  obtain ⟨-, h1, h2, h3, S, hS, h4, h5⟩ := C98_servers hs
  have : S = ∅ := Finset.eq_empty_of_forall_notMem fun i h => hi i ((hS i).1 h)
  subst this
  simp only [Finset.card_empty] at h4 h5
  omega

end

/-! ## ndt7 -/

section
variable {srv : Nat → Ndt7.Server} {kind : Nat → Ndt7.Subtest} {req : Nat → Ndt7.Request} {g : List AnyEv}

private theorem tally7_sum (p : Ndt7.Ev → Bool) : tally7 p g = ∑ i ∈ all7 g, (mine i (ndt7Of g)).countP p := by
  rw [tally7_eq, count_mine p (all7 g) _ all7_mem]

private theorem card_sum7 (q : Nat → Prop) : (those7 g q).card = ∑ i ∈ all7 g, if q i then 1 else 0 := by
  rw [those7, Finset.card_filter]

private structure Bal7 (k : Ndt7.Subtest) (l : List Ndt7.Ev) : Prop where
  results (d : Bytes) : l.countP (countsAnyResult d) ≤ l.countP (countsConnection d (str "result"))
  status (d : Bytes) : l.countP (countsConnection d (str "result")) ≤ l.countP (countsAnyConnection d)
  one (k' : Ndt7.Subtest) : l.countP (countsAnyConnection (directionText k')) ≤ if k = k' then 1 else 0
  deleted : l.countP tellsDeleted ≤ l.countP tellsCreated
  created : l.countP tellsCreated ≤ l.countP (countsConnection (directionText .download) (str "result")) + l.countP (countsConnection (directionText .upload) (str "result"))
  resulted : l.countP (countsAnyResult (directionText .download)) + l.countP (countsAnyResult (directionText .upload)) ≤ l.countP tellsCreated

private theorem bal7_prefix {k : Ndt7.Subtest} {l m : List Ndt7.Ev} (h : Ndt7.CountRun k l) (hp : m <+: l) : Bal7 k m := by
  have hd : ∀ k' : Ndt7.Subtest, (k.name = directionText k') ↔ k = k' := by intro k'; cases k <;> cases k' <;> decide
  cases h
  case none => simp only [List.prefix_nil] at hp; subst hp; constructor <;> simp
  case error st hst =>
    simp only [List.prefix_cons_iff, List.prefix_nil] at hp
    rcases hp with rfl | ⟨_, rfl, rfl⟩ <;> constructor <;>
      simp [countsAnyResult, countsConnection, countsAnyConnection, tellsCreated, tellsDeleted, List.countP_cons, hd, hst]
  case bare =>
    simp only [List.prefix_cons_iff, List.prefix_nil] at hp
    rcases hp with rfl | ⟨_, rfl, rfl⟩ <;> constructor <;>
      simp [countsAnyResult, countsConnection, countsAnyConnection, tellsCreated, tellsDeleted, List.countP_cons, hd]
  case crashed rest hr =>
    rcases hr with rfl | ⟨t', rfl⟩ <;> simp only [List.prefix_cons_iff, List.prefix_nil] at hp
    · rcases hp with rfl | ⟨_, rfl, rfl | ⟨_, rfl, rfl⟩⟩ <;> constructor <;> cases k <;>
        simp [countsAnyResult, countsConnection, countsAnyConnection, tellsCreated, tellsDeleted, List.countP_cons, hd]
    · rcases hp with rfl | ⟨_, rfl, rfl | ⟨_, rfl, rfl | ⟨_, rfl, rfl⟩⟩⟩ <;> constructor <;> cases k <;>
        simp [countsAnyResult, countsConnection, countsAnyConnection, tellsCreated, tellsDeleted, List.countP_cons, hd]
  case counted rest hr =>
    rcases hr with rfl | ⟨t', rfl⟩ <;> simp only [List.prefix_cons_iff, List.prefix_nil] at hp
    · rcases hp with rfl | ⟨_, rfl, rfl | ⟨_, rfl, rfl | ⟨_, rfl, rfl⟩⟩⟩ <;> constructor <;> cases k <;>
        simp [countsAnyResult, countsConnection, countsAnyConnection, tellsCreated, tellsDeleted, List.countP_cons, hd]
    · rcases hp with rfl | ⟨_, rfl, rfl | ⟨_, rfl, rfl | ⟨_, rfl, rfl | ⟨_, rfl, rfl⟩⟩⟩⟩ <;> constructor <;> cases k <;>
        simp [countsAnyResult, countsConnection, countsAnyConnection, tellsCreated, tellsDeleted, List.countP_cons, hd]

private theorem count_counters {p : Ndt7.Ev → Bool} (hp : ∀ x, p x = true → Ndt7.isCounter x = true) (e : List Ndt7.Ev) : e.countP p = (e.filter Ndt7.isCounter).countP p := by
  rw [List.countP_filter]
  congr 1
  funext x
  cases h : p x
  · simp
  · simp [hp x h]

private theorem bal7_counters {k : Ndt7.Subtest} {e : List Ndt7.Ev} (h : Bal7 k (e.filter Ndt7.isCounter)) : Bal7 k e := by
  have c1 : ∀ d, e.countP (countsAnyResult d) = (e.filter Ndt7.isCounter).countP (countsAnyResult d) := fun d =>
    count_counters (fun x hx => by unfold countsAnyResult at hx; split at hx <;> simp_all [Ndt7.isCounter]) e
  have c2 : ∀ d r, e.countP (countsConnection d r) = (e.filter Ndt7.isCounter).countP (countsConnection d r) := fun d r =>
    count_counters (fun x hx => by unfold countsConnection at hx; split at hx <;> simp_all [Ndt7.isCounter]) e
  have c3 : ∀ d, e.countP (countsAnyConnection d) = (e.filter Ndt7.isCounter).countP (countsAnyConnection d) := fun d =>
    count_counters (fun x hx => by unfold countsAnyConnection at hx; split at hx <;> simp_all [Ndt7.isCounter]) e
  have c4 : e.countP tellsCreated = (e.filter Ndt7.isCounter).countP tellsCreated :=
    count_counters (fun x hx => by unfold tellsCreated at hx; split at hx <;> simp_all [Ndt7.isCounter]) e
  have c5 : e.countP tellsDeleted = (e.filter Ndt7.isCounter).countP tellsDeleted :=
    count_counters (fun x hx => by unfold tellsDeleted at hx; split at hx <;> simp_all [Ndt7.isCounter]) e
  constructor <;> simp only [c1, c2, c3, c4, c5]
  exacts [h.results, h.status, h.one, h.deleted, h.created, h.resulted]

private theorem counters_one (hi : Ndt7.Interleaved srv kind req (ndt7Of g)) (i : Nat) : Bal7 (kind i) (mine i (ndt7Of g)) := by
  obtain ⟨evs, out, s', h1, h2⟩ := hi i
  exact bal7_counters (bal7_prefix ((wp_iff ..).1 (Ndt7.runMeasurement_counters _ _ _ _) _ _ _ h1) (h2.filter _))

/-- C98: at every moment, for either direction of ndt7: there are no more test results than connections counted with status 'result', no more of these than connections counted, and no
more of these than requests for that direction that have begun. -/
theorem C98_ndt7_counters (hi : Ndt7.Interleaved srv kind req (ndt7Of g)) (k : Ndt7.Subtest) :
    tally7 (countsAnyResult (directionText k)) g ≤ tally7 (countsConnection (directionText k) (str "result")) g ∧
    tally7 (countsConnection (directionText k) (str "result")) g ≤ tally7 (countsAnyConnection (directionText k)) g ∧
    ∃ B, Are B (fun i => Begun7 i g ∧ kind i = k) ∧ tally7 (countsAnyConnection (directionText k)) g ≤ B.card := by
  refine ⟨?_, ?_, _, are_filter7 (fun i h => h.1), ?_⟩ <;> simp only [tally7_sum, card_sum7]
  · exact Finset.sum_le_sum fun i _ => (counters_one hi i).results _
  · exact Finset.sum_le_sum fun i _ => (counters_one hi i).status _
  · refine Finset.sum_le_sum fun i hm => ?_
    have h := (counters_one hi i).one k
    by_cases hk : kind i = k
    · have hb : Begun7 i g := by
        rw [all7, List.mem_toFinset, List.mem_map] at hm
        obtain ⟨⟨j, e⟩, hx, rfl⟩ := hm
        exact List.ne_nil_of_mem (Ndt7.mem_mine.2 hx)
      rw [if_pos ⟨hb, hk⟩]
      rw [if_pos hk] at h
      exact h
    · rw [if_neg hk] at h
      exact h.trans (Nat.zero_le _)

/-- C98: at every moment, no more ends of flows have been reported than beginnings; there is a reported flow for every test result, and a connection with status 'result' for every
reported flow. -/
theorem C98_flows (hi : Ndt7.Interleaved srv kind req (ndt7Of g)) :
    tally7 tellsDeleted g ≤ tally7 tellsCreated g ∧
    tally7 (countsAnyResult (directionText .download)) g + tally7 (countsAnyResult (directionText .upload)) g ≤ tally7 tellsCreated g ∧
    tally7 tellsCreated g ≤ tally7 (countsConnection (directionText .download) (str "result")) g + tally7 (countsConnection (directionText .upload) (str "result")) g := by
  refine ⟨?_, ?_, ?_⟩ <;> simp only [tally7_sum, ← Finset.sum_add_distrib]
  · exact Finset.sum_le_sum fun i _ => (counters_one hi i).deleted
  · exact Finset.sum_le_sum fun i _ => (counters_one hi i).resulted
  · exact Finset.sum_le_sum fun i _ => (counters_one hi i).created

end

/-! ## What the gauge leaves out, and concrete histories -/

/-- An ndt7 download that is running: the client has been upgraded and the flow has been reported. -/
def runningDownload : List Ndt7.Ev := (exBegin { crash := some (str "boom") }).take 8

private theorem running_not_over : ¬ ∃ out s, Exec (Ndt7.runMeasurement exServer .download exRequest) {} runningDownload out s := by
  rintro ⟨out, s, h⟩
  have hh := (wp_iff ..).1 (Ndt7.runMeasurement_ends exServer .download exRequest {}) _ _ _ h
  simp [runningDownload, exBegin] at hh

/-- C98 is violated for ndt7: a request is being served, for minutes if the client likes, and no gauge of active tests shows it. The help text of the gauge is "A gauge of requests
currently being served by the NDT server". -/
theorem C98_gauge_ndt7_false :
    ¬ ∀ (cfg : Nat → Ndt5.Cfg) (srv : Nat → Ndt7.Server) (kind : Nat → Ndt7.Subtest) (req : Nat → Ndt7.Request) (g : List AnyEv),
      Ndt5.SideBySide cfg (ndt5Of g) → Ndt7.Interleaved srv kind req (ndt7Of g) →
      (∃ i, Begun7 i g ∧ ¬ Over7 srv kind req i g ∧ 1 ≤ tally7 tellsCreated g) → ∃ label, gauge label g ≠ 0 := by
  intro H
  obtain ⟨label, h⟩ := H (fun _ => plainCfg) (fun _ => exServer) (fun _ => .download) (fun _ => exRequest) (runningDownload.map (.ndt7 0))
    (fun i => ⟨_, _, emptyLogin_exec, by simp [ndt5Of, own, runningDownload, exBegin]⟩)
    (fun i => ⟨_, _, _, exCrash, by
      by_cases hi : i = 0
      · subst hi; simp [ndt7Of, mine, runningDownload, exBegin]
      · simp [ndt7Of, mine, runningDownload, exBegin, Ne.symm hi]⟩)
    ⟨0, by simp [Begun7, ndt7Of, mine, runningDownload, exBegin], by
      intro h
      exact running_not_over (by simpa [Over7, ndt7Of, mine, runningDownload, exBegin] using h), by
      simp [tally7, runningDownload, exBegin, tellsCreated]⟩
  exact h (by simp [gauge, runningDownload, exBegin])

/-- Two control connections: the first was to serve an upload whose announcement cannot be sent, the second begins before the first ends. -/
def twoSessions : List AnyEv := (lostAnnouncement.take 20).map (.ndt5 0) ++ (emptyLogin.take 3).map (.ndt5 1) ++ (lostAnnouncement.drop 20).map (.ndt5 0)

private theorem twoSessions_own (i : Nat) : own i (ndt5Of twoSessions) <+: (if i = 0 then lostAnnouncement else emptyLogin) := by
  have h0 : own 0 (ndt5Of twoSessions) = lostAnnouncement := by rfl
  have h1 : own 1 (ndt5Of twoSessions) = emptyLogin.take 3 := by rfl
  by_cases hi : i = 0
  · subst hi; rw [h0, if_pos rfl]
  · rw [if_neg hi]
    by_cases h : i = 1
    · subst h; rw [h1]; exact List.take_prefix ..
    · have : own i (ndt5Of twoSessions) = [] := by
        have ha : ∀ x ∈ ndt5Of twoSessions, x.1 = 0 ∨ x.1 = 1 := by decide +kernel
        apply List.eq_nil_iff_forall_not_mem.2
        intro e he
        rcases ha _ (Ndt5.mem_own.1 he) with h0 | h0
        · exact hi h0
        · exact h h0
      rw [this]; exact List.nil_prefix

theorem twoSessions_sideBySide : Ndt5.SideBySide (fun _ => plainCfg) (ndt5Of twoSessions) := by
  intro i
  have h := twoSessions_own i
  by_cases hi : i = 0
  · rw [if_pos hi] at h; exact ⟨_, _, lostAnnouncement_exec, h⟩
  · rw [if_neg hi] at h; exact ⟨_, _, emptyLogin_exec, h⟩

/-- The gauge is one, with one panic and its test server, which is left open; one result of two connections. -/
example : gauge (labelText .plain) twoSessions = 1 ∧ tally (countsAnyControl (labelText .plain)) twoSessions = 1 ∧ tally (countsPanic (labelText .plain)) twoSessions = 1 ∧
    tally countsAnyStart twoSessions = 1 ∧ tally countsAnyStop twoSessions = 0 ∧ tally listenWorks twoSessions = 1 ∧ tally listenEnds twoSessions = 0 := by
  decide +kernel

/-- A server that has served one connection, and is idle now: its gauge is zero, and it has a test server that is counted as started but not as stopped, since its listener is open. -/
def servedOne : List AnyEv := lostAnnouncement.map (.ndt5 0)

private theorem servedOne_own (i : Nat) : own i (ndt5Of servedOne) = if i = 0 then lostAnnouncement else [] := by
  by_cases hi : i = 0
  · subst hi; rfl
  · rw [if_neg hi]
    have ha : ∀ x ∈ ndt5Of servedOne, x.1 = 0 := by decide +kernel
    exact List.eq_nil_iff_forall_not_mem.2 fun e he => hi (ha _ (Ndt5.mem_own.1 he))

example : Ndt5.SideBySide (fun _ => plainCfg) (ndt5Of servedOne) ∧ (∀ i, ¬ InProgress (fun _ => plainCfg) i servedOne) ∧ Begun 0 servedOne ∧
    gauge (labelText .plain) servedOne = 0 ∧ tally countsAnyStart servedOne = 1 ∧ tally countsAnyStop servedOne = 0 ∧ tally listenWorks servedOne = 1 := by
  refine ⟨fun i => ⟨_, _, lostAnnouncement_exec, ?_⟩, ?_, ?_, by decide +kernel⟩
  · rw [servedOne_own]; split
    · exact List.prefix_refl _
    · exact List.nil_prefix
  · rintro i ⟨h1, h2⟩
    unfold Begun at h1
    rw [servedOne_own] at h1
    by_cases hi : i = 0
    · refine h2 ⟨.ok (), ?_⟩
      rw [servedOne_own, if_pos hi]
      exact lostAnnouncement_exec
    · exact h1 (if_neg hi)
  · unfold Begun
    rw [servedOne_own]
    exact List.cons_ne_nil _ _

/-- A running ndt7 download: one connection, one flow, no result yet. -/
example : tally7 (countsConnection (directionText .download) (str "result")) (runningDownload.map (.ndt7 0)) = 1 ∧
    tally7 tellsCreated (runningDownload.map (.ndt7 0)) = 1 ∧ tally7 tellsDeleted (runningDownload.map (.ndt7 0)) = 0 := by decide +kernel

end Verif.Props
