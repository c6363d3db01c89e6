import Verif.Ndt7.FilesLemmas

/-! # The file system under many requests -/

namespace Verif.Ndt7
open Verif.Go Verif.Spec

/-- The events are those of requests that run side by side, each up to some point. -/
def Interleaved (srv : Nat → Server) (kind : Nat → Subtest) (req : Nat → Request) (g : List (Nat × Ev)) : Prop :=
  ∀ i, ∃ evs out s', Exec (runMeasurement (srv i) (kind i) (req i)) {} evs out s' ∧ mine i g <+: evs

theorem mine_append (i : Nat) (a b : List (Nat × Ev)) : mine i (a ++ b) = mine i a ++ mine i b := List.filterMap_append ..

theorem mine_snoc (i j : Nat) (e : Ev) (g : List (Nat × Ev)) : mine i (g ++ [(j, e)]) = if j = i then mine i g ++ [e] else mine i g := by
  rw [mine_append]
  by_cases h : j = i <;> simp [mine, h]

theorem mem_mine {i : Nat} {e : Ev} {g : List (Nat × Ev)} : e ∈ mine i g ↔ (i, e) ∈ g := by
  simp only [mine, List.mem_filterMap]
  constructor
  · rintro ⟨⟨j, e'⟩, h1, h2⟩
    split at h2
    · rename_i h; simp only at h; subst h; cases h2; exact h1
    · cases h2
  · intro h
    exact ⟨_, h, by simp⟩

theorem mem_mine_snoc {i j : Nat} {e e' : Ev} {g : List (Nat × Ev)} : e' ∈ mine i (g ++ [(j, e)]) ↔ e' ∈ mine i g ∨ (j = i ∧ e' = e) := by
  rw [mine_snoc]
  split <;> simp_all

theorem Interleaved.of_append {srv : Nat → Server} {kind : Nat → Subtest} {req : Nat → Request} {a b : List (Nat × Ev)}
    (h : Interleaved srv kind req (a ++ b)) : Interleaved srv kind req a := by
  intro i
  obtain ⟨evs, out, s', h1, h2⟩ := h i
  refine ⟨evs, out, s', h1, List.IsPrefix.trans ?_ h2⟩
  rw [mine_append]
  exact List.prefix_append _ _

theorem fsRun_of_append {json : Result → Bytes} {gz : Bytes → Bytes} {fs fs' : Fs} {a b : List (Nat × Ev)} (h : FsRun json gz fs (a ++ b) fs') :
    ∃ fs1, FsRun json gz fs a fs1 := by
  generalize hg : a ++ b = g at h
  induction h generalizing b with
  | nil => obtain ⟨rfl, rfl⟩ := List.append_eq_nil_iff.1 hg; exact ⟨fs, .nil⟩
  | snoc g i e fs1 fs2 hr hs ih =>
    rcases List.eq_nil_or_concat b with rfl | ⟨b, x, rfl⟩
    · rw [List.append_nil] at hg; subst hg
      exact ⟨_, .snoc g i e fs1 fs2 hr hs⟩
    · rw [List.concat_eq_append, ← List.append_assoc] at hg
      exact ih (List.append_inj' hg rfl).1

/-- The file operations of a request up to some point. -/
theorem Interleaved.ops {srv : Nat → Server} {kind : Nat → Subtest} {req : Nat → Request} {g : List (Nat × Ev)}
    (h : Interleaved srv kind req g) (i : Nat) : ∃ n, FileOps n (srv i).compress (fileOps (mine i g)) := by
  obtain ⟨evs, out, s', h1, h2⟩ := h i
  have hp : fileOps (mine i g) <+: fileOps evs := h2.filter _
  rcases wp_iff.1 (runMeasurement_files _ _ _ _) _ _ _ h1 with h3 | ⟨u, t, -, h3⟩
  · exact ⟨_, ((h3.1 0).filed.ops).of_prefix hp⟩
  · exact ⟨_, h3.filed.ops.of_prefix hp⟩

theorem FileOps.snoc_open {n p : Bytes} {c : Bool} {m : List Ev} {x : Outcome (Option Err)} (h : FileOps n c (m ++ [.call (.openExcl p) x])) :
    m = [] ∧ p = n := by
  generalize hl : m ++ [.call (.openExcl p) x] = l at h
  cases h with
  | nil => simp at hl
  | opened y => rcases m with _ | ⟨a, m⟩ <;> simp_all
  | wrote r y => rcases m with _ | ⟨a, _ | ⟨b, m⟩⟩ <;> simp_all
  | closed r y hc => rcases m with _ | ⟨a, _ | ⟨b, _ | ⟨d, m⟩⟩⟩ <;> simp_all

theorem FileOps.snoc_write {n p : Bytes} {c k : Bool} {r : Result} {m : List Ev} {x : Outcome (Option Err)}
    (h : FileOps n c (m ++ [.call (.write p k r) x])) : m = [.call (.openExcl n) (.ok none)] ∧ p = n ∧ k = c := by
  generalize hl : m ++ [.call (.write p k r) x] = l at h
  cases h with
  | nil => simp at hl
  | opened y => rcases m with _ | ⟨a, m⟩ <;> simp_all
  | wrote r y => rcases m with _ | ⟨a, _ | ⟨b, m⟩⟩ <;> simp_all
  | closed r y hc => rcases m with _ | ⟨a, _ | ⟨b, _ | ⟨d, m⟩⟩⟩ <;> simp_all

theorem FileOps.snoc_close {n p : Bytes} {c : Bool} {m : List Ev} {x : Outcome (Option Err)}
    (h : FileOps n c (m ++ [.call (.gzipClose p) x])) :
    p = n ∧ c = true ∧ ∃ r, m = [.call (.openExcl n) (.ok none), .call (.write n c r) (.ok none)] := by
  generalize hl : m ++ [.call (.gzipClose p) x] = l at h
  cases h with
  | nil => simp at hl
  | opened y => rcases m with _ | ⟨a, m⟩ <;> simp_all
  | wrote r y => rcases m with _ | ⟨a, _ | ⟨b, m⟩⟩ <;> simp_all
  | closed r y hc => rcases m with _ | ⟨a, _ | ⟨b, _ | ⟨d, m⟩⟩⟩ <;> simp_all

/-- What holds after the events `g`, starting from `fs0`. -/
structure FsInv (json : Result → Bytes) (gz : Bytes → Bytes) (fs0 : Fs) (g : List (Nat × Ev)) (fs : Fs) : Prop where
  keep : ∀ p c, fs0.files p = some c → fs.files p = some c
  fresh : ∀ p i, .call (.openExcl p) (.ok none) ∈ mine i g → fs0.files p = none
  uniq : ∀ p i j, .call (.openExcl p) (.ok none) ∈ mine i g → .call (.openExcl p) (.ok none) ∈ mine j g → i = j
  stays : ∀ p i, .call (.openExcl p) (.ok none) ∈ mine i g → fs.files p ≠ none
  empty : ∀ p i, .call (.openExcl p) (.ok none) ∈ mine i g → (∀ k r x, .call (.write p k r) x ∉ mine i g) → fs.files p = some []
  full : ∀ p i k r x, .call (.write p k r) x ∈ mine i g → .call (.openExcl p) (.ok none) ∈ mine i g ∧
    (∃ c, fs.files p = some c ∧ c ++ fs.rest p = document json gz k r) ∧
    (x = .ok none → k = false → fs.rest p = []) ∧ (.call (.gzipClose p) (.ok none) ∈ mine i g → fs.rest p = [])

theorem Fs.set_files_self (fs : Fs) (p c r : Bytes) : (fs.set p c r).files p = some c := by simp [Fs.set]
theorem Fs.set_rest_self (fs : Fs) (p c r : Bytes) : (fs.set p c r).rest p = r := by simp [Fs.set]
theorem Fs.set_files_ne (fs : Fs) {p q : Bytes} (c r : Bytes) (h : q ≠ p) : (fs.set p c r).files q = fs.files q := by simp [Fs.set, h]
theorem Fs.set_rest_ne (fs : Fs) {p q : Bytes} (c r : Bytes) (h : q ≠ p) : (fs.set p c r).rest q = fs.rest q := by simp [Fs.set, h]

section
variable {json : Result → Bytes} {gz : Bytes → Bytes} {fs0 fs : Fs} {g : List (Nat × Ev)}

/-- An event that is no successful file operation and does not change the files that were created. -/
theorem FsInv.idle (hi : FsInv json gz fs0 g fs) (j : Nat) (e : Ev) (fs2 : Fs) (h1 : ∀ p, e ≠ .call (.openExcl p) (.ok none))
    (h2 : ∀ p k r x, e ≠ .call (.write p k r) x) (h3 : ∀ p x, e ≠ .call (.gzipClose p) x)
    (h4 : ∀ p, fs.files p ≠ none → fs2.files p = fs.files p ∧ fs2.rest p = fs.rest p) : FsInv json gz fs0 (g ++ [(j, e)]) fs2 := by
  obtain ⟨keep, fresh, uniq, stays, empty, full⟩ := hi
  have ho : ∀ p i, (.call (.openExcl p) (.ok none) ∈ mine i (g ++ [(j, e)])) ↔ (.call (.openExcl p) (.ok none) ∈ mine i g) := by
    intro p i
    rw [mem_mine_snoc]
    exact ⟨fun h => h.resolve_right fun h => h1 p h.2.symm, .inl⟩
  have hw : ∀ p k r x i, (.call (.write p k r) x ∈ mine i (g ++ [(j, e)])) ↔ (.call (.write p k r) x ∈ mine i g) := by
    intro p k r x i
    rw [mem_mine_snoc]
    exact ⟨fun h => h.resolve_right fun h => h2 p k r x h.2.symm, .inl⟩
  have hc : ∀ p x i, (.call (.gzipClose p) x ∈ mine i (g ++ [(j, e)])) ↔ (.call (.gzipClose p) x ∈ mine i g) := by
    intro p x i
    rw [mem_mine_snoc]
    exact ⟨fun h => h.resolve_right fun h => h3 p x h.2.symm, .inl⟩
  refine ⟨?_, ?_, ?_, ?_, ?_, ?_⟩
  · intro p c hp
    rw [(h4 p (by rw [keep p c hp]; simp)).1]
    exact keep p c hp
  · intro p i hp; exact fresh p i ((ho p i).1 hp)
  · intro p i i' hp hp'; exact uniq p i i' ((ho p i).1 hp) ((ho p i').1 hp')
  · intro p i hp
    have := stays p i ((ho p i).1 hp)
    rw [(h4 p this).1]; exact this
  · intro p i hp hn
    have := stays p i ((ho p i).1 hp)
    rw [(h4 p this).1]
    exact empty p i ((ho p i).1 hp) fun k r x h => hn k r x ((hw p k r x i).2 h)
  · intro p i k r x hp
    obtain ⟨f1, f2, f3, f4⟩ := full p i k r x ((hw ..).1 hp)
    have := h4 p (stays p i f1)
    rw [this.1, this.2]
    exact ⟨(ho p i).2 f1, f2, f3, fun h => f4 ((hc ..).1 h)⟩

theorem FsInv.step {srv : Nat → Server} {kind : Nat → Subtest} {req : Nat → Request} (hi : FsInv json gz fs0 g fs) (j : Nat) (e : Ev) (fs2 : Fs)
    (hs : FsStep json gz fs e fs2) (hint : Interleaved srv kind req (g ++ [(j, e)])) : FsInv json gz fs0 (g ++ [(j, e)]) fs2 := by
  have hi' := hi
  obtain ⟨keep, fresh, uniq, stays, empty, full⟩ := hi
  obtain ⟨n, hops⟩ := hint.ops j
  rw [mine_snoc, if_pos rfl, fileOps_append] at hops
  cases hs with
  | create p hp =>
    have hno : ∀ i, .call (.openExcl p) (.ok none) ∉ mine i g := fun i hm => stays p i hm hp
    obtain ⟨hm, rfl⟩ := FileOps.snoc_open (m := fileOps (mine j g)) (p := p) (x := .ok none) hops
    have hw0 : ∀ q k r x, .call (.write q k r) x ∉ mine j g := by
      intro q k r x hx
      have : Event.call (S := sig) (.write q k r) x ∈ fileOps (mine j g) := mem_fileOps.2 ⟨hx, rfl⟩
      rw [hm] at this; cases this
    have hwp : ∀ i k r x, .call (.write p k r) x ∉ mine i g := fun i k r x hx => hno i (full p i k r x hx).1
    refine ⟨?_, ?_, ?_, ?_, ?_, ?_⟩
    · intro q c hq
      have h1 := keep q c hq
      rw [Fs.set_files_ne _ _ _ (by rintro rfl; rw [hp] at h1; cases h1)]
      exact h1
    · intro q i hq
      replace hq := mem_mine_snoc.1 hq
      rcases hq with hq | ⟨rfl, hq⟩
      · exact fresh q i hq
      · cases hq
        rcases hf : fs0.files p with _ | c
        · rfl
        · have := keep p c hf; rw [hp] at this; cases this
    · intro q i i' hq hq'
      replace hq := mem_mine_snoc.1 hq
      rcases hq with hq | ⟨rfl, hq⟩
      · replace hq' := mem_mine_snoc.1 hq'
        rcases hq' with hq' | ⟨rfl, hq'⟩
        · exact uniq q i i' hq hq'
        · cases hq'; exact absurd hq (hno i)
      · replace hq' := mem_mine_snoc.1 hq'
        rcases hq' with hq' | ⟨rfl, hq'⟩
        · cases hq; exact absurd hq' (hno i')
        · rfl
    · intro q i hq
      by_cases hqp : q = p
      · subst hqp; rw [Fs.set_files_self]; simp
      · rw [Fs.set_files_ne _ _ _ hqp]
        replace hq := mem_mine_snoc.1 hq
        rcases hq with hq | ⟨rfl, hq⟩
        · exact stays q i hq
        · cases hq; exact absurd rfl hqp
    · intro q i hq hn
      by_cases hqp : q = p
      · subst hqp; rw [Fs.set_files_self]
      · rw [Fs.set_files_ne _ _ _ hqp]
        replace hq := mem_mine_snoc.1 hq
        rcases hq with hq | ⟨rfl, hq⟩
        · exact empty q i hq fun k r x hx => hn k r x (mem_mine_snoc.2 (.inl hx))
        · cases hq; exact absurd rfl hqp
    · intro q i k r x hq
      replace hq := mem_mine_snoc.1 hq
      rcases hq with hq | ⟨rfl, hq⟩
      · by_cases hqp : q = p
        · subst hqp; exact absurd hq (hwp i k r x)
        · obtain ⟨f1, f2, f3, f4⟩ := full q i k r x hq
          rw [Fs.set_files_ne _ _ _ hqp, Fs.set_rest_ne _ _ _ hqp]
          refine ⟨mem_mine_snoc.2 (.inl f1), f2, f3, fun h => ?_⟩
          replace h := mem_mine_snoc.1 h
          rcases h with h | ⟨rfl, h⟩
          · exact f4 h
          · cases h
      · cases hq
  | createCrash p msg hp =>
    refine hi'.idle j _ _ (by intro q h; cases h) (by intro q k r x h; cases h) (by intro q x h; cases h) ?_
    intro q hq
    have : q ≠ p := by rintro rfl; exact hq hp
    exact ⟨Fs.set_files_ne _ _ _ this, Fs.set_rest_ne _ _ _ this⟩
  | noCreate p x hx =>
    refine hi'.idle j _ _ ?_ (by intro q k r x h; cases h) (by intro q x h; cases h) fun _ _ => ⟨rfl, rfl⟩
    intro q h; cases h; exact hx rfl
  | other =>
    rename_i h1 h2 h3
    exact hi'.idle j _ _ (fun p => h1 p _) h2 h3 fun _ _ => ⟨rfl, rfl⟩
  | write p content a b k r x hp hd hb =>
    obtain ⟨hm, rfl, rfl⟩ := FileOps.snoc_write (m := fileOps (mine j g)) (p := p) (k := k) (r := r) (x := x) hops
    have hopen : .call (.openExcl p) (.ok none) ∈ mine j g := (mem_fileOps.1 (hm ▸ List.mem_singleton.2 rfl :
      Event.call (S := sig) (.openExcl p) (.ok none) ∈ fileOps (mine j g))).1
    have hw0 : ∀ q k r x, .call (.write q k r) x ∉ mine j g := by
      intro q k r x hx
      have : Event.call (S := sig) (.write q k r) x ∈ fileOps (mine j g) := mem_fileOps.2 ⟨hx, rfl⟩
      rw [hm] at this; simp at this
    have hc0 : ∀ q x, .call (.gzipClose q) x ∉ mine j g := by
      intro q x hx
      have : Event.call (S := sig) (.gzipClose q) x ∈ fileOps (mine j g) := mem_fileOps.2 ⟨hx, rfl⟩
      rw [hm] at this; simp at this
    have hwp : ∀ i k r x, .call (.write p k r) x ∉ mine i g := by
      intro i k r x hx
      have := uniq p i j (full p i k r x hx).1 hopen
      subst this
      exact hw0 _ _ _ _ hx
    have hempty := empty p j hopen fun k r x => hw0 p k r x
    rw [hempty] at hp
    cases hp
    refine ⟨?_, ?_, ?_, ?_, ?_, ?_⟩
    · intro q c hq
      rw [Fs.set_files_ne _ _ _ (by rintro rfl; rw [fresh q j hopen] at hq; cases hq)]
      exact keep q c hq
    · intro q i hq
      replace hq := mem_mine_snoc.1 hq
      rcases hq with hq | ⟨rfl, hq⟩
      · exact fresh q i hq
      · cases hq
    · intro q i i' hq hq'
      replace hq := mem_mine_snoc.1 hq
      rcases hq with hq | ⟨rfl, hq⟩
      · replace hq' := mem_mine_snoc.1 hq'
        rcases hq' with hq' | ⟨rfl, hq'⟩
        · exact uniq q i i' hq hq'
        · cases hq'
      · cases hq
    · intro q i hq
      by_cases hqp : q = p
      · subst hqp; rw [Fs.set_files_self]; simp
      · rw [Fs.set_files_ne _ _ _ hqp]
        replace hq := mem_mine_snoc.1 hq
        rcases hq with hq | ⟨rfl, hq⟩
        · exact stays q i hq
        · cases hq
    · intro q i hq hn
      replace hq := mem_mine_snoc.1 hq
      rcases hq with hq | ⟨rfl, hq⟩
      · by_cases hqp : q = p
        · subst hqp
          have := uniq q i j hq hopen
          subst this
          exact absurd (mem_mine_snoc.2 (.inr ⟨rfl, rfl⟩)) (hn _ r x)
        · rw [Fs.set_files_ne _ _ _ hqp]
          exact empty q i hq fun k r x hx => hn k r x (mem_mine_snoc.2 (.inl hx))
      · cases hq
    · intro q i k' r' x' hq
      replace hq := mem_mine_snoc.1 hq
      rcases hq with hq | ⟨rfl, hq⟩
      · by_cases hqp : q = p
        · subst hqp; exact absurd hq (hwp i k' r' x')
        · obtain ⟨f1, f2, f3, f4⟩ := full q i k' r' x' hq
          rw [Fs.set_files_ne _ _ _ hqp, Fs.set_rest_ne _ _ _ hqp]
          refine ⟨mem_mine_snoc.2 (.inl f1), f2, f3, fun h => ?_⟩
          replace h := mem_mine_snoc.1 h
          rcases h with h | ⟨rfl, h⟩
          · exact f4 h
          · cases h
      · cases hq
        rw [Fs.set_files_self, Fs.set_rest_self]
        refine ⟨mem_mine_snoc.2 (.inl hopen), ⟨_, rfl, hd.symm⟩, hb, fun h => ?_⟩
        replace h := mem_mine_snoc.1 h
        rcases h with h | ⟨-, h⟩
        · exact absurd h (hc0 _ _)
        · cases h
  | finish p content a b x hp hd hb =>
    obtain ⟨rfl, hc, r, hm⟩ := FileOps.snoc_close (m := fileOps (mine j g)) (p := p) (x := x) hops
    have hopen : .call (.openExcl p) (.ok none) ∈ mine j g := (mem_fileOps.1 (by rw [hm]; exact List.mem_cons_self :
      Event.call (S := sig) (.openExcl p) (.ok none) ∈ fileOps (mine j g))).1
    have hwrite : .call (.write p (srv j).compress r) (.ok none) ∈ mine j g := (mem_fileOps.1 (by rw [hm]; simp :
      Event.call (S := sig) (.write p (srv j).compress r) (.ok none) ∈ fileOps (mine j g))).1
    have hw1 : ∀ i k r' x, .call (.write p k r') x ∈ mine i g → i = j ∧ k = true ∧ r' = r := by
      intro i k r' x hx
      have := uniq p i j (full p i k r' x hx).1 hopen
      subst this
      have : Event.call (S := sig) (.write p k r') x ∈ fileOps (mine i g) := mem_fileOps.2 ⟨hx, rfl⟩
      rw [hm] at this
      simp at this
      exact ⟨rfl, by rw [this.1.1, hc], this.1.2⟩
    obtain ⟨-, ⟨c0, f1, f2⟩, -, -⟩ := full p j _ r _ hwrite
    rw [f1] at hp
    cases hp
    refine ⟨?_, ?_, ?_, ?_, ?_, ?_⟩
    · intro q c hq
      rw [Fs.set_files_ne _ _ _ (by rintro rfl; rw [fresh q j hopen] at hq; cases hq)]
      exact keep q c hq
    · intro q i hq
      replace hq := mem_mine_snoc.1 hq
      rcases hq with hq | ⟨rfl, hq⟩
      · exact fresh q i hq
      · cases hq
    · intro q i i' hq hq'
      replace hq := mem_mine_snoc.1 hq
      rcases hq with hq | ⟨rfl, hq⟩
      · replace hq' := mem_mine_snoc.1 hq'
        rcases hq' with hq' | ⟨rfl, hq'⟩
        · exact uniq q i i' hq hq'
        · cases hq'
      · cases hq
    · intro q i hq
      by_cases hqp : q = p
      · subst hqp; rw [Fs.set_files_self]; simp
      · rw [Fs.set_files_ne _ _ _ hqp]
        replace hq := mem_mine_snoc.1 hq
        rcases hq with hq | ⟨rfl, hq⟩
        · exact stays q i hq
        · cases hq
    · intro q i hq hn
      replace hq := mem_mine_snoc.1 hq
      rcases hq with hq | ⟨rfl, hq⟩
      · by_cases hqp : q = p
        · subst hqp
          have := uniq q i j hq hopen
          subst this
          exact absurd (mem_mine_snoc.2 (.inl hwrite)) (hn _ _ _)
        · rw [Fs.set_files_ne _ _ _ hqp]
          exact empty q i hq fun k r x hx => hn k r x (mem_mine_snoc.2 (.inl hx))
      · cases hq
    · intro q i k' r' x' hq
      replace hq := mem_mine_snoc.1 hq
      rcases hq with hq | ⟨rfl, hq⟩
      · by_cases hqp : q = p
        · subst hqp
          obtain ⟨rfl, rfl, rfl⟩ := hw1 _ _ _ _ hq
          rw [Fs.set_files_self, Fs.set_rest_self]
          obtain ⟨g1, g2, g3, g4⟩ := full q i true r' x' hq
          refine ⟨mem_mine_snoc.2 (.inl hopen), ⟨_, rfl, ?_⟩, fun _ h => (by cases h), fun h => ?_⟩
          · rw [List.append_assoc, ← hd, f2, hc]
          · replace h := mem_mine_snoc.1 h
            rcases h with h | ⟨-, h⟩
            · have := g4 h
              rw [hd] at this
              exact (List.append_eq_nil_iff.1 this).2
            · cases h; exact hb rfl
        · obtain ⟨f1, f2, f3, f4⟩ := full q i k' r' x' hq
          rw [Fs.set_files_ne _ _ _ hqp, Fs.set_rest_ne _ _ _ hqp]
          refine ⟨mem_mine_snoc.2 (.inl f1), f2, f3, fun h => ?_⟩
          replace h := mem_mine_snoc.1 h
          rcases h with h | ⟨rfl, h⟩
          · exact f4 h
          · cases h; exact absurd rfl hqp
      · cases hq

theorem fs_inv {srv : Nat → Server} {kind : Nat → Subtest} {req : Nat → Request} (hr : FsRun json gz fs0 g fs)
    (hint : Interleaved srv kind req g) : FsInv json gz fs0 g fs := by
  induction hr with
  | nil => refine ⟨fun _ _ h => h, ?_, ?_, ?_, ?_, ?_⟩ <;> simp [mine]
  | snoc g i e fs1 fs2 hr hs ih => exact (ih hint.of_append).step i e fs2 hs hint

end
end Verif.Ndt7
