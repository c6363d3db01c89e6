import Verif.Spec.SharedDisk
import Verif.Props.Ndt5Files
import Verif.Props.Ndt5Whole
import Verif.Props.Ndt7Whole
import Verif.Props.Config

/-!
# C96: ndt5 and ndt7 share a data directory
-/

namespace Verif.Props
open Verif.Go Verif.Spec

/-! ## Parts of a file system -/

/-- Only the files that satisfy `P`. -/
private def part (P : Bytes → Bool) (files : Bytes → Option Bytes) : Bytes → Option Bytes := fun p => if P p then files p else none

private theorem part_set {P : Bytes → Bool} {fs : Fs5} {p : Bytes} (h : P p = true) (c : Bytes) : part P (fs.set p c) = Fs5.set (part P fs) p c := by
  funext q
  simp only [part, Fs5.set]
  by_cases hq : q = p
  · subst hq; simp [h]
  · simp [hq]

private theorem part_set_not {P : Bytes → Bool} {fs : Fs5} {p : Bytes} (h : P p = false) (c : Bytes) : part P (fs.set p c) = part P fs := by
  funext q
  simp only [part, Fs5.set]
  by_cases hq : q = p
  · subst hq; simp [h]
  · simp [hq]

/-- The files that an event of an ndt5 connection may concern. -/
private def Concerns5 (p : Bytes) (e : Ndt5.Ev) : Prop :=
  (∃ x, e = .call (.create p) x) ∨ (∃ d x, e = .call (.tempFile d) x ∧ TempName d p) ∨ ∃ r x, e = .call (.write p r) x

private theorem step5_inside {json : Ndt5.Record → Bytes} {P : Bytes → Bool} {fs fs' : Fs5} {e : Ndt5.Ev} (h : Fs5Step json fs e fs') (hc : ∀ p, Concerns5 p e → P p = true) :
    Fs5Step json (part P fs) e (part P fs') := by
  cases h with
  | create p => rw [part_set (hc p (.inl ⟨_, rfl⟩))]; exact .create _ _
  | createCrash p msg => rw [part_set (hc p (.inl ⟨_, rfl⟩))]; exact .createCrash _ _ _
  | noCreate p x hx => exact .noCreate _ _ _ hx
  | temp dir p ht hn => rw [part_set (hc p (.inr (.inl ⟨_, _, rfl, ht⟩)))]; exact .temp _ _ _ ht (by simp [part, hn])
  | tempCrash dir p msg ht hn => rw [part_set (hc p (.inr (.inl ⟨_, _, rfl, ht⟩)))]; exact .tempCrash _ _ _ _ ht (by simp [part, hn])
  | noTemp dir x hx => exact .noTemp _ _ _ hx
  | write p c c' r x h1 h2 h3 =>
    have hp := hc p (.inr (.inr ⟨_, _, rfl⟩))
    rw [part_set hp]; exact .write _ _ c _ _ _ (by simp [part, hp, h1]) h2 h3
  | other e h1 h2 h3 => exact .other _ _ h1 h2 h3

private theorem step5_outside {json : Ndt5.Record → Bytes} {P : Bytes → Bool} {fs fs' : Fs5} {e : Ndt5.Ev} (h : Fs5Step json fs e fs') (hc : ∀ p, Concerns5 p e → P p = false) :
    part P fs' = part P fs := by
  cases h with
  | create p => exact part_set_not (hc p (.inl ⟨_, rfl⟩)) _
  | createCrash p msg => exact part_set_not (hc p (.inl ⟨_, rfl⟩)) _
  | noCreate p x hx => rfl
  | temp dir p ht hn => exact part_set_not (hc p (.inr (.inl ⟨_, _, rfl, ht⟩))) _
  | tempCrash dir p msg ht hn => exact part_set_not (hc p (.inr (.inl ⟨_, _, rfl, ht⟩))) _
  | noTemp dir x hx => rfl
  | write p c c' r x h1 h2 h3 => exact part_set_not (hc p (.inr (.inr ⟨_, _, rfl⟩))) _
  | other e h1 h2 h3 => rfl

/-- Only the files that satisfy `P`, with what is not yet written. -/
private def part7 (P : Bytes → Bool) (fs : Fs) : Fs := ⟨part P fs.files, fs.rest⟩

private theorem part7_set {P : Bytes → Bool} {fs : Fs} {p : Bytes} (h : P p = true) (c r : Bytes) : part7 P (fs.set p c r) = (part7 P fs).set p c r := by
  simp only [part7, Fs.set, Fs.mk.injEq, and_true]
  funext q
  simp only [part]
  by_cases hq : q = p
  · subst hq; simp [h]
  · simp [hq]

private theorem part_set7_not {P : Bytes → Bool} {fs : Fs} {p : Bytes} (h : P p = false) (c r : Bytes) : part P (fs.set p c r).files = part P fs.files := by
  funext q
  simp only [part, Fs.set]
  by_cases hq : q = p
  · subst hq; simp [h]
  · simp [hq]

private theorem step7_inside {json : Ndt7.Result → Bytes} {gz : Bytes → Bytes} {P : Bytes → Bool} {fs fs' : Fs} {e : Ndt7.Ev} (h : FsStep json gz fs e fs')
    (hc : ∀ p, Touches p e → P p = true) : FsStep json gz (part7 P fs) e (part7 P fs') := by
  cases h with
  | create p hn => rw [part7_set (hc p (.inl ⟨_, rfl⟩))]; exact .create _ _ (by simp [part7, part, hn])
  | createCrash p msg hn => rw [part7_set (hc p (.inl ⟨_, rfl⟩))]; exact .createCrash _ _ _ (by simp [part7, part, hn])
  | noCreate p x hx => exact .noCreate _ _ _ hx
  | write p c a b k r x h1 h2 h3 =>
    have hp := hc p (.inr (.inl ⟨_, _, _, rfl⟩))
    rw [part7_set hp]; exact .write _ _ c a b _ _ _ (by simp [part7, part, hp, h1]) h2 h3
  | finish p c a b x h1 h2 h3 =>
    have hp := hc p (.inr (.inr (.inl ⟨_, rfl⟩)))
    rw [part7_set hp]; exact .finish _ _ c a b _ (by simp [part7, part, hp, h1]) h2 h3
  | other e h1 h2 h3 => exact .other _ _ h1 h2 h3

private theorem step7_outside {json : Ndt7.Result → Bytes} {gz : Bytes → Bytes} {P : Bytes → Bool} {fs fs' : Fs} {e : Ndt7.Ev} (h : FsStep json gz fs e fs')
    (hc : ∀ p, Touches p e → P p = false) : part P fs'.files = part P fs.files := by
  cases h with
  | create p hn => exact part_set7_not (hc p (.inl ⟨_, rfl⟩)) _ _
  | createCrash p msg hn => exact part_set7_not (hc p (.inl ⟨_, rfl⟩)) _ _
  | noCreate p x hx => rfl
  | write p c a b k r x h1 h2 h3 => exact part_set7_not (hc p (.inr (.inl ⟨_, _, _, rfl⟩))) _ _
  | finish p c a b x h1 h2 h3 => exact part_set7_not (hc p (.inr (.inr (.inl ⟨_, rfl⟩)))) _ _
  | other e h1 h2 h3 => rfl

section
variable {json5 : Ndt5.Record → Bytes} {json7 : Ndt7.Result → Bytes} {gz : Bytes → Bytes} {fs0 fs : Fs} {g : List AnyEv}

private theorem ndt5Of_snoc (g : List AnyEv) (e : AnyEv) : ndt5Of (g ++ [e]) = ndt5Of g ++ ndt5Of [e] := List.filterMap_append ..
private theorem ndt7Of_snoc (g : List AnyEv) (e : AnyEv) : ndt7Of (g ++ [e]) = ndt7Of g ++ ndt7Of [e] := List.filterMap_append ..

/-- The part of a shared run that concerns ndt5. -/
private theorem run5 {P : Bytes → Bool} (hr : DiskRun json5 json7 gz fs0 g fs) (h5 : ∀ x ∈ ndt5Of g, ∀ p, Concerns5 p x.2 → P p = true)
    (h7 : ∀ x ∈ ndt7Of g, ∀ p, Touches p x.2 → P p = false) : Fs5Run json5 (part P fs0.files) (ndt5Of g) (part P fs.files) := by
  induction hr with
  | nil => exact .nil
  | snoc g e fs1 fs2 hr hs ih =>
    rw [ndt5Of_snoc] at h5 ⊢
    rw [ndt7Of_snoc] at h7
    have ih := ih (fun x hx => h5 x (List.mem_append_left _ hx)) (fun x hx => h7 x (List.mem_append_left _ hx))
    cases hs with
    | ndt5 i e files hs => exact .snoc _ i e _ _ ih (step5_inside hs fun p hp => h5 (i, e) (by simp [ndt5Of]) p hp)
    | ndt7 _ i e hs =>
      rw [show ndt5Of [.ndt7 i e] = [] from rfl, List.append_nil, step7_outside hs fun p hp => h7 (i, e) (by simp [ndt7Of]) p hp]
      exact ih

/-- The part of a shared run that concerns ndt7. -/
private theorem run7 {P : Bytes → Bool} (hr : DiskRun json5 json7 gz fs0 g fs) (h5 : ∀ x ∈ ndt5Of g, ∀ p, Concerns5 p x.2 → P p = false)
    (h7 : ∀ x ∈ ndt7Of g, ∀ p, Touches p x.2 → P p = true) : FsRun json7 gz (part7 P fs0) (ndt7Of g) (part7 P fs) := by
  induction hr with
  | nil => exact .nil
  | snoc g e fs1 fs2 hr hs ih =>
    rw [ndt5Of_snoc] at h5
    rw [ndt7Of_snoc] at h7 ⊢
    have ih := ih (fun x hx => h5 x (List.mem_append_left _ hx)) (fun x hx => h7 x (List.mem_append_left _ hx))
    cases hs with
    | ndt5 i e files hs =>
      rw [show ndt7Of [.ndt5 i e] = [] from rfl, List.append_nil]
      have := step5_outside (P := P) hs fun p hp => h5 (i, e) (by simp [ndt5Of]) p hp
      simp only [part7] at ih ⊢
      rw [this]
      exact ih
    | ndt7 _ i e hs => exact .snoc _ i e _ _ ih (step7_inside hs fun p hp => h7 (i, e) (by simp [ndt7Of]) p hp)

/-- Names of temporary files are as the file system chooses them. -/
private theorem temp_names (hr : DiskRun json5 json7 gz fs0 g fs) (i : Nat) (d p : Bytes) (h : (i, .call (.tempFile d) (.ok (.ok p))) ∈ ndt5Of g) : TempName d p := by
  induction hr with
  | nil => cases h
  | snoc g e fs1 fs2 hr hs ih =>
    rw [ndt5Of_snoc] at h
    rcases List.mem_append.1 h with h | h
    · exact ih h
    · cases hs with
      | ndt7 _ i e hs => cases h
      | ndt5 i e files hs =>
        simp [ndt5Of] at h
        obtain ⟨rfl, rfl⟩ := h
        cases hs with
        | temp dir p ht hn => exact ht
        | noTemp dir x hx => exact absurd rfl (hx p)
        | other e h1 h2 h3 => exact absurd rfl (h2 _ _)

end

/-! ## The claims -/

/-- The connections and requests of one server: the ndt5 connections are those of one server whose directory is `ndt5` in the data directory, and the ndt7 requests
are handled with that data directory, by the calendar in UTC. -/
structure OneMachine (cfg : Nat → Ndt5.Cfg) (srv : Nat → Ndt7.Server) (dataDir : Bytes) (zone : Int → Int) (g : List AnyEv) : Prop where
  ndt5 : OneServer cfg (dataDir ++ str "/ndt5") zone (ndt5Of g)
  ndt7 : ∀ i, (srv i).dataDir = dataDir ∧ (srv i).lib = Ndt7.calendar

section
variable {json5 : Ndt5.Record → Bytes} {json7 : Ndt7.Result → Bytes} {gz : Bytes → Bytes} {cfg : Nat → Ndt5.Cfg} {srv : Nat → Ndt7.Server}
variable {kind : Nat → Ndt7.Subtest} {req : Nat → Ndt7.Request} {dataDir : Bytes} {zone : Int → Int} {fs0 fs : Fs} {g : List AnyEv}

private theorem proper_ndt5 : Proper (str "ndt5") := ⟨by decide, by decide, by decide, by decide⟩

/-- What the names of ndt5 records begin with. -/
private theorem prefix5 (dataDir : Bytes) : joinPrefix (dataDir ++ str "/ndt5") = ndt5Dir dataDir ++ str "/" := by
  by_cases h : dataDir = []
  · subst h; decide
  · rw [show dataDir ++ str "/ndt5" = dataDir ++ 47 :: str "ndt5" from rfl, joinPrefix_sub h proper_ndt5, ndt5Dir]
    have := clean_below h (cs := [str "ndt5"]) (by simp) (by simpa using proper_ndt5)
    simp only [join] at this
    rw [show dataDir ++ str "/ndt5" = dataDir ++ 47 :: str "ndt5" from rfl, this, joinPrefix, if_neg h]
    rfl

/-- What the names of ndt7 results begin with. -/
private theorem prefix7 (dataDir : Bytes) : joinPrefix dataDir ++ str "ndt7/" = ndt7Dir dataDir ++ str "/" := by
  have := join_below dataDir (cs := [str "ndt7"]) (by simp) (by simpa using proper_ndt7)
  simp only [join] at this
  rw [ndt7Dir, this, List.append_assoc]
  rfl

private theorem below_append (d a : Bytes) : Below d (d ++ str "/" ++ a) := List.prefix_append _ _

private theorem below_day {d p : Bytes} (h : ∃ a, p = d ++ str "/" ++ a) : Below d p := by
  obtain ⟨a, rfl⟩ := h
  exact below_append _ _

private theorem temp_below (hs : Ndt5.SideBySide cfg (ndt5Of g)) (h1 : OneMachine cfg srv dataDir zone g) (i : Nat) :
    ∀ d x, (i, .call (.tempFile d) x) ∈ ndt5Of g → ∀ p, TempName d p → Below (ndt5Dir dataDir) p := by
  rintro d x hm p ⟨number, rfl⟩
  have hm' := Ndt5.mem_diskOps.2 ⟨Ndt5.mem_own.2 hm, (rfl : Ndt5.isDiskOp (.call (.tempFile d) x) = true)⟩
  obtain ⟨u, t, -, -, hd⟩ := hs.ops i (List.ne_nil_of_mem hm')
  obtain ⟨h2, -⟩ := hd.mem_temp hm'
  rw [h2, Ndt5.dirOf, h1.ndt5.inDir, h1.ndt5.calendar, localDay, dayDir_eq, prefix5]
  exact ⟨formatDay (t + zone t) ++ 47 :: (unidentified ++ number ++ str ".json"), by simp [str]⟩

/-- C96: every file that an ndt5 connection creates or writes is below the directory `ndt5`, … -/
theorem C96_ndt5_below (hs : Ndt5.SideBySide cfg (ndt5Of g)) (h1 : OneMachine cfg srv dataDir zone g) (hr : DiskRun json5 json7 gz fs0 g fs) (i : Nat) (p : Bytes) :
    (∀ x, (i, .call (.create p) x) ∈ ndt5Of g → Below (ndt5Dir dataDir) p) ∧ (∀ d, (i, .call (.tempFile d) (.ok (.ok p))) ∈ ndt5Of g → Below (ndt5Dir dataDir) p) ∧
    (∀ r x, (i, .call (.write p r) x) ∈ ndt5Of g → Below (ndt5Dir dataDir) p) := by
  have hcreate : ∀ p x, (i, .call (.create p) x) ∈ ndt5Of g → Below (ndt5Dir dataDir) p := by
    intro p x hm
    have hm' := Ndt5.mem_diskOps.2 ⟨Ndt5.mem_own.2 hm, (rfl : Ndt5.isDiskOp (.call (.create p) x) = true)⟩
    obtain ⟨u, t, hu, -, hd⟩ := hs.ops i (List.ne_nil_of_mem hm')
    obtain ⟨h2, -⟩ := hd.mem_create hm'
    rw [h2, Ndt5.dirOf, h1.ndt5.inDir, h1.ndt5.calendar, localDay, dayFile_eq _ _ (h1.ndt5.plain i u (Ndt5.mem_own.1 hu)), prefix5]
    exact ⟨formatDay (t + zone t) ++ 47 :: (u ++ str ".json"), by simp [str]⟩
  have htemp := temp_below hs h1 i
  refine ⟨hcreate p, fun d hm => htemp d _ hm p (temp_names hr i d p hm), fun r x hm => ?_⟩
  have hm' := Ndt5.mem_diskOps.2 ⟨Ndt5.mem_own.2 hm, (rfl : Ndt5.isDiskOp (.call (.write p r) x) = true)⟩
  obtain ⟨u, t, -, -, hd⟩ := hs.ops i (List.ne_nil_of_mem hm')
  have hsub : ∀ e ∈ Ndt5.diskOps (own i (ndt5Of g)), (i, e) ∈ ndt5Of g := fun e he => Ndt5.mem_own.1 (Ndt5.mem_diskOps.1 he).1
  generalize Ndt5.diskOps (own i (ndt5Of g)) = l at hd hm' hsub
  cases hd <;> simp only [List.mem_cons, List.not_mem_nil, or_false, Event.call.injEq, reduceCtorEq, false_or, Ndt5.Call.write.injEq, false_and] at hm'
  · obtain ⟨⟨rfl, rfl⟩, -⟩ := hm'
    exact hcreate _ _ (hsub _ List.mem_cons_self)
  · obtain ⟨⟨rfl, rfl⟩, -⟩ := hm'
    exact htemp _ _ (hsub _ List.mem_cons_self) _ (temp_names hr i _ _ (hsub _ List.mem_cons_self))

/-- … every file that an ndt7 request touches is below the directory `ndt7`, … -/
theorem C96_ndt7_below (hint : Ndt7.Interleaved srv kind req (ndt7Of g)) (h1 : OneMachine cfg srv dataDir zone g) (i : Nat) (p : Bytes) (e : Ndt7.Ev)
    (hm : (i, e) ∈ ndt7Of g) (ht : Touches p e) : Below (ndt7Dir dataDir) p := by
  obtain ⟨evs, out, s', he, hp⟩ := hint i
  obtain ⟨uuid, t, h⟩ := C52_own_file (srv i) (h1.ndt7 i).2 (kind i) (req i) evs out s' he
  obtain ⟨-, -, rfl⟩ := h p e (hp.subset (Ndt7.mem_mine.2 hm)) ht
  rw [(h1.ndt7 i).1]
  simp only [resultFile, List.flatten_cons]
  rw [dayDir7_eq, prefix7, Below]
  simp only [List.append_assoc]
  rw [List.prefix_append_right_inj]
  exact List.prefix_append _ _

/-- … and no file is below both, so that no file of an ndt5 connection is ever touched by an ndt7 request or vice versa. -/
theorem C96_apart (dataDir p : Bytes) : ¬ (Below (ndt5Dir dataDir) p ∧ Below (ndt7Dir dataDir) p) := by
  rintro ⟨⟨a, rfl⟩, b, h⟩
  rw [← prefix5, ← prefix7] at h
  by_cases hd : dataDir = []
  · subst hd
    have h5 : joinPrefix ([] ++ str "/ndt5") = str "/ndt5/" := by decide
    have h7 : joinPrefix [] = [] := rfl
    rw [h5, h7] at h
    simp [str] at h
  · rw [show dataDir ++ str "/ndt5" = dataDir ++ 47 :: str "ndt5" from rfl, joinPrefix_sub hd proper_ndt5] at h
    simp only [List.append_assoc] at h
    have h := List.append_cancel_left h
    simp [str] at h

/-- The files of ndt5. -/
private def in5 (dataDir : Bytes) (p : Bytes) : Bool := (ndt5Dir dataDir ++ str "/").isPrefixOf p

private theorem in5_true {dataDir p : Bytes} (h : Below (ndt5Dir dataDir) p) : in5 dataDir p = true := List.isPrefixOf_iff_prefix.2 h

private theorem in5_false {dataDir p : Bytes} (h : Below (ndt7Dir dataDir) p) : in5 dataDir p = false := by
  rw [Bool.eq_false_iff]
  exact fun h' => C96_apart dataDir p ⟨List.isPrefixOf_iff_prefix.1 h', h⟩

private theorem concerns5 (hs : Ndt5.SideBySide cfg (ndt5Of g)) (h1 : OneMachine cfg srv dataDir zone g) (hr : DiskRun json5 json7 gz fs0 g fs) :
    ∀ x ∈ ndt5Of g, ∀ p, Concerns5 p x.2 → Below (ndt5Dir dataDir) p := by
  rintro ⟨i, e⟩ hm p (⟨x, rfl⟩ | ⟨d, x, rfl, ht⟩ | ⟨r, x, rfl⟩)
  · exact (C96_ndt5_below hs h1 hr i p).1 x hm
  · exact temp_below hs h1 i d x hm p ht
  · exact (C96_ndt5_below hs h1 hr i p).2.2 r x hm

private theorem ndt5_run (hs : Ndt5.SideBySide cfg (ndt5Of g)) (hint : Ndt7.Interleaved srv kind req (ndt7Of g)) (h1 : OneMachine cfg srv dataDir zone g)
    (hr : DiskRun json5 json7 gz fs0 g fs) : Fs5Run json5 (part (in5 dataDir) fs0.files) (ndt5Of g) (part (in5 dataDir) fs.files) :=
  run5 hr (fun x hx p hp => in5_true (concerns5 hs h1 hr x hx p hp)) fun x hx p hp => in5_false (C96_ndt7_below hint h1 x.1 p x.2 hx hp)

private theorem ndt7_run (hs : Ndt5.SideBySide cfg (ndt5Of g)) (hint : Ndt7.Interleaved srv kind req (ndt7Of g)) (h1 : OneMachine cfg srv dataDir zone g)
    (hr : DiskRun json5 json7 gz fs0 g fs) : FsRun json7 gz (part7 (fun p => !in5 dataDir p) fs0) (ndt7Of g) (part7 (fun p => !in5 dataDir p) fs) :=
  run7 hr (fun x hx p hp => by simp [in5_true (concerns5 hs h1 hr x hx p hp)]) fun x hx p hp => by simp [in5_false (C96_ndt7_below hint h1 x.1 p x.2 hx hp)]

private theorem part_some {P : Bytes → Bool} {f : Bytes → Option Bytes} {p c : Bytes} (h : part P f p = some c) : f p = some c := by
  unfold part at h
  split at h
  · exact h
  · cases h

private theorem part7_some {P : Bytes → Bool} {f : Fs} {p c : Bytes} (h : (part7 P f).files p = some c) : f.files p = some c := part_some h

private theorem written_ok {evs : List Ndt5.Ev} {p : Bytes} {r : Ndt5.Record} (h : Spec.written evs = [(p, r)]) : .call (.write p r) (.ok none) ∈ evs := by
  have : (p, r) ∈ Spec.written evs := by rw [h]; simp
  obtain ⟨e, he, hw⟩ := List.mem_filterMap.1 this
  unfold writeOf at hw
  split at hw <;> simp at hw
  obtain ⟨rfl, rfl⟩ := hw
  exact he

/-- C96: a record that was written stays as it is, whatever connections and requests of both protocols do. -/
theorem C96_record_survives (hs : Ndt5.SideBySide cfg (ndt5Of g)) (hint : Ndt7.Interleaved srv kind req (ndt7Of g)) (h1 : OneMachine cfg srv dataDir zone g)
    (hr : DiskRun json5 json7 gz fs0 g fs) (i : Nat) (p : Bytes) (r : Ndt5.Record) (hi : (i, .call (.write p r) (.ok none)) ∈ ndt5Of g) :
    fs.files p = some (json5 r) :=
  part_some (C54_record_survives json5 cfg _ zone _ _ _ hs h1.ndt5 (ndt5_run hs hint h1 hr) i p r hi)

/-- C96: so does a result, once writing it without compression has succeeded, or with compression closing the compressor. -/
theorem C96_result_survives (hs : Ndt5.SideBySide cfg (ndt5Of g)) (hint : Ndt7.Interleaved srv kind req (ndt7Of g)) (h1 : OneMachine cfg srv dataDir zone g)
    (hr : DiskRun json5 json7 gz fs0 g fs) (i : Nat) (p : Bytes) (compress : Bool) (r : Ndt7.Result) (hi : (i, .call (.write p compress r) (.ok none)) ∈ ndt7Of g)
    (hc : compress = true → (i, .call (.gzipClose p) (.ok none)) ∈ ndt7Of g) : fs.files p = some (document json7 gz compress r) :=
  part7_some (C53_complete json7 gz srv kind req _ _ _ hint (ndt7_run hs hint h1 hr) p i compress r hi hc)

/-- C96: a file that was there at the start and does not have the name of a record of an ndt5 connection is unchanged. -/
theorem C96_others_unchanged (hs : Ndt5.SideBySide cfg (ndt5Of g)) (hint : Ndt7.Interleaved srv kind req (ndt7Of g)) (h1 : OneMachine cfg srv dataDir zone g)
    (hr : DiskRun json5 json7 gz fs0 g fs) (p content : Bytes) (hp : fs0.files p = some content)
    (hn : ∀ i u t, (i, .call (.uuid .control) (.ok u)) ∈ ndt5Of g → (i, .clock t) ∈ ndt5Of g → p ≠ recordFile (dataDir ++ str "/ndt5") (localDay zone t) u) :
    fs.files p = some content := by
  rcases hb : in5 dataDir p with _ | _
  · exact part7_some (C52_no_overwrite json7 gz srv kind req _ _ _ hint (ndt7_run hs hint h1 hr) p content (by simp [part7, part, hb, hp]))
  · exact part_some (C54_others_unchanged json5 cfg _ zone _ _ _ hs h1.ndt5 (ndt5_run hs hint h1 hr) p content (by simp [part, hb, hp]) hn)

/-- C96: the whole way from an ndt5 session to the bytes of its file, beside any number of other ndt5 connections and ndt7 requests. If the connection has a UUID, its file operations do
not fail and its rates are numbers, then there is one record telling what happened, and the file of the session holds it as one JSON document. -/
theorem C96_session_file {K : Ndt7.Layout} (hK : LayoutOk K) {ft : FloatText} (hft : FloatsOk ft) {z : Int} (hs : Ndt5.SideBySide cfg (ndt5Of g))
    (hint : Ndt7.Interleaved srv kind req (ndt7Of g)) (h1 : OneMachine cfg srv dataDir zone g)
    (hr : DiskRun (fun r => (Ndt5.encodeRecord ft K z r).getD []) json7 gz fs0 g fs) {i : Nat} {out : Outcome Unit}
    (he : Exec (Ndt5.HandleControlChannel (cfg i)) () (own i (ndt5Of g)) out ()) (hu : ∃ u, .call (.uuid .control) (.ok u) ∈ own i (ndt5Of g))
    (hd : DiskWorks (own i (ndt5Of g))) (ht : TypedEnv K z (own i (ndt5Of g))) :
    ∃ r, Archived (cfg i) (own i (ndt5Of g)) r ∧
      (FiniteRates r → ∃ path text j, Spec.written (own i (ndt5Of g)) = [(path, r)] ∧ fs.files path = some text ∧ IsJson text j ∧ recordDoc ft K z r j) := by
  obtain ⟨r, ha, h2⟩ := C90_session_file hK hft he hu hd ht
  refine ⟨r, ha, fun hf => ?_⟩
  rcases h2 with ⟨h3, -⟩ | ⟨-, path, text, j, hw, hx, hj, hj', -⟩
  · exact absurd hf h3
  · refine ⟨path, text, j, hw, ?_, hj, hj'⟩
    have := C96_record_survives hs hint h1 hr i path r (Ndt5.mem_own.1 (written_ok hw))
    rw [this, hx]
    rfl

/-- C96: the same for an ndt7 request that is counted as "result". -/
theorem C96_request_file {K : Ndt7.Layout} (hK : LayoutOk K) (hs : Ndt5.SideBySide cfg (ndt5Of g)) (hint : Ndt7.Interleaved srv kind req (ndt7Of g))
    (h1 : OneMachine cfg srv dataDir zone g) (hr : DiskRun json5 (fun r => (Ndt7.encodeResult K r).getD []) gz fs0 g fs) {i : Nat} {out : Outcome Unit} {s' : Ndt7.Result}
    (hq : QueryOk (req i)) (he : Exec (Ndt7.runMeasurement (srv i) (kind i) (req i)) {} (mine i (ndt7Of g)) out s')
    (hset : SetupOk (mine i (ndt7Of g))) (hd : DiskInOrder K (mine i (ndt7Of g))) (ho : InOrder K (mine i (ndt7Of g)))
    (hc : (directionText (kind i), str "result") ∈ statuses (mine i (ndt7Of g)))
    (hz : ∀ x ∈ subtests (mine i (ndt7Of g)), ∀ m ∈ x.2.2.clientMeasurements, ∀ c, m.conn = some c → c.startZone.natAbs < 1440) :
    ∃ path r d text j, fs.files path = some (if (srv i).compress then gz text else text) ∧ IsJson text j ∧ resultDoc K r j ∧ under (kind i) r = some d ∧
      ∀ x ∈ subtests (mine i (ndt7Of g)), d.serverMeasurements = x.2.2.serverMeasurements ∧ d.clientMeasurements = x.2.2.clientMeasurements := by
  obtain ⟨t0, t1, path, uuid, id, r, d, text, j, -, h2, h3, h4, -, -, h5, -, -, -, h6⟩ :=
    C90_request_file hK hint (ndt7_run hs hint h1 hr) hq he hset hd ho hc hz
  exact ⟨path, r, d, text, j, part7_some h2, h3, h4, h5, fun x hx => ⟨(h6 x hx).1, (h6 x hx).2.1⟩⟩

end

/-! ## Example -/

/-- An ndt5 server beside the ndt7 server `exDisk`, with the same data directory. -/
def besideCfg : Ndt5.Cfg := { diskCfg with dataDir := str "/d/ndt5" }

/-- The file of its connection. -/
def besidePath : Bytes := str "/d/ndt5/2020/11/07" ++ [47] ++ str "u" ++ str ".json"

/-- The connection up to the creation of the file. -/
def besideBegin : List Ndt5.Ev :=
  [.emit (.activeTests (str "ndt5+plain") 1), .clock 100, .call (.addrs .control) (.ok ⟨str "192.0.2.1", 3001, str "198.51.100.7", 4000⟩), .clock lateTime,
   .call (.uuid .control) (.ok (str "u")), .call .recv (.ok (.error (str "EOF"))), .emit (.testError (str "ndt5+plain") (str "control") (str "LoginCeremony")), .clock 200,
   .call (.mkdirAll (str "/d/ndt5/2020/11/07")) (.ok none)]

private theorem besideDir : str "/d/ndt5" ++ [47] ++ localDay (fun _ => 7200000000000) lateTime = str "/d/ndt5/2020/11/07" := by decide +kernel

/-- Its rest. -/
def besideEnd : List Ndt5.Ev := .call (.write besidePath (diskRecord (str "u"))) (.ok none) :: diskEnd besidePath

def besideCreate : List Ndt5.Ev := besideBegin ++ [.call (.create besidePath) (.ok none)]

theorem beside_exec : Exec (Ndt5.HandleControlChannel besideCfg) () (besideCreate ++ besideEnd) (.ok ()) () := by
  unfold besideCreate besideEnd besideBegin besidePath diskEnd closing
  rw [← besideDir]
  follow

/-- The events of the request `exPlain`. -/
def besideRequest : List Ndt7.Ev := exDiskBegin ++ [.call (.openExcl exDiskPath) (.ok none),
    .call (.write exDiskPath false exDiskRecord) (.ok none), .call (.fileClose exDiskPath) (.ok none)] ++ exDiskEnd

/-- The request comes while the connection has created its file and not yet written to it. -/
private def beside : List AnyEv := besideCreate.map (.ndt5 0) ++ besideRequest.map (.ndt7 0) ++ besideEnd.map (.ndt5 0)

private theorem ndt5Of_append (a b : List AnyEv) : ndt5Of (a ++ b) = ndt5Of a ++ ndt5Of b := List.filterMap_append ..
private theorem ndt7Of_append (a b : List AnyEv) : ndt7Of (a ++ b) = ndt7Of a ++ ndt7Of b := List.filterMap_append ..
private theorem ndt5Of_map5 (i : Nat) (l : List Ndt5.Ev) : ndt5Of (l.map (.ndt5 i)) = l.map (i, ·) := by induction l <;> simp_all [ndt5Of]
private theorem ndt5Of_map7 (i : Nat) (l : List Ndt7.Ev) : ndt5Of (l.map (.ndt7 i)) = [] := by induction l <;> simp_all [ndt5Of]
private theorem ndt7Of_map5 (i : Nat) (l : List Ndt5.Ev) : ndt7Of (l.map (.ndt5 i)) = [] := by induction l <;> simp_all [ndt7Of]
private theorem ndt7Of_map7 (i : Nat) (l : List Ndt7.Ev) : ndt7Of (l.map (.ndt7 i)) = l.map (i, ·) := by induction l <;> simp_all [ndt7Of]

private theorem beside5 : ndt5Of beside = (besideCreate ++ besideEnd).map (0, ·) := by
  rw [beside, ndt5Of_append, ndt5Of_append, ndt5Of_map5, ndt5Of_map7, ndt5Of_map5, List.append_nil, ← List.map_append]

private theorem beside7 : ndt7Of beside = besideRequest.map (0, ·) := by
  rw [beside, ndt7Of_append, ndt7Of_append, ndt7Of_map5, ndt7Of_map7, ndt7Of_map5, List.append_nil, List.nil_append]

private theorem diskRun_idle5 {json5 : Ndt5.Record → Bytes} {json7 : Ndt7.Result → Bytes} {gz : Bytes → Bytes} {fs0 fs : Fs} {g : List AnyEv}
    (h : DiskRun json5 json7 gz fs0 g fs) (i : Nat) (l : List Ndt5.Ev) (hl : ∀ e ∈ l, Ndt5.isDiskOp e = false) : DiskRun json5 json7 gz fs0 (g ++ l.map (.ndt5 i)) fs := by
  induction l generalizing g with
  | nil => simpa using h
  | cons e l ih =>
    have hf := hl e List.mem_cons_self
    have := ih (.snoc g (.ndt5 i e) fs fs h (.ndt5 fs i e fs.files (.other _ e (by rintro p x rfl; cases hf) (by rintro p x rfl; cases hf) (by rintro p r x rfl; cases hf))))
      fun e' he' => hl e' (List.mem_cons_of_mem _ he')
    simpa using this

private theorem diskRun_idle7 {json5 : Ndt5.Record → Bytes} {json7 : Ndt7.Result → Bytes} {gz : Bytes → Bytes} {fs0 fs : Fs} {g : List AnyEv}
    (h : DiskRun json5 json7 gz fs0 g fs) (i : Nat) (l : List Ndt7.Ev) (hl : ∀ e ∈ l, Ndt7.isFileOp e = false) : DiskRun json5 json7 gz fs0 (g ++ l.map (.ndt7 i)) fs := by
  induction l generalizing g with
  | nil => simpa using h
  | cons e l ih =>
    have hf := hl e List.mem_cons_self
    have := ih (.snoc g (.ndt7 i e) fs fs h (.ndt7 fs fs i e (.other _ e (by rintro p x rfl; cases hf) (by rintro p k r x rfl; cases hf) (by rintro p x rfl; cases hf))))
      fun e' he' => hl e' (List.mem_cons_of_mem _ he')
    simpa using this

/-- The hypotheses hold for an ndt5 connection and an ndt7 request, both with the UUID "u", the latter while the former is storing its record. -/
example (json5 : Ndt5.Record → Bytes) (json7 : Ndt7.Result → Bytes) (gz : Bytes → Bytes) : ∃ fs,
    Ndt5.SideBySide (fun _ => besideCfg) (ndt5Of beside) ∧ Ndt7.Interleaved (fun _ => exDisk false) (fun _ => .download) (fun _ => exRequest) (ndt7Of beside) ∧
    OneMachine (fun _ => besideCfg) (fun _ => exDisk false) (str "/d") (fun _ => 7200000000000) beside ∧ DiskRun json5 json7 gz exFs beside fs ∧
    (0, .call (.write besidePath (diskRecord (str "u"))) (.ok none)) ∈ ndt5Of beside ∧ (0, .call (.write exDiskPath false exDiskRecord) (.ok none)) ∈ ndt7Of beside := by
  have h1 := diskRun_idle5 (json5 := json5) (json7 := json7) (gz := gz) (fs0 := exFs) .nil 0 besideBegin (by simp [besideBegin, Ndt5.isDiskOp, Ndt5.isDiskCall])
  have h2 := DiskRun.snoc _ _ _ _ h1 (.ndt5 _ 0 _ _ (.create _ besidePath))
  have h3 := diskRun_idle7 h2 0 exDiskBegin (by simp [exDiskBegin, exBegin, Ndt7.isFileOp, Ndt7.isFileCall])
  have h4 := DiskRun.snoc _ _ _ _ h3 (.ndt7 _ _ 0 _ (.create _ exDiskPath (by decide +kernel)))
  have h5 := DiskRun.snoc _ _ _ _ h4 (.ndt7 _ _ 0 _ (.write _ exDiskPath [] (json7 exDiskRecord) [] false exDiskRecord (.ok none) (by simp [Fs.set]) (by simp [document]) fun _ _ => rfl))
  have h6 := diskRun_idle7 h5 0 ([.call (.fileClose exDiskPath) (.ok none)] ++ exDiskEnd) (by simp [Ndt7.isFileOp, Ndt7.isFileCall, exDiskEnd])
  have h7 := DiskRun.snoc _ _ _ _ h6 (.ndt5 _ 0 _ _ (.write _ besidePath [] (json5 (diskRecord (str "u"))) (diskRecord (str "u")) (.ok none) (by
    have : besidePath ≠ exDiskPath := by decide
    simp [Fs.set, Fs5.set, this]) (fun _ => List.prefix_refl _) fun _ _ => rfl))
  have h8 := diskRun_idle5 h7 0 (diskEnd besidePath) (by simp [Ndt5.isDiskOp, Ndt5.isDiskCall, diskEnd, closing])
  refine ⟨_, ?_, ?_, ⟨?_, fun _ => ⟨rfl, rfl⟩⟩, by simpa [beside, besideRequest, besideCreate, besideEnd] using h8, ?_, ?_⟩
  · rw [beside5]
    intro i
    refine ⟨_, _, beside_exec, ?_⟩
    rw [own_map]
    split
    · exact List.prefix_refl _
    · exact List.nil_prefix
  · rw [beside7]
    exact interleaved_first exPlain
  · rw [beside5]
    refine ⟨fun _ => rfl, fun _ => rfl, fun i t ht => ?_, fun i j u hi hj hu => ?_, fun i u hi hp => ?_, fun i u hi => ?_⟩
    · apply fourDigitYear_of_int64
      simp [besideCreate, besideEnd, besideBegin, diskEnd, closing] at ht
      have : t = 100 ∨ t = lateTime ∨ t = 200 ∨ t = 300 := by grind
      rcases this with rfl | rfl | rfl | rfl <;> decide
    · simp [besideCreate, besideEnd, besideBegin, diskEnd, closing] at hi hj
      omega
    · simp [besideCreate, besideEnd, besideBegin, diskEnd, closing] at hi
      obtain ⟨-, rfl⟩ := hi
      revert hp; decide
    · simp [besideCreate, besideEnd, besideBegin, diskEnd, closing] at hi
      obtain ⟨-, rfl⟩ := hi
      decide
  · rw [beside5]; simp [besideEnd]
  · rw [beside7]; simp [besideRequest]

end Verif.Props
