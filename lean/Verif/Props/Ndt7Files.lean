import Verif.Ndt7.FilesInv
import Verif.Props.Ndt7Handler
import Verif.Go.PathLemmas

/-!
# C52, C53: result files
-/

namespace Verif.Props
open Verif.Go Verif.Spec Verif.Ndt7

/-- The name in the model is the name of the specification. -/
private theorem resultName_eq (dataDir uuid : Bytes) (kind : Subtest) (compress : Bool) (t : Int) :
    resultName calendar dataDir kind.name uuid compress t = resultFile dataDir kind t uuid compress := by
  cases kind <;> cases compress <;> simp [resultName, resultDir, resultFile, calendar, Subtest.name] <;> rfl

private theorem append_right_inj_length {a b c d : Bytes} (h : a ++ b = c ++ d) (hl : b.length = d.length) : a = c ∧ b = d :=
  List.append_inj' h hl

/-- C52: in a data directory the name of a result file determines direction, time, UUID and compression. -/
theorem C52_names_injective (dataDir : Bytes) (k1 k2 : Subtest) (t1 t2 : Int) (u1 u2 : Bytes) (c1 c2 : Bool)
    (h1 : FourDigitYear t1) (h2 : FourDigitYear t2) (h : resultFile dataDir k1 t1 u1 c1 = resultFile dataDir k2 t2 u2 c2) :
    k1 = k2 ∧ t1 = t2 ∧ u1 = u2 ∧ c1 = c2 := by
  simp only [resultFile, List.flatten_cons, List.flatten_nil, List.append_nil, dayDir7_eq, List.append_assoc] at h
  have h := List.append_cancel_left (List.append_cancel_left h)
  have h := List.append_cancel_left (List.append_inj h (by rw [formatDay_length h1, formatDay_length h2])).2
  have hk : k1 = k2 := by
    cases k1 <;> cases k2 <;> first | rfl | (have := congrArg List.head? h; revert this; simp [str]; done)
  subst hk
  have h := List.append_cancel_left (List.append_cancel_left h)
  obtain ⟨hs, h⟩ := List.append_inj h (by rw [formatStamp_length h1, formatStamp_length h2])
  have ht := formatStamp_injective h1 h2 hs
  have h := List.append_cancel_left h
  have hc : c1 = c2 := by
    have hl := congrArg List.getLast? h
    cases c1 <;> cases c2 <;> first | rfl | (revert hl; simp [str, List.getLast?_append]; done)
  subst hc
  exact ⟨rfl, ht, List.append_cancel_right h, rfl⟩

/-- C52: every file operation of a request concerns the one file named after its direction, its UUID, and a time that was read from the clock while it ran. -/
theorem C52_own_file (h : Server) (hl : h.lib = calendar) (kind : Subtest) (req : Request) (evs : List Ev) (out : Outcome Unit) (s' : Result)
    (he : Exec (runMeasurement h kind req) {} evs out s') :
    ∃ uuid t, ∀ p e, e ∈ evs → Touches p e → .call .uuid (.ok (.ok uuid)) ∈ evs ∧ .clock t ∈ evs ∧ p = resultFile h.dataDir kind t uuid h.compress := by
  rcases wp_iff.1 (runMeasurement_files _ _ _ _) _ _ _ he with ⟨-, h1, h2, -⟩ | ⟨u, t, hu, ⟨hc, ho, hcl⟩, -⟩
  · refine ⟨[], 0, fun p e hm ht => ?_⟩
    have hops : isFileOp e = false := by
      rcases hb : isFileOp e with _ | _
      · rfl
      · have := mem_fileOps.2 ⟨hm, hb⟩
        rw [h1] at this; cases this
    rcases ht with ⟨x, rfl⟩ | ⟨c, r, x, rfl⟩ | ⟨x, rfl⟩ | ⟨x, rfl⟩
    · cases hops
    · cases hops
    · cases hops
    · exact absurd hm (h2 p x)
  · refine ⟨u, t, fun p e hm ht => ⟨hu, ?_⟩⟩
    have key : ∀ q, FileOps q h.compress (fileOps evs) → isFileOp e = true → p = q := by
      intro q hq hb
      have he := mem_fileOps.2 ⟨hm, hb⟩
      generalize fileOps evs = l at hq he
      cases hq <;> simp at he
      all_goals
        rcases ht with ⟨x, rfl⟩ | ⟨c, r, x, rfl⟩ | ⟨x, rfl⟩ | ⟨x, rfl⟩
      all_goals first
        | (cases hb; done)
        | (simp at he; done)
        | (simp at he; exact he.1)
        | (simp at he; exact he)
        | (simp at he; exact he.1.1)
    rw [← resultName_eq, ← hl]
    by_cases hb : isFileOp e = true
    · refine ⟨hc ?_, key _ ho hb⟩
      exact List.ne_nil_of_mem (mem_fileOps.2 ⟨hm, hb⟩)
    · rcases ht with ⟨x, rfl⟩ | ⟨c, r, x, rfl⟩ | ⟨x, rfl⟩ | ⟨x, rfl⟩
      · exact absurd rfl hb
      · exact absurd rfl hb
      · exact absurd rfl hb
      · obtain ⟨g1, g2⟩ := hcl p x hm
        exact ⟨hc g2, g1⟩

section
variable (json : Result → Bytes) (gz : Bytes → Bytes) (srv : Nat → Server) (kind : Nat → Subtest) (req : Nat → Request)
variable (fs0 fs : Fs) (g : List (Nat × Ev))

/-- C52: whatever requests do, side by side and up to any point, the files that were there before are unchanged. -/
theorem C52_no_overwrite (hint : Interleaved srv kind req g) (hr : FsRun json gz fs0 g fs) (p content : Bytes) (hp : fs0.files p = some content) :
    fs.files p = some content := (fs_inv hr hint).keep p content hp

/-- C52: no file is created twice, in particular not by two requests. -/
theorem C52_created_once (hint : Interleaved srv kind req g) (hr : FsRun json gz fs0 g fs) (p : Bytes) (a b c : List (Nat × Ev)) (i j : Nat) (e e' : Ev)
    (he : Creates p e) (he' : Creates p e') : g ≠ a ++ (i, e) :: b ++ (j, e') :: c := by
  rintro rfl
  cases he; cases he'
  rw [show a ++ (i, Event.call (S := sig) (.openExcl p) (.ok none)) :: b ++ (j, .call (.openExcl p) (.ok none)) :: c =
    (a ++ (i, .call (.openExcl p) (.ok none)) :: b ++ [(j, .call (.openExcl p) (.ok none))]) ++ c by simp] at hint hr
  obtain ⟨fs1, hr⟩ := fsRun_of_append hr
  have hint := hint.of_append
  generalize hg : a ++ (i, Event.call (S := sig) (.openExcl p) (.ok none)) :: b ++ [(j, .call (.openExcl p) (.ok none))] = g' at hr
  cases hr with
  | nil => simp at hg
  | snoc g'' i' e'' fs1' fs2 hr hs =>
    obtain ⟨rfl, h2⟩ := List.append_inj' hg rfl
    cases h2
    have := (fs_inv hr hint.of_append).stays p i (mem_mine.2 (by simp))
    cases hs with
    | create _ hp => exact this hp
    | noCreate _ x hx => exact hx rfl
    | other => rename_i h1 _ _; exact h1 _ _ rfl

/-- C52: two requests that create the same file are the same request. -/
theorem C52_distinct_files (hint : Interleaved srv kind req g) (hr : FsRun json gz fs0 g fs) (p : Bytes) (i j : Nat) (e e' : Ev)
    (he : Creates p e) (he' : Creates p e') (hi : (i, e) ∈ g) (hj : (j, e') ∈ g) : i = j := by
  cases he; cases he'
  exact (fs_inv hr hint).uniq p i j (mem_mine.2 hi) (mem_mine.2 hj)

/-- C53: at every point the file that a request has created holds a beginning of the document of its result: nothing before the result is written, … -/
theorem C53_empty_before (hint : Interleaved srv kind req g) (hr : FsRun json gz fs0 g fs) (p : Bytes) (i : Nat) (e : Ev)
    (he : Creates p e) (hi : (i, e) ∈ g) (hn : ∀ k r x, (i, .call (.write p k r) x) ∉ g) : fs.files p = some [] := by
  cases he
  exact (fs_inv hr hint).empty p i (mem_mine.2 hi) fun k r x hx => hn k r x (mem_mine.1 hx)

/-- … from then on a prefix of the document, … -/
theorem C53_always_prefix (hint : Interleaved srv kind req g) (hr : FsRun json gz fs0 g fs) (p : Bytes) (i : Nat) (compress : Bool) (r : Result)
    (x : Outcome (Option Err)) (hi : (i, .call (.write p compress r) x) ∈ g) :
    ∃ content, fs.files p = some content ∧ content <+: document json gz compress r := by
  obtain ⟨-, ⟨c, h1, h2⟩, -, -⟩ := (fs_inv hr hint).full p i compress r x (mem_mine.2 hi)
  exact ⟨c, h1, _, h2⟩

/-- … the whole document once writing it without compression has succeeded, and with compression once closing the compressor has succeeded. -/
theorem C53_complete (hint : Interleaved srv kind req g) (hr : FsRun json gz fs0 g fs) (p : Bytes) (i : Nat) (compress : Bool) (r : Result)
    (hi : (i, .call (.write p compress r) (.ok none)) ∈ g) (hc : compress = true → (i, .call (.gzipClose p) (.ok none)) ∈ g) :
    fs.files p = some (document json gz compress r) := by
  obtain ⟨-, ⟨c, h1, h2⟩, h3, h4⟩ := (fs_inv hr hint).full p i compress r _ (mem_mine.2 hi)
  have : fs.rest p = [] := by
    cases compress
    · exact h3 rfl rfl
    · exact h4 (mem_mine.2 (hc rfl))
  rw [this, List.append_nil] at h2
  rw [h1, h2]

/-- C53, what is missing: with compression the statement needs that closing the compressor did not fail, see below. When the end of a test is reported (the flow is
deleted) its result file holds the whole document. -/
theorem C53_reported_complete_partial (hint : Interleaved srv kind req g) (hr : FsRun json gz fs0 g fs) (i : Nat) (t : Int) (u : Bytes)
    (hi : (i, .emit (.flowDeleted t u)) ∈ g) (hc : ∀ p x, (i, .call (.gzipClose p) x) ∈ g → x = .ok none) :
    ∃ p r, (i, .call (.write p (srv i).compress r) (.ok none)) ∈ g ∧ fs.files p = some (document json gz (srv i).compress r) := by
  obtain ⟨evs, out, s', h1, h2⟩ := hint i
  have hmem := mem_mine.2 hi
  rcases wp_iff.1 (runMeasurement_files _ _ _ _) _ _ _ h1 with ⟨-, -, -, h3⟩ | ⟨v, tt, -, -, a, b, rfl, h4, h5, h6⟩
  · exact absurd (h2.subset hmem) (h3 t u)
  · have hb : .emit (.flowDeleted t u) ∈ b := (List.mem_append.1 (h2.subset hmem)).resolve_left (h4 t u)
    obtain ⟨p, r, hw, hcl⟩ := h6 t u hb
    have hsub : a <+: mine i g := by
      rcases List.prefix_or_prefix_of_prefix h2 (List.prefix_append a b) with h | h
      · exact absurd (h.subset hmem) (h4 t u)
      · exact h
    refine ⟨p, r, mem_mine.1 (hsub.subset hw), ?_⟩
    refine C53_complete json gz srv kind req fs0 fs g hint hr p i _ r (mem_mine.1 (hsub.subset hw)) fun hcc => ?_
    obtain ⟨y, hy⟩ := hcl hcc
    have hy := mem_mine.1 (hsub.subset hy)
    have := hc _ _ hy
    cases this
    exact hy

end

/-! ## Examples, and the case in which C53 fails -/

/-- The server of the example, with the calendar. -/
def exDisk (compress : Bool) : Server := { exServer with lib := calendar, compress := compress }

/-- The file of the example. -/
def exDiskPath : Bytes := str "/d/ndt7/2020/11/06/ndt7-download-20201106T140015.123456789Z.u.json"

/-- A time. -/
def exTime : Int := 1604671215123456789

example : resultFile (str "/d") .download exTime (str "u") false = exDiskPath := by decide +kernel

/-- The result of the example. -/
def exDiskRecord : Result := { exRecord with startTime := 5, endTime := exTime }

/-- What happens before the result is written. -/
def exDiskBegin : List Ev := exBegin { crash := some (str "boom") } ++ [.clock exTime, .clock exTime, .call (.mkdirAll (str "/d/ndt7/2020/11/06")) (.ok none)]

/-- What happens when the test is over. -/
def exDiskEnd : List Ev := [.emit (.flowDeleted exTime (str "u")), .emit .cancel]

private theorem exDir : resultDir calendar (str "/d") exTime = str "/d/ndt7/2020/11/06" := by decide +kernel
private theorem exName : resultName calendar (str "/d") Subtest.download.name (str "u") false exTime = exDiskPath := by decide +kernel
private theorem exNameGz : resultName calendar (str "/d") Subtest.download.name (str "u") true exTime = exDiskPath ++ str ".gz" := by decide +kernel

/-- A download with an uncompressed result. -/
theorem exPlain : Exec (runMeasurement (exDisk false) .download exRequest) {} (exDiskBegin ++ [.call (.openExcl exDiskPath) (.ok none),
    .call (.write exDiskPath false exDiskRecord) (.ok none), .call (.fileClose exDiskPath) (.ok none)] ++ exDiskEnd)
    (.panic (str "boom")) exDiskRecord := by
  rw [← exName, exDiskBegin, ← exDir]
  follow

/-- A download with a compressed result, for which the disk is full when the compressor is closed. -/
theorem exDiskFull : Exec (runMeasurement (exDisk true) .download exRequest) {} (exDiskBegin ++ [.call (.openExcl (exDiskPath ++ str ".gz")) (.ok none),
    .call (.write (exDiskPath ++ str ".gz") true exDiskRecord) (.ok none), .call (.gzipClose (exDiskPath ++ str ".gz")) (.ok (some (str "disk full"))),
    .call (.fileClose (exDiskPath ++ str ".gz")) (.ok none)] ++ exDiskEnd)
    (.panic (str "boom")) exDiskRecord := by
  rw [← exNameGz, exDiskBegin, ← exDir]
  follow

/-- Events without file operations. -/
theorem fsRun_idle {json : Result → Bytes} {gz : Bytes → Bytes} {fs0 fs : Fs} {g : List (Nat × Ev)} (h : FsRun json gz fs0 g fs) (i : Nat)
    (l : List Ev) (hl : ∀ e ∈ l, isFileOp e = false) : FsRun json gz fs0 (g ++ l.map (i, ·)) fs := by
  induction l generalizing g with
  | nil => simpa using h
  | cons e l ih =>
    have hf := hl e List.mem_cons_self
    have := ih (.snoc g i e fs fs h (.other fs e (by rintro p x rfl; cases hf) (by rintro p c r x rfl; cases hf) (by rintro p x rfl; cases hf)))
      fun e' he' => hl e' (List.mem_cons_of_mem _ he')
    simpa using this

/-- Requests all doing the same, of which only the first has begun. -/
theorem interleaved_first {h : Server} {kind : Subtest} {req : Request} {evs : List Ev} {out : Outcome Unit} {s' : Result}
    (he : Exec (runMeasurement h kind req) {} evs out s') : Interleaved (fun _ => h) (fun _ => kind) (fun _ => req) (evs.map (0, ·)) := by
  intro i
  refine ⟨evs, out, s', he, ?_⟩
  have : mine i (evs.map (0, ·)) = if 0 = i then evs else [] := by
    clear he
    induction evs with
    | nil => simp [mine]
    | cons e evs ih =>
      rw [List.map_cons, show ((0, e) :: evs.map (0, ·) : List (Nat × Ev)) = [(0, e)] ++ evs.map (0, ·) from rfl, mine_append, ih]
      by_cases hi : 0 = i <;> simp [mine, hi]
  rw [this]
  split
  · exact List.prefix_refl _
  · exact List.nil_prefix

/-- The file system at the start of the example: one other file. -/
def exFs : Fs where
  files p := if p = str "/d/other" then some (str "data") else none
  rest _ := []

/-- C52, C53: the hypotheses hold for a request that writes its result. -/
example (json : Result → Bytes) (gz : Bytes → Bytes) : ∃ g fs, Interleaved (fun _ => exDisk false) (fun _ => .download) (fun _ => exRequest) g ∧
    FsRun json gz exFs g fs ∧ (0, .call (.openExcl exDiskPath) (.ok none)) ∈ g ∧ (0, .emit (.flowDeleted exTime (str "u"))) ∈ g ∧
    (0, .call (.write exDiskPath false exDiskRecord) (.ok none)) ∈ g ∧ (∀ p x, (0, .call (.gzipClose p) x) ∉ g) := by
  have h0 := fsRun_idle (json := json) (gz := gz) (fs0 := exFs) .nil 0 exDiskBegin (by simp [exDiskBegin, exBegin, isFileOp, isFileCall])
  have h1 := FsRun.snoc _ 0 _ _ _ h0 (.create _ exDiskPath (by decide +kernel))
  have h2 := FsRun.snoc _ 0 _ _ _ h1 (.write _ exDiskPath [] (json exDiskRecord) [] false exDiskRecord (.ok none) (by simp [Fs.set]) (by simp [document]) fun _ _ => rfl)
  have h3 := fsRun_idle h2 0 ([.call (.fileClose exDiskPath) (.ok none)] ++ exDiskEnd) (by simp [isFileOp, isFileCall, exDiskEnd])
  refine ⟨_, _, interleaved_first exPlain, by simpa using h3, ?_⟩
  simp [exDiskBegin, exDiskEnd, exBegin]

example : FourDigitYear exTime := fourDigitYear_of_int64 (by decide)

/-- C53 fails with compression: the error of `Close` is ignored (handler.go:211, `warnonerror.Close` only logs it), so a test is reported as finished although its file is not complete, here
even empty. -/
theorem C53_reported_complete_false : ¬ ∀ (json : Result → Bytes) (gz : Bytes → Bytes) (srv : Nat → Server) (kind : Nat → Subtest) (req : Nat → Request)
    (fs0 fs : Fs) (g : List (Nat × Ev)) (i : Nat) (t : Int) (u : Bytes), Interleaved srv kind req g → FsRun json gz fs0 g fs →
    (i, .emit (.flowDeleted t u)) ∈ g →
    ∃ p r, (i, .call (.write p (srv i).compress r) (.ok none)) ∈ g ∧ fs.files p = some (document json gz (srv i).compress r) := by
  intro H
  have h0 := fsRun_idle (json := fun _ => str "{}") (gz := fun b => 31 :: b) (fs0 := exFs) .nil 0 exDiskBegin
    (by simp [exDiskBegin, exBegin, isFileOp, isFileCall])
  have h1 := FsRun.snoc _ 0 _ _ _ h0 (.create _ (exDiskPath ++ str ".gz") (by decide +kernel))
  have h2 := FsRun.snoc _ 0 _ _ _ h1 (.write _ (exDiskPath ++ str ".gz") [] [] (31 :: str "{}") true exDiskRecord (.ok none)
    (by simp [Fs.set]) (by simp [document]) fun _ h => by cases h)
  have h3 := FsRun.snoc _ 0 _ _ _ h2 (.finish _ (exDiskPath ++ str ".gz") [] [] (31 :: str "{}") (.ok (some (str "disk full")))
    (by simp [Fs.set]) (by simp [Fs.set]) fun h => by cases h)
  have h4 := fsRun_idle h3 0 ([.call (.fileClose (exDiskPath ++ str ".gz")) (.ok none)] ++ exDiskEnd) (by simp [isFileOp, isFileCall, exDiskEnd])
  obtain ⟨p, r, hw, hf⟩ := H (fun _ => str "{}") (fun b => 31 :: b) _ _ _ exFs _ _ 0 exTime (str "u") (interleaved_first exDiskFull)
    (by simpa using h4) (by simp [exDiskEnd])
  have hp : p = exDiskPath ++ str ".gz" := by
    simp [exDiskBegin, exDiskEnd, exBegin, exDisk] at hw
    exact hw.1
  subst hp
  rw [Fs.set_files_self] at hf
  revert hf
  simp [document, exDisk]

end Verif.Props
