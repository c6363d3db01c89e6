import Verif.Go.PathLemmas
import Verif.Go.TimeTextLemmas
import Verif.Props.SharedDisk

/-!
# C97: where the files are
-/

namespace Verif.Props
open Verif.Go Verif.Spec

/-! ## `path.Clean` and `path.Join` -/

/-- C97: `path.Clean` changes the spelling of a path only, whatever the working directory, … -/
theorem C97_clean_same_place (cwd : List Bytes) (p : Bytes) : place cwd (pathClean p) = place cwd p := place_clean cwd p

/-- … and gives one spelling to all absolute paths of a place and one to all relative paths of a place. -/
theorem C97_clean_canonical (p q : Bytes) :
    pathClean p = pathClean q ↔ (p.head? = some 47 ↔ q.head? = some 47) ∧ ∀ cwd, place cwd p = place cwd q := by
  rw [clean_eq_iff]
  refine and_congr_left' ?_
  rw [isRooted, isRooted, decide_eq_decide]

/-! ## The files -/

/-- The names of the directories of a day: year, month and day in digits. -/
def DayDirs (t : Int) (names : List Bytes) : Prop := ∃ y m d, DayIs (t / nsPerDay) (y, m, d) ∧ names = [padDec 4 y.toNat, padDec 2 m, padDec 2 d]

private theorem dayDirs_names (t : Int) : DayDirs t (dayNames t) := ⟨_, _, _, dayIs_iff.2 rfl, rfl⟩

private theorem walk_day (loc : List Bytes) (t : Int) : walk loc (formatDay t) = loc ++ dayNames t := by
  rw [formatDay_join, walk_join _ (by simp [dayNames]) (dayNames_proper t)]

/-- Where `path.Join` leads; the empty text stands for the working directory. -/
private theorem place_join (cwd : List Bytes) (a : Bytes) {b : Bytes} (hb : b ≠ []) (hr : isRooted b = false) : place cwd (pathJoin [a, b]) = walk (place cwd a) b := by
  by_cases ha : a = []
  · subst ha
    rw [pathJoin_nil hb, place_clean, place_eq, hr, place_eq]
    simp [isRooted]
  · exact place_join2 cwd ha

private theorem day_ne (t : Int) : formatDay t ≠ [] := by simp [formatDay, str]

private theorem day_rel (t : Int) : isRooted (formatDay t) = false := by
  rw [formatDay_join]
  exact join_head (by simp [dayNames]) (dayNames_proper t)

private theorem place_day (cwd : List Bytes) (a : Bytes) (t : Int) : place cwd (pathJoin [a, formatDay t]) = place cwd a ++ dayNames t := by
  rw [place_join _ _ (day_ne t) (day_rel t), walk_day]

private theorem place_file (cwd : List Bytes) (a : Bytes) {c : Bytes} (hc : Proper c) : place cwd (pathJoin [a, c]) = place cwd a ++ [c] := by
  rw [place_join _ _ hc.ne ?_, walk_plain _ hc.slash, enter_proper _ hc]
  rcases c with _ | ⟨x, c⟩
  · rfl
  · have : x ≠ 47 := fun hx => hc.slash (by simp [hx])
    simp [isRooted, this]

/-- Where the directory of ndt5 is: in the data directory. -/
private theorem place_ndt5 (cwd : List Bytes) {dataDir : Bytes} (hd : dataDir ≠ []) : place cwd (dataDir ++ str "/ndt5") = place cwd dataDir ++ [str "ndt5"] := by
  rw [show dataDir ++ str "/ndt5" = dataDir ++ 47 :: str "ndt5" from rfl, place_slash _ hd, walk_plain _ (by decide), enter_proper]
  exact ⟨by decide, by decide, by decide, by decide⟩

private theorem record_place (cwd : List Bytes) (dir : Bytes) (zone : Int → Int) (t : Int) {u : Bytes} (hu : 47 ∉ u) :
    place cwd (recordFile dir (localDay zone t) u) = place cwd dir ++ dayNames (t + zone t) ++ [u ++ str ".json"] := by
  rw [recordFile, dayDir, localDay, place_file _ _ (proper_json hu), place_day]

/-- C97: the file of an ndt5 record is in the directory `ndt5/YYYY/MM/DD` of the data directory, however the flag spells it, for the date on the wall of the server at the start time of the
connection. The exception is the empty data directory, see below. A record of an unidentified connection goes to a new file in that directory. -/
theorem C97_ndt5_place (cwd : List Bytes) (dataDir : Bytes) (hd : dataDir ≠ []) (zone : Int → Int) (cfg : Ndt5.Cfg) (hcfg : cfg.dataDir = dataDir ++ str "/ndt5")
    (hz : cfg.lib.dateDir = localDay zone) (evs : List Ndt5.Ev) (out : Outcome Unit) (he : Exec (Ndt5.HandleControlChannel cfg) () evs out ())
    (hu : ∀ u, .call (.uuid .control) (.ok u) ∈ evs → 47 ∉ u) :
    (∀ p x, .call (.create p) x ∈ evs → ∃ u t names, .call (.uuid .control) (.ok u) ∈ evs ∧ .clock t ∈ evs ∧ DayDirs (t + zone t) names ∧
      place cwd p = place cwd dataDir ++ [str "ndt5"] ++ names ++ [u ++ str ".json"]) ∧
    (∀ d x, .call (.tempFile d) x ∈ evs → ∃ t names, .clock t ∈ evs ∧ DayDirs (t + zone t) names ∧ place cwd d = place cwd dataDir ++ [str "ndt5"] ++ names) := by
  rcases C54_own_file cfg evs out he with h | ⟨u, t, h⟩
  · exact ⟨fun p x hm => absurd (h _ hm) (by simp [Ndt5.isDiskOp, Ndt5.isDiskCall]), fun d x hm => absurd (h _ hm) (by simp [Ndt5.isDiskOp, Ndt5.isDiskCall])⟩
  · refine ⟨fun p x hm => ?_, fun d x hm => ?_⟩
    · refine ⟨u, t, _, h.id.1, h.id.2, dayDirs_names _, ?_⟩
      rw [(h.created p x hm).2, hz, record_place _ _ _ _ (hu u h.id.1), hcfg, place_ndt5 _ hd]
    · refine ⟨t, _, h.id.2, dayDirs_names _, ?_⟩
      rw [(h.temp d x hm).2, hz, dayDir, localDay, place_day, hcfg, place_ndt5 _ hd]

/-- The name of the file of an ndt7 result, without its directory. -/
def resultBase (kind : Ndt7.Subtest) (t : Int) (uuid : Bytes) (compress : Bool) : Bytes :=
  str "ndt7-" ++ (match kind with
    | .download => str "download"
    | .upload => str "upload") ++ str "-" ++ formatStamp t ++ str "." ++ uuid ++ if compress then str ".json.gz" else str ".json"

private theorem digit_slash {c : Bytes} (h : ∀ b ∈ c, IsDigit b) : 47 ∉ c := fun hs => absurd (h _ hs) (by decide)

private theorem base_proper (kind : Ndt7.Subtest) (t : Int) {uuid : Bytes} (hu : 47 ∉ uuid) (compress : Bool) : Proper (resultBase kind t uuid compress) := by
  refine ⟨by simp [resultBase, str], ?_, ?_, ?_⟩
  · have hs : 47 ∉ formatStamp t := by
      simp only [formatStamp, List.mem_append, not_or]
      refine ⟨⟨⟨⟨⟨⟨⟨⟨⟨?_, ?_⟩, ?_⟩, by decide⟩, ?_⟩, ?_⟩, ?_⟩, by decide⟩, ?_⟩, by decide⟩ <;> exact digit_slash padDec_isDigit
    have h1 : 47 ∉ str "download" := by decide
    have h2 : 47 ∉ str "upload" := by decide
    have h3 : 47 ∉ str ".json.gz" := by decide
    have h4 : 47 ∉ str ".json" := by decide
    have h5 : 47 ∉ str "ndt7-" := by decide
    have h6 : 47 ∉ str "-" := by decide
    have h7 : 47 ∉ str "." := by decide
    cases kind <;> cases compress <;> simp_all [resultBase]
  · intro h; have := congrArg List.length h; simp [resultBase, str] at this
  · intro h; have := congrArg List.length h; simp [resultBase, str] at this

private theorem result_place (cwd : List Bytes) (dataDir : Bytes) (kind : Ndt7.Subtest) (t : Int) {uuid : Bytes} (hu : 47 ∉ uuid) (compress : Bool) :
    place cwd (resultFile dataDir kind t uuid compress) = place cwd dataDir ++ [str "ndt7"] ++ dayNames t ++ [resultBase kind t uuid compress] := by
  have h1 : resultFile dataDir kind t uuid compress = pathJoin [dataDir, str "ndt7", formatDay t] ++ 47 :: resultBase kind t uuid compress := by
    cases kind <;> simp [resultFile, resultBase, str]
  have hne : pathJoin [dataDir, str "ndt7", formatDay t] ≠ [] := by
    rw [dayDir7_eq]
    simp [str]
  have h2 : place cwd (pathJoin [dataDir, str "ndt7", formatDay t]) = place cwd dataDir ++ [str "ndt7"] ++ dayNames t := by
    rw [pathJoin_three _ _ (by decide), place_join _ _ (by simp) rfl, walk_slash, walk_plain _ (c := str "ndt7") (by decide), enter_proper _ proper_ndt7, walk_day]
  have hb := base_proper kind t hu compress
  rw [h1, place_slash _ hne, h2, walk_plain _ hb.slash, enter_proper _ hb]

/-- C97: every file operation of an ndt7 request concerns the file `ndt7/YYYY/MM/DD/ndt7-<direction>-<time>.<UUID>.json` (or `.json.gz`) of the data directory, however the flag spells
it, for the date in UTC. -/
theorem C97_ndt7_place (cwd : List Bytes) (h : Ndt7.Server) (hl : h.lib = Ndt7.calendar) (kind : Ndt7.Subtest) (req : Ndt7.Request) (evs : List Ndt7.Ev) (out : Outcome Unit)
    (s' : Ndt7.Result) (he : Exec (Ndt7.runMeasurement h kind req) {} evs out s') (hu : ∀ u, .call .uuid (.ok (.ok u)) ∈ evs → 47 ∉ u) :
    ∃ uuid t names, DayDirs t names ∧ ∀ p e, e ∈ evs → Touches p e → .call .uuid (.ok (.ok uuid)) ∈ evs ∧ .clock t ∈ evs ∧
      place cwd p = place cwd h.dataDir ++ [str "ndt7"] ++ names ++ [resultBase kind t uuid h.compress] := by
  obtain ⟨uuid, t, h1⟩ := C52_own_file h hl kind req evs out s' he
  refine ⟨uuid, t, _, dayDirs_names t, fun p e hm ht => ?_⟩
  obtain ⟨h2, h3, rfl⟩ := h1 p e hm ht
  exact ⟨h2, h3, result_place cwd _ _ _ (hu _ h2) _⟩

/-- C97: if the data directory is the empty text, the ndt7 results are below the working directory, as everywhere, but the ndt5 records below the root directory. -/
theorem C97_empty_data_directory (cwd : List Bytes) : place cwd [] = cwd ∧ place cwd ([] ++ str "/ndt5") = [str "ndt5"] :=
  ⟨by simp [place, components, enter], by simp [place, components, enter, str]⟩

/-- C97: record files with different names are different files, … -/
theorem C97_records_apart (cwd : List Bytes) (dir : Bytes) (zone : Int → Int) (t1 t2 : Int) (u1 u2 : Bytes) (h1 : 47 ∉ u1) (h2 : 47 ∉ u2)
    (h : place cwd (recordFile dir (localDay zone t1) u1) = place cwd (recordFile dir (localDay zone t2) u2)) : localDay zone t1 = localDay zone t2 ∧ u1 = u2 := by
  rw [record_place _ _ _ _ h1, record_place _ _ _ _ h2, List.append_assoc, List.append_assoc] at h
  have h := List.append_cancel_left h
  obtain ⟨h3, h4⟩ := List.append_inj' h rfl
  refine ⟨by rw [localDay, localDay, formatDay_join, formatDay_join, h3], ?_⟩
  simpa using h4

/-- … so are result files, … -/
theorem C97_results_apart (cwd : List Bytes) (dataDir : Bytes) (k1 k2 : Ndt7.Subtest) (t1 t2 : Int) (u1 u2 : Bytes) (c1 c2 : Bool) (h1 : 47 ∉ u1) (h2 : 47 ∉ u2)
    (h : place cwd (resultFile dataDir k1 t1 u1 c1) = place cwd (resultFile dataDir k2 t2 u2 c2)) : resultFile dataDir k1 t1 u1 c1 = resultFile dataDir k2 t2 u2 c2 := by
  rw [result_place _ _ _ _ h1, result_place _ _ _ _ h2, List.append_assoc, List.append_assoc (place cwd dataDir ++ _)] at h
  have h := List.append_cancel_left h
  obtain ⟨h3, h4⟩ := List.append_inj' h rfl
  have h4 : resultBase k1 t1 u1 c1 = resultBase k2 t2 u2 c2 := by simpa using h4
  have key : ∀ k t u c, resultFile dataDir k t u c = pathJoin [dataDir, str "ndt7", formatDay t] ++ 47 :: resultBase k t u c := by
    intro k t u c
    cases k <;> simp [resultFile, resultBase, str]
  rw [key, key, h4, formatDay_join, formatDay_join, h3]

/-- … and no record file is a result file, even with the empty data directory. -/
theorem C97_kinds_apart (cwd : List Bytes) (dataDir : Bytes) (zone : Int → Int) (t1 t2 : Int) (u1 u2 : Bytes) (kind : Ndt7.Subtest) (compress : Bool) (h1 : 47 ∉ u1) (h2 : 47 ∉ u2) :
    place cwd (recordFile (dataDir ++ str "/ndt5") (localDay zone t1) u1) ≠ place cwd (resultFile dataDir kind t2 u2 compress) := by
  intro h
  rw [record_place _ _ _ _ h1, result_place _ _ _ _ h2] at h
  have h := (List.append_inj' (List.append_inj' h rfl).1 rfl).1
  by_cases hd : dataDir = []
  · subst hd
    rw [(C97_empty_data_directory cwd).2, (C97_empty_data_directory cwd).1] at h
    have h := (List.append_inj' (s₁ := []) h rfl).2
    simp [str] at h
  · rw [place_ndt5 _ hd] at h
    have h := (List.append_inj' h rfl).2
    simp [str] at h

/-! ## Examples -/

/-- A relative data directory in a strange spelling. -/
example : place [str "home", str "x"] (str "../spool/./a/..//ndt/") = [str "home", str "spool", str "ndt"] ∧
    pathClean (str "../spool/./a/..//ndt/") = str "../spool/ndt" := by decide

example : recordFile (str "../spool//ndt" ++ str "/ndt5") (localDay (fun _ => 7200000000000) lateTime) (str "u") = str "../spool/ndt/ndt5/2020/11/07/u.json" := by decide +kernel

example : resultFile (str "../spool//ndt") .upload exTime (str "u") true = str "../spool/ndt/ndt7/2020/11/06/ndt7-upload-20201106T140015.123456789Z.u.json.gz" := by decide +kernel

/-- The hypotheses of `C97_ndt5_place` hold for a connection that creates a file. -/
example : besideCfg.dataDir = str "/d" ++ str "/ndt5" ∧ besideCfg.lib.dateDir = localDay (fun _ => 7200000000000) ∧
    Exec (Ndt5.HandleControlChannel besideCfg) () (besideCreate ++ besideEnd) (.ok ()) () ∧
    .call (.create besidePath) (.ok none) ∈ besideCreate ++ besideEnd ∧ (∀ u, .call (.uuid .control) (.ok u) ∈ besideCreate ++ besideEnd → 47 ∉ u) := by
  refine ⟨rfl, rfl, beside_exec, by simp [besideCreate], fun u hu => ?_⟩
  simp [besideCreate, besideEnd, besideBegin, diskEnd, closing] at hu
  subst hu
  decide

/-- The hypotheses of `C97_ndt7_place` hold for a request that writes a file. -/
example : ∃ out s', Exec (Ndt7.runMeasurement (exDisk false) .download exRequest) {} besideRequest out s' ∧ .call (.openExcl exDiskPath) (.ok none) ∈ besideRequest ∧
    (∀ u, .call .uuid (.ok (.ok u)) ∈ besideRequest → 47 ∉ u) := by
  refine ⟨_, _, exPlain, by simp [besideRequest], fun u hu => ?_⟩
  simp [besideRequest, exDiskBegin, exBegin, exDiskEnd] at hu
  subst hu
  decide

end Verif.Props
