import Verif.Ndt5.FilesInv
import Verif.Props.Session
import Verif.Go.PathLemmas

/-!
# C54: files of ndt5 records
-/

namespace Verif.Props
open Verif.Go Verif.Spec Verif.Ndt5

/-- The date on the wall of the server, `zone t` ahead of UTC at time `t`. -/
def localDay (zone : Int → Int) (t : Int) : Bytes := formatDay (t + zone t)

/-- C54: in a data directory the name of a record file determines date and UUID, if UUIDs have no slashes. -/
theorem C54_names_injective (dataDir : Bytes) (zone : Int → Int) (t1 t2 : Int) (u1 u2 : Bytes) (h1 : FourDigitYear (t1 + zone t1))
    (h2 : FourDigitYear (t2 + zone t2)) (hu1 : 47 ∉ u1) (hu2 : 47 ∉ u2) (h : recordFile dataDir (localDay zone t1) u1 = recordFile dataDir (localDay zone t2) u2) :
    localDay zone t1 = localDay zone t2 ∧ u1 = u2 := by
  simp only [recordFile, dayDir, localDay] at h
  rw [dayFile_eq _ _ hu1, dayFile_eq _ _ hu2] at h
  simp only [List.append_assoc] at h
  have h := List.append_cancel_left h
  obtain ⟨hd, h⟩ := List.append_inj h (by rw [formatDay_length h1, formatDay_length h2])
  exact ⟨hd, List.append_cancel_right (List.append_cancel_left h)⟩

/-- The file operations of one connection: at most one file, whose name is fixed by the start time and the UUID of the connection. -/
structure OwnFile (dataDir : Bytes) (day : Int → Bytes) (u : Bytes) (t : Int) (evs : List Ev) : Prop where
  /-- the UUID is that of the control connection, and the time was read from the clock -/
  id : .call (.uuid .control) (.ok u) ∈ evs ∧ .clock t ∈ evs
  /-- a file is created under the UUID, and only if there is one -/
  created : ∀ p x, .call (.create p) x ∈ evs → u ≠ unidentified ∧ p = recordFile dataDir (day t) u
  /-- otherwise a file with an unused name in the directory of the day -/
  temp : ∀ d x, .call (.tempFile d) x ∈ evs → u = unidentified ∧ d = dayDir dataDir (day t)
  /-- what is written is the record of this connection, to the file that was opened -/
  written : ∀ p r x, .call (.write p r) x ∈ evs → r.uuid = u ∧ r.startTime = t ∧ ∃ e ∈ evs, Opens p e

/-- C54: every file operation of a connection concerns its own file. -/
theorem C54_own_file (cfg : Cfg) (evs : List Ev) (out : Outcome Unit) (he : Exec (HandleControlChannel cfg) () evs out ()) :
    (∀ e ∈ evs, isDiskOp e = false) ∨ ∃ u t, OwnFile cfg.dataDir cfg.lib.dateDir u t evs := by
  rcases control_files he with h | ⟨u, t, a, b, rfl, hu, ht, ha, hd⟩
  · left
    intro e hm
    rcases hb : isDiskOp e with _ | _
    · rfl
    · have := mem_diskOps.2 ⟨hm, hb⟩
      rw [h] at this; cases this
  · right
    have hops : ∀ {e}, e ∈ a ++ b → isDiskOp e = true → e ∈ diskOps b := by
      intro e hm hb
      have := mem_diskOps.2 ⟨hm, hb⟩
      rwa [diskOps_append, ha, List.nil_append] at this
    refine ⟨u, t, ⟨List.mem_append_left _ hu, List.mem_append_left _ ht⟩, ?_, ?_, ?_⟩
    · intro p x hm
      obtain ⟨h1, h2⟩ := hd.mem_create (hops hm rfl)
      exact ⟨h2, h1⟩
    · intro d x hm
      obtain ⟨h1, h2⟩ := hd.mem_temp (hops hm rfl)
      exact ⟨h2, h1⟩
    · intro p r x hm
      have hm := hops hm rfl
      have hsub : ∀ e ∈ diskOps b, e ∈ a ++ b := fun e he => List.mem_append_right _ (mem_diskOps.1 he).1
      generalize diskOps b = l at hd hm hsub
      cases hd <;> simp at hm
      · rename_i r' x' h1 h2 h3
        obtain ⟨⟨rfl, rfl⟩, -⟩ := hm
        exact ⟨h2, h3, _, hsub _ List.mem_cons_self, .inl (by simp)⟩
      · rename_i q r' x' h1 h2 h3
        obtain ⟨⟨rfl, rfl⟩, -⟩ := hm
        exact ⟨h2, h3, _, hsub _ List.mem_cons_self, .inr ⟨_, rfl⟩⟩

/-- Connections to one server: one data directory, one time zone, years of four digits; a UUID has no slashes and is given to one connection only, and none is longer than and
begins like the mark of unidentified connections. -/
structure OneServer (cfg : Nat → Cfg) (dataDir : Bytes) (zone : Int → Int) (g : List (Nat × Ev)) : Prop where
  inDir : ∀ i, (cfg i).dataDir = dataDir
  calendar : ∀ i, (cfg i).lib.dateDir = localDay zone
  years : ∀ i t, (i, .clock t) ∈ g → FourDigitYear (t + zone t)
  unique : ∀ i j u, (i, .call (.uuid .control) (.ok u)) ∈ g → (j, .call (.uuid .control) (.ok u)) ∈ g → u ≠ unidentified → i = j
  reserved : ∀ i u, (i, .call (.uuid .control) (.ok u)) ∈ g → unidentified <+: u → u = unidentified
  plain : ∀ i u, (i, .call (.uuid .control) (.ok u)) ∈ g → 47 ∉ u

private theorem OneServer.apart {cfg : Nat → Cfg} {dataDir : Bytes} {zone : Int → Int} {g : List (Nat × Ev)} (h : OneServer cfg dataDir zone g) :
    Apart cfg dataDir (localDay zone) g :=
  ⟨h.inDir, h.calendar, fun i t ht => formatDay_length (h.years i t ht), ⟨_, fun _ => ⟨dayDir_eq _ _, fun _ hu => dayFile_eq _ _ hu⟩⟩, h.plain, h.unique, h.reserved⟩

section
variable (json : Record → Bytes) (cfg : Nat → Cfg) (dataDir : Bytes) (zone : Int → Int) (fs0 fs : Fs5) (g : List (Nat × Ev))

/-- C54: two connections that open the same file are the same connection. -/
theorem C54_distinct_files (hs : SideBySide cfg g) (h1 : OneServer cfg dataDir zone g) (hr : Fs5Run json fs0 g fs) (p : Bytes) (i j : Nat) (e e' : Ev)
    (he : Opens p e) (he' : Opens p e') (hi : (i, e) ∈ g) (hj : (j, e') ∈ g) : i = j :=
  (fs5_inv hr hs h1.apart).uniq p i j e e' he he' (mem_own.2 hi) (mem_own.2 hj)

/-- C54: an unidentified connection gets a file that did not exist when the server started, named as such. -/
theorem C54_unidentified_fresh (hs : SideBySide cfg g) (h1 : OneServer cfg dataDir zone g) (hr : Fs5Run json fs0 g fs) (i : Nat) (d p : Bytes)
    (hi : (i, .call (.tempFile d) (.ok (.ok p))) ∈ g) : TempName d p ∧ fs0 p = none :=
  (fs5_inv hr hs h1.apart).fresh i d p (mem_own.2 hi)

/-- C54: a record that was written stays as it is, whatever the other connections do. -/
theorem C54_record_survives (hs : SideBySide cfg g) (h1 : OneServer cfg dataDir zone g) (hr : Fs5Run json fs0 g fs) (i : Nat) (p : Bytes) (r : Record)
    (hi : (i, .call (.write p r) (.ok none)) ∈ g) : fs p = some (json r) := by
  obtain ⟨-, c, h2, -, h3⟩ := (fs5_inv hr hs h1.apart).full p i r _ (mem_own.2 hi)
  rw [h2, h3 rfl]

/-- C54: a file whose name no connection creates is unchanged. -/
theorem C54_others_unchanged (hs : SideBySide cfg g) (h1 : OneServer cfg dataDir zone g) (hr : Fs5Run json fs0 g fs) (p content : Bytes)
    (hp : fs0 p = some content) (hn : ∀ i u t, (i, .call (.uuid .control) (.ok u)) ∈ g → (i, .clock t) ∈ g → p ≠ recordFile dataDir (localDay zone t) u) :
    fs p = some content := by
  refine (fs5_inv hr hs h1.apart).keep p ?_ content hp
  rintro i e hm x rfl
  have hm' := mem_diskOps.2 ⟨mem_own.2 hm, (rfl : isDiskOp (.call (.create p) x) = true)⟩
  obtain ⟨u, t, hu, ht, hd⟩ := hs.ops i (List.ne_nil_of_mem hm')
  obtain ⟨h2, -⟩ := hd.mem_create hm'
  refine hn i u t (mem_own.1 hu) (mem_own.1 ht) ?_
  rw [h2, dirOf, h1.inDir, h1.calendar]
  rfl

end

/-! ## Examples -/

/-- The server of the examples, which is two hours ahead of UTC. -/
def diskCfg : Cfg := { plainCfg with lib := { plainCfg.lib with dateDir := localDay fun _ => 7200000000000 } }

/-- A time, one hour before the end of a day in UTC. -/
def lateTime : Int := 1604703600000000000

example : localDay (fun _ => 7200000000000) lateTime = str "2020/11/07" ∧ formatDay lateTime = str "2020/11/06" := by decide +kernel

/-- A refused login of a connection with the given UUID. -/
def diskLogin (u : Bytes) : List Ev :=
  [.emit (.activeTests (str "ndt5+plain") 1), .clock 100, .call (.addrs .control) (.ok ⟨str "192.0.2.1", 3001, str "198.51.100.7", 4000⟩), .clock lateTime,
   .call (.uuid .control) (.ok u), .call .recv (.ok (.error (str "EOF"))), .emit (.testError (str "ndt5+plain") (str "control") (str "LoginCeremony")), .clock 200,
   .call (.mkdirAll (str "/data/2020/11/07")) (.ok none)]

/-- Its end. -/
def diskEnd (p : Bytes) : List Ev :=
  .call (.closeFile p) (.ok ()) :: closing [.panicCount (str "ndt5+plain") (str "Login"), .controlCount (str "ndt5+plain") (str "panic")]

/-- Its record. -/
def diskRecord (u : Bytes) : Record := { openingRecord with startTime := lateTime, endTime := 200, uuid := u }

private theorem exDir5 : str "/data" ++ [47] ++ localDay (fun _ => 7200000000000) lateTime = str "/data/2020/11/07" := by decide +kernel

/-- The file of an identified connection. -/
def diskPath (u : Bytes) : Bytes := str "/data/2020/11/07" ++ [47] ++ u ++ str ".json"

/-- An identified connection. -/
def diskSession (u : Bytes) : List Ev :=
  diskLogin u ++ [.call (.create (diskPath u)) (.ok none), .call (.write (diskPath u) (diskRecord u)) (.ok none)] ++ diskEnd (diskPath u)

theorem diskSession_u : Exec (HandleControlChannel diskCfg) () (diskSession (str "u")) (.ok ()) () := by
  unfold diskSession diskLogin diskPath diskEnd closing
  rw [← exDir5]
  follow

theorem diskSession_v : Exec (HandleControlChannel diskCfg) () (diskSession (str "v")) (.ok ()) () := by
  unfold diskSession diskLogin diskPath diskEnd closing
  rw [← exDir5]
  follow

/-- An unidentified connection. -/
def tempSession (p : Bytes) : List Ev :=
  diskLogin badUUID ++ [.call (.tempFile (str "/data/2020/11/07")) (.ok (.ok p)), .call (.write p (diskRecord badUUID)) (.ok none)] ++ diskEnd p

theorem tempSession_exec (p : Bytes) : Exec (HandleControlChannel diskCfg) () (tempSession p) (.ok ()) () := by
  unfold tempSession diskLogin diskEnd closing
  rw [← exDir5]
  follow

/-- Events without file operations. -/
private theorem fs5Run_idle {json : Record → Bytes} {fs0 fs : Fs5} {g : List (Nat × Ev)} (h : Fs5Run json fs0 g fs) (i : Nat)
    (l : List Ev) (hl : ∀ e ∈ l, isDiskOp e = false) : Fs5Run json fs0 (g ++ l.map (i, ·)) fs := by
  induction l generalizing g with
  | nil => simpa using h
  | cons e l ih =>
    have hf := hl e List.mem_cons_self
    have := ih (.snoc g i e fs fs h (.other fs e (by rintro p x rfl; cases hf) (by rintro p x rfl; cases hf) (by rintro p r x rfl; cases hf)))
      fun e' he' => hl e' (List.mem_cons_of_mem _ he')
    simpa using this

private theorem diskSession_run {json : Record → Bytes} {fs0 fs : Fs5} {g : List (Nat × Ev)} (h : Fs5Run json fs0 g fs) (i : Nat) (u : Bytes) :
    Fs5Run json fs0 (g ++ (diskSession u).map (i, ·)) ((fs.set (diskPath u) []).set (diskPath u) (json (diskRecord u))) := by
  have h0 := fs5Run_idle h i (diskLogin u) (by simp [diskLogin, isDiskOp, isDiskCall])
  have h1 := Fs5Run.snoc _ i _ _ _ h0 (.create _ (diskPath u))
  have h2 := Fs5Run.snoc _ i _ _ _ h1 (.write _ (diskPath u) [] (json (diskRecord u)) (diskRecord u) (.ok none) (by simp [Fs5.set]) (fun _ => List.prefix_refl _) fun _ _ => rfl)
  have h3 := fs5Run_idle h2 i (diskEnd (diskPath u)) (by simp [isDiskOp, isDiskCall, diskEnd, closing])
  simpa [diskSession] using h3

private theorem tempSession_run {json : Record → Bytes} {fs0 fs : Fs5} {g : List (Nat × Ev)} (h : Fs5Run json fs0 g fs) (i : Nat) (p : Bytes)
    (hp : fs p = none) (ht : TempName (str "/data/2020/11/07") p) :
    Fs5Run json fs0 (g ++ (tempSession p).map (i, ·)) ((fs.set p []).set p (json (diskRecord badUUID))) := by
  have h0 := fs5Run_idle h i (diskLogin badUUID) (by simp [diskLogin, isDiskOp, isDiskCall])
  have h1 := Fs5Run.snoc _ i _ _ _ h0 (.temp _ _ p ht hp)
  have h2 := Fs5Run.snoc _ i _ _ _ h1 (.write _ p [] (json (diskRecord badUUID)) (diskRecord badUUID) (.ok none) (by simp [Fs5.set]) (fun _ => List.prefix_refl _) fun _ _ => rfl)
  have h3 := fs5Run_idle h2 i (diskEnd p) (by simp [isDiskOp, isDiskCall, diskEnd, closing])
  simpa [tempSession] using h3

/-- The name of a file of an unidentified connection. -/
def tempPath : Bytes := str "/data/2020/11/07/ERROR_DISCOVERING_UUID17.json"

/-- Three connections, one after another. -/
def threeSessions : List (Nat × Ev) := (diskSession (str "u")).map (0, ·) ++ (diskSession (str "v")).map (1, ·) ++ (tempSession tempPath).map (2, ·)

theorem own_map (i j : Nat) (l : List Ev) : own i (l.map (j, ·)) = if j = i then l else [] := by
  induction l with
  | nil => simp [own]
  | cons e l ih =>
    rw [List.map_cons, show ((j, e) :: l.map (j, ·) : List (Nat × Ev)) = [(j, e)] ++ l.map (j, ·) from rfl, own_append, ih]
    by_cases hi : j = i <;> simp [own, hi]

/-- C54: the hypotheses hold for the three connections, each of which writes its record. -/
example (json : Record → Bytes) : SideBySide (fun _ => diskCfg) threeSessions ∧ OneServer (fun _ => diskCfg) (str "/data") (fun _ => 7200000000000) threeSessions ∧
    (∃ fs, Fs5Run json (fun _ => none) threeSessions fs) ∧ (0, .call (.write (diskPath (str "u")) (diskRecord (str "u"))) (.ok none)) ∈ threeSessions ∧
    (1, .call (.write (diskPath (str "v")) (diskRecord (str "v"))) (.ok none)) ∈ threeSessions ∧
    (2, .call (.write tempPath (diskRecord badUUID)) (.ok none)) ∈ threeSessions := by
  refine ⟨?_, ⟨fun _ => rfl, fun _ => rfl, ?_, ?_, ?_, ?_⟩, ?_, ?_, ?_, ?_⟩
  · intro i
    rw [threeSessions, own_append, own_append, own_map, own_map, own_map]
    rcases i with _ | _ | _ | i
    · exact ⟨_, _, diskSession_u, by simp⟩
    · exact ⟨_, _, diskSession_v, by simp⟩
    · exact ⟨_, _, tempSession_exec tempPath, by simp⟩
    · exact ⟨_, _, diskSession_u, by simp⟩
  · intro i t ht
    apply fourDigitYear_of_int64
    simp [threeSessions, diskSession, tempSession, diskLogin, diskEnd, closing] at ht
    have : t = 100 ∨ t = lateTime ∨ t = 200 ∨ t = 300 := by grind
    rcases this with rfl | rfl | rfl | rfl <;> decide
  · intro i j u hi hj hu
    simp [threeSessions, diskSession, tempSession, diskLogin, diskEnd, closing] at hi hj
    have huv : str "u" ≠ str "v" := by decide
    have : badUUID = unidentified := rfl
    grind
  · intro i u hi hp
    simp [threeSessions, diskSession, tempSession, diskLogin, diskEnd, closing] at hi
    have : u = str "u" ∨ u = str "v" ∨ u = unidentified := by
      have : badUUID = unidentified := rfl
      grind
    rcases this with rfl | rfl | rfl
    · revert hp; decide
    · revert hp; decide
    · rfl
  · intro i u hi
    simp [threeSessions, diskSession, tempSession, diskLogin, diskEnd, closing] at hi
    have : u = str "u" ∨ u = str "v" ∨ u = badUUID := by grind
    rcases this with rfl | rfl | rfl <;> decide
  · have h1 := diskSession_run (json := json) (fs0 := fun _ => none) .nil 0 (str "u")
    have h2 := diskSession_run h1 1 (str "v")
    have h3 := tempSession_run h2 2 tempPath (by
      have h1 : tempPath ≠ diskPath (str "u") := by decide
      have h2 : tempPath ≠ diskPath (str "v") := by decide
      simp [Fs5.set, h1, h2]) ⟨str "17", by decide⟩
    exact ⟨_, by simpa [threeSessions] using h3⟩
  all_goals simp [threeSessions, diskSession, tempSession]

example : FourDigitYear (lateTime + 7200000000000) := fourDigitYear_of_int64 (by decide)

/-- Without unique UUIDs the claims fail: `os.Create` empties the file of an earlier record with the same UUID on the same day, so that it is lost. -/
theorem C54_same_uuid_overwrites (json : Record → Bytes) (old : Bytes) : ∃ (fs0 fs : Fs5) (g : List (Nat × Ev)), SideBySide (fun _ => diskCfg) g ∧
    Fs5Run json fs0 g fs ∧ fs0 (diskPath (str "u")) = some old ∧ fs (diskPath (str "u")) = some (json (diskRecord (str "u"))) := by
  have hrun := diskSession_run (json := json) (fs0 := fun _ => some old) .nil 0 (str "u")
  refine ⟨fun _ => some old, _, _, ?_, hrun, rfl, Fs5.set_self _ _ _⟩
  · intro i
    rw [List.nil_append, own_map]
    refine ⟨_, _, diskSession_u, ?_⟩
    split
    · exact List.prefix_refl _
    · exact List.nil_prefix

end Verif.Props
