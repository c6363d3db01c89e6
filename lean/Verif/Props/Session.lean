import Verif.Ndt5.WholeOrder
import Verif.Spec.Archive

/-!
# Whole control connections (C12 to C15, C17 to C20)

All theorems are about `HandleControlChannel`, for every behaviour of the client, the network, the kernel, the disk and the clock.
-/

namespace Verif.Props
open Verif.Go Verif.Ndt5 Verif.Spec

set_option maxRecDepth 20000

section
variable {cfg : Cfg} {evs : List Ev} {out : Outcome Unit}

/-- C12: on a connection whose login is served, the frames sent are a beginning of the script of the requested tests; nothing follows a
failed send; connections counted as okay got the whole script; and if no call into the environment crashed, the whole script is sent only
on connections counted as okay. -/
theorem C12_script (h : Exec (HandleControlChannel cfg) () evs out ()) {m : Messager} {n : Int} (hs : Served cfg.kind evs m n) :
    OnScript (sessionScript cfg.lib m n evs) evs (countedOkay (labelText cfg.kind) evs) := by
  rw [label_eq]
  obtain ⟨f, hf, hl, hr⟩ := hs
  cases (whole h).2.talk with
  | none hn => exact absurd ⟨f, m, n, hf, hl⟩ hn
  | noStatus f' m' n' hf' hl' hr' =>
    rw [hf] at hf'; cases hf'
    rw [(loggedIn_unique hl hl').2, hr'] at hr; cases hr
  | served f' m' n' hf' hl' _ hw =>
    rw [hf] at hf'; cases hf'
    obtain ⟨rfl, rfl⟩ := loggedIn_unique hl hl'
    exact hw

/-- C12: on all other connections nothing is sent. -/
theorem C12_nothing_sent (h : Exec (HandleControlChannel cfg) () evs out ()) (hs : ¬ ∃ m n, Served cfg.kind evs m n) : attempts evs = [] := by
  cases (whole h).2.talk with
  | none _ ha => exact ha
  | noStatus _ _ _ _ _ _ ha => exact ha
  | served f m n hf hl hr => exact absurd ⟨m, n, f, hf, hl, hr⟩ hs

/-- A connection is served at most one request. -/
theorem served_unique {k : Kind} {m m' : Messager} {n n' : Int} (h : Served k evs m n) (h' : Served k evs m' n') : m = m' ∧ n = n' := by
  obtain ⟨f, hf, hl, -⟩ := h
  obtain ⟨f', hf', hl', -⟩ := h'
  rw [hf] at hf'; cases hf'
  exact loggedIn_unique hl hl'

/-- C13: without a login that has the status bit, no test runs, nothing is sent and no request is counted. -/
theorem C13_nothing_runs (h : Exec (HandleControlChannel cfg) () evs out ()) (hs : ¬ ∃ m n, Served cfg.kind evs m n) :
    testsSeen evs = [] ∧ attempts evs = [] ∧ (notes evs).filter requestNote = [] := by
  cases (whole h).2.tests with
  | none _ h1 h2 => exact ⟨h1, C12_nothing_sent h hs, h2⟩
  | served m n hs' => exact absurd ⟨m, n, hs'⟩ hs

/-- C13: on a connection whose login is served, only requested tests run, one after the other in the order upload, download, meta; all
requested tests run if the connection is counted as okay; and the counters of the requested tests tell exactly the request. -/
theorem C13_requested_tests_run (h : Exec (HandleControlChannel cfg) () evs out ()) {m : Messager} {n : Int} (hs : Served cfg.kind evs m n) :
    (testsSeen evs).Pairwise (· ≤ ·) ∧ (∀ k ∈ testsSeen evs, k < 3 ∧ requested n (bitOf k) = true) ∧
    (countedOkay (labelText cfg.kind) evs → ∀ k < 3, requested n (bitOf k) = true → k ∈ testsSeen evs) ∧
    (notes evs).filter requestNote = requestCounts (labelText cfg.kind) n := by
  rw [label_eq]
  cases (whole h).2.tests with
  | none hn => exact absurd ⟨m, n, hs⟩ hn
  | served m' n' hs' h1 h2 h3 h4 =>
    obtain ⟨rfl, rfl⟩ := served_unique hs hs'
    exact ⟨h1, h2, h3, h4⟩

/-- C13: the third frame sent announces exactly the requested ones of the tests 2, 4 and 32. -/
theorem C13_announced (h : Exec (HandleControlChannel cfg) () evs out ()) {m : Messager} {n : Int} (hs : Served cfg.kind evs m n) {f : Bytes}
    (hf : (attempts evs)[2]? = some f) : f = m.frame MsgType.msgLogin (announced n) := by
  obtain ⟨rest, hr⟩ := (C12_script h hs).isPrefix
  have := List.getElem?_append_left (l₁ := attempts evs) (l₂ := rest) (i := 2) (List.getElem?_eq_some_iff.1 hf).1
  rw [hr, hf] at this
  simpa [sessionScript] using this.symm

/-- C13: all other bits of the request (the middlebox and firewall tests among them) only affect the counters of the requested tests:
whatever happened with one login can happen with every other login that agrees on the bits 2, 4, 16 and 32, event by event. -/
theorem C13_other_bits_only_counted (h : Exec (HandleControlChannel cfg) () evs out ()) {frame frame' : Bytes} {m : Messager} {n n' : Int}
    (hf : firstRead evs = some (.ok frame)) (hl : LoggedIn cfg.kind frame m n) (hl' : LoggedIn cfg.kind frame' m n')
    (hb : ∀ k ∈ [1, 2, 4, 5], requested n k = requested n' k) :
    ∃ A C C' B, evs = A ++ (.call .recv (.ok (.ok frame)) :: (C ++ B)) ∧
      Exec (HandleControlChannel cfg) () (A ++ (.call .recv (.ok (.ok frame')) :: (C' ++ B))) out () ∧
      ∀ x ∈ C ++ C', ∃ o, x = .emit o ∧ requestNote o = true := by
  obtain ⟨rfl, -⟩ := whole h
  obtain ⟨A, C, C', B, h1, h2, h3, -⟩ := other_login h hf hl hl' hb
  exact ⟨A, C, C', B, h1, h2, h3⟩

/-- C14: however a control connection ends, nothing propagates to the caller, and these are all updates of the gauge of active tests, the
control counter, the panic counter and the durations, in this order: the gauge goes up by one; one panic is counted if and only if the
result is 'panic'; the result is 'okay' or 'panic'; the duration is the time from the first to the last reading of the clock; the gauge
goes down by one. All have the label of the connection. -/
theorem C14_accounted_once (h : Exec (HandleControlChannel cfg) () evs out ()) :
    out = .ok () ∧ ∃ t0 t1, (clocks evs).head? = some t0 ∧ (clocks evs).getLast? = some t1 ∧
      (accounts evs = [.activeTests (labelText cfg.kind) 1, .controlCount (labelText cfg.kind) (str "okay"), .duration (labelText cfg.kind) (t1 - t0), .activeTests (labelText cfg.kind) (-1)] ∨
       ∃ w, accounts evs = [.activeTests (labelText cfg.kind) 1, .panicCount (labelText cfg.kind) w, .controlCount (labelText cfg.kind) (str "panic"),
        .duration (labelText cfg.kind) (t1 - t0), .activeTests (labelText cfg.kind) (-1)]) := by
  rw [label_eq]
  obtain ⟨rfl, hw⟩ := whole h
  refine ⟨rfl, ?_⟩
  have hledger : ∀ {o : Outcome Unit} {ns : Int} {e : List Ev}, accounts e = ledger cfg o ns →
      (accounts e = [.activeTests cfg.label 1, .controlCount cfg.label (str "okay"), .duration cfg.label ns, .activeTests cfg.label (-1)] ∨
       ∃ w, accounts e = [.activeTests cfg.label 1, .panicCount cfg.label w, .controlCount cfg.label (str "panic"),
        .duration cfg.label ns, .activeTests cfg.label (-1)]) := by
    intro o ns e he
    cases o with
    | ok v => exact .inl he
    | panic msg => exact .inr ⟨_, he⟩
  have hends : ∀ (o : Outcome Unit) (t1 ns : Int) (a : List Ev), (clocks (a ++ (endNotes cfg o ++
      [.clock t1, .emit (.duration cfg.label ns), .emit (.activeTests cfg.label (-1))]))).getLast? = some t1 := by
    intro o t1 ns a
    have : clocks (endNotes cfg o ++ [.clock t1, .emit (.duration cfg.label ns), .emit (.activeTests cfg.label (-1))]) = [t1] := by
      cases o <;> rfl
    unfold clocks at this ⊢
    rw [List.filterMap_append, this, List.getLast?_concat]
  cases hw with
  | early mid t0 t1 o h1 =>
    refine ⟨t0, t1, rfl, ?_, hledger (accounts_early h1)⟩
    rw [← List.append_assoc]
    exact hends ..
  | run t0 t t1 a u eS eF oS oF r s h1 h2 =>
    refine ⟨t0, t1, rfl, ?_, hledger (accounts_run h1 h2)⟩
    unfold postEvents
    have : ∀ x y z : List Ev, ∀ w : Ev, x ++ (y ++ (z ++ w :: (endNotes cfg (after (after oS oF) r) ++
        [.clock t1, .emit (.duration cfg.label (t1 - t0)), .emit (.activeTests cfg.label (-1))]))) = (x ++ (y ++ (z ++ [w]))) ++
        (endNotes cfg (after (after oS oF) r) ++ [.clock t1, .emit (.duration cfg.label (t1 - t0)), .emit (.activeTests cfg.label (-1))]) := by
      intros; simp
    rw [this]
    exact hends ..

/-- Every text has exactly one first word. -/
theorem firstWord_exists (text : Bytes) : ∃ w, FirstWord text w ∧ ∀ w', FirstWord text w' → w' = w := by
  have hu : ∀ w w', FirstWord text w → FirstWord text w' → firstWord 32 text = w := by
    rintro w w' ⟨h1, rfl | ⟨rest, rfl⟩⟩ -
    · unfold firstWord; rw [cut_eq_none.2 h1]
    · exact firstWord_append h1
  have he : FirstWord text (firstWord 32 text) := by
    unfold firstWord
    cases hc : cut 32 text with
    | none => exact ⟨cut_eq_none.1 hc, .inl rfl⟩
    | some p =>
      obtain ⟨h1, h2⟩ := cut_eq_some.1 (show cut 32 text = some (p.1, p.2) from hc)
      exact ⟨h2, .inr ⟨_, h1⟩⟩
  exact ⟨_, he, fun w' h' => (hu w' w' h' h').symm⟩

/-- C15: the label of a failure is one of eleven words: the first word of the message if it is one of them, else 'panic'. -/
theorem C15_label (msg : Bytes) : panicMsgToErrType msg ∈ panicLabels ∧
    ∀ w, FirstWord msg w → panicMsgToErrType msg = if w ∈ panicLabels then w else str "panic" := by
  have hfw : ∀ w, FirstWord msg w → firstWord 32 msg = w := by
    rintro w ⟨h1, rfl | ⟨rest, rfl⟩⟩
    · unfold firstWord; rw [cut_eq_none.2 h1]
    · exact firstWord_append h1
  have hmem : ∀ w, w ∈ panicLabels ↔ w ∈ [str "Login", str "ParseInt", str "SrvQueue", str "MsgLoginVersion", str "MsgLoginTests", str "C2S", str "S2C",
      str "MsgResults", str "MsgLogout", str "META"] ∨ w = str "panic" := by
    intro w
    simp only [panicLabels, List.mem_cons, List.not_mem_nil, or_false, or_assoc]
  refine ⟨?_, ?_⟩
  · unfold panicMsgToErrType
    rw [hmem]
    simp only
    split
    · rename_i hw; exact .inl hw
    · exact .inr rfl
  · intro w hw
    rw [← hfw w hw]
    unfold panicMsgToErrType
    simp only [hmem]
    split
    · rename_i hw; rw [if_pos (.inl hw)]
    · rename_i hn
      split
      · rename_i hw; exact (hw.resolve_left hn).symm
      · rfl

/-- C15: every panic label exported for a control connection is one of the eleven words. -/
theorem C15_exported_labels (h : Exec (HandleControlChannel cfg) () evs out ()) {l w : Bytes} (hp : .panicCount l w ∈ notes evs) :
    w ∈ panicLabels := by
  have hp : .panicCount l w ∈ accounts evs := List.mem_filter.2 ⟨hp, rfl⟩
  have hledger : ∀ {o : Outcome Unit} {ns : Int}, accounts evs = ledger cfg o ns → w ∈ panicLabels := by
    intro o ns he
    rw [he] at hp
    cases o with
    | ok v => simp [ledger] at hp
    | panic msg => simp [ledger] at hp; rw [hp.2]; exact (C15_label msg).1
  cases (whole h).2 with
  | early mid t0 t1 o h1 => exact hledger (accounts_early h1)
  | run t0 t t1 a u eS eF oS oF r s h1 h2 => exact hledger (accounts_run h1 h2)

/-- Facts about both tests of a connection. -/
theorem dir_facts (h : Exec (HandleControlChannel cfg) () evs out ()) (d : Dir) :
    ∃ m req, DirFacts cfg m d req (countedOkay cfg.label evs ∧ ∃ m n, Served cfg.kind evs m n) evs := by
  cases (whole h).2.talk with
  | none hn _ hsil hok => exact ⟨.json, false, (DirRun.silent _ (hsil d) fun h => absurd h.1 hok).facts⟩
  | noStatus f m n _ _ _ _ hsil _ => exact ⟨m, false, (DirRun.silent _ (hsil d) fun h => rfl).facts⟩
  | served f m n _ _ _ _ hU hD =>
    cases d with
    | c2s => 
      have := hU.widen (pre := []) (post := []) (done' := countedOkay cfg.label evs ∧ ∃ m n, Served cfg.kind evs m n)
        (by simp [Silent]) (by simp [Silent]) rfl And.left
      rw [List.nil_append, List.append_nil] at this
      exact ⟨m, _, this.facts⟩
    | s2c =>
      have := hD.widen (pre := []) (post := []) (done' := countedOkay cfg.label evs ∧ ∃ m n, Served cfg.kind evs m n)
        (by simp [Silent]) (by simp [Silent]) rfl And.left
      rw [List.nil_append, List.append_nil] at this
      exact ⟨m, _, this.facts⟩

/-- C17, the part that holds: for the upload and the download, the number of erroneous results equals the number of errors counted, on
every control connection. Missing for the full property: the documented equality of the sums over all directions. -/
theorem C17_directions_agree_partial (h : Exec (HandleControlChannel cfg) () evs out ()) (d : Dir) (label : Bytes) :
    count (countsError label (testText d)) evs = count (countsErrorResult label (testText d)) evs := by
  rw [test_eq]
  obtain ⟨m, req, hf⟩ := dir_facts h d
  exact hf.errors label

/-- C17: at most one result is counted for each direction. -/
theorem C17_one_result (h : Exec (HandleControlChannel cfg) () evs out ()) (d : Dir) :
    count (countsResult (labelText cfg.kind) (testText d)) evs ≤ 1 := by
  rw [label_eq, test_eq]
  obtain ⟨m, req, hf⟩ := dir_facts h d
  exact hf.results

/-- C18, the part that holds: a connection counted as okay got the whole script, or logged in without the status bit and got nothing.
Missing for the full property: the second case is counted as okay although nothing was sent. -/
theorem C18_okay_partial (h : Exec (HandleControlChannel cfg) () evs out ()) (hok : countedOkay (labelText cfg.kind) evs) :
    (∃ m n, Served cfg.kind evs m n ∧ sent evs = sessionScript cfg.lib m n evs) ∨
    (∃ frame m n, firstRead evs = some (.ok frame) ∧ LoggedIn cfg.kind frame m n ∧ requested n 4 = false ∧ attempts evs = []) := by
  rw [label_eq] at hok
  cases (whole h).2.talk with
  | none _ _ _ hn => exact absurd hok hn
  | noStatus f m n hf hl hr ha => exact .inr ⟨f, m, n, hf, hl, hr, ha⟩
  | served f m n hf hl hr hw => exact .inl ⟨m, n, ⟨f, hf, hl, hr⟩, hw.complete hok⟩

/-- C19, the part that holds: every listener opened for a test is closed again, unless the last frame the server tried to send
announces its port and could not be sent (or sending it crashed). At most one listener is opened for each test.
Missing for the full property: that case. -/
theorem C19_listener_released_partial (h : Exec (HandleControlChannel cfg) () evs out ()) (d : Dir) :
    count (opensListener d) evs ≤ 1 ∧
    (count (opensListener d) evs = count (closesListener d) evs ∨
      count (opensListener d) evs = count (closesListener d) evs + 1 ∧
      ∃ m before port, attempts evs = before ++ [Messager.frame m MsgType.testPrepare (itoa port)] ∧ (attempts evs ≠ sent evs ∨ ¬ NoCrash evs)) := by
  obtain ⟨m, req, hf⟩ := dir_facts h d
  refine ⟨hf.opens, hf.listener.imp id ?_⟩
  rintro ⟨h1, before, port, h2, h3⟩
  exact ⟨h1, m, before, port, h2, h3⟩

/-- C19: in particular every listener is closed if every frame could be sent and nothing crashed. -/
theorem C19_released_if_sent (h : Exec (HandleControlChannel cfg) () evs out ()) (d : Dir) (hs : attempts evs = sent evs) (hn : NoCrash evs) :
    count (opensListener d) evs = count (closesListener d) evs := by
  rcases (C19_listener_released_partial h d).2 with h1 | ⟨-, m, b, p, -, h1 | h1⟩
  · exact h1
  · exact absurd hs h1
  · exact absurd hn h1

theorem servesOne_counts (hs : ServesOne evs) (d : Dir) : count (handsNothing d) evs = 0 ∧ count (handsConnAndError d) evs = 0 := by
  constructor
  · refine List.countP_eq_zero.2 fun x hx => ?_
    unfold handsNothing
    split
    · have := hs _ _ _ hx; simp at this
    · simp
  · refine List.countP_eq_zero.2 fun x hx => ?_
    unfold handsConnAndError
    split
    · have := hs _ _ _ hx; simp at this
    · simp

/-- C20, the part that holds for whole connections: if no call into the environment crashed, every connection handed to a test is closed exactly
once, and there is at most one for each test. Missing for the full property: crashes of the download test
(`C20_download_conn_released_false`) and connections handed over together with an error (`C20_conn_with_error_false`). -/
theorem C20_conn_released_partial (h : Exec (HandleControlChannel cfg) () evs out ()) (d : Dir) (hs : ServesOne evs) (hn : NoCrash evs) :
    count (handsConn d) evs = count (closesConn d) evs ∧ count (handsConn d) evs ≤ 1 := by
  obtain ⟨m, req, hf⟩ := dir_facts h d
  obtain ⟨h1, h2⟩ := servesOne_counts hs d
  have := hf.conns hn h1
  exact ⟨by omega, hf.hands⟩

/-- C20: the upload test closes its connection exactly once, crashes included. -/
theorem C20_upload_conn_released {σ : Type} {s s' : σ} {m : Messager} {o : Outcome (C2SRecord × Option Err)}
    (h : Exec (uploadManage cfg m) s evs o s') (hs : ServesOne evs) :
    count (handsConn .c2s) evs = count (closesConn .c2s) evs ∧ count (handsConn .c2s) evs ≤ 1 := by
  obtain ⟨-, -, -, h1, h2, -⟩ := wp_iff.1 (upload_resources cfg m s) _ _ _ h
  obtain ⟨h3, h4⟩ := servesOne_counts hs .c2s
  exact ⟨by omega, h2⟩

/-- C20: the download test never closes its connection twice. -/
theorem C20_download_conn_once {σ : Type} {s s' : σ} {m : Messager} {o : Outcome (S2CRecord × Option Err)}
    (h : Exec (downloadManage cfg m) s evs o s') : count (closesConn .s2c) evs ≤ count (handsConn .s2c) evs ∧ count (handsConn .s2c) evs ≤ 1 := by
  obtain ⟨-, -, -, -, h1, h2, -⟩ := wp_iff.1 (download_resources cfg m s) _ _ _ h
  exact ⟨h1, h2⟩

end

/-! ## Concrete connections -/

/-- A raw server. -/
def plainCfg : Cfg :=
  { kind := .plain, dataDir := str "/data", metadata := [], gitShortCommit := str "abc", version := str "v1", isMon := str "false",
    lib := ⟨fun b => if b = str "NaN" then some .nan else none, fun _ => [], fun _ => [], fun _ => str "2020/01/02"⟩ }

/-- The events before the login. -/
def opening : List Ev :=
  [.emit (.activeTests (str "ndt5+plain") 1), .clock 100, .call (.addrs .control) (.ok ⟨str "192.0.2.1", 3001, str "198.51.100.7", 4000⟩), .clock 101,
   .call (.uuid .control) (.ok (str "u"))]

/-- The record at that time. -/
def openingRecord : Record :=
  { gitShortCommit := str "abc", version := str "v1", serverIP := str "192.0.2.1", serverPort := 3001, clientIP := str "198.51.100.7", clientPort := 4000,
    startTime := 101, uuid := str "u", protocol := str "PLAIN" }

/-- Storing a record. -/
def storing (r : Record) : List Ev :=
  [.clock 200, .call (.mkdirAll (str "/data/2020/01/02")) (.ok none), .call (.create (str "/data/2020/01/02/u.json")) (.ok none),
   .call (.write (str "/data/2020/01/02/u.json") { r with endTime := 200 }) (.ok none), .call (.closeFile (str "/data/2020/01/02/u.json")) (.ok ())]

/-- The events after storing the record. -/
def closing (l : List Note) : List Ev :=
  .call (.close .control) (.ok ()) :: (l.map (fun o => (.emit o : Ev)) ++ [.clock 300, .emit (.duration (str "ndt5+plain") 200), .emit (.activeTests (str "ndt5+plain") (-1))])

/-- A refused login: the client closed the connection. -/
def refusedLogin : List Ev :=
  opening ++ [.call .recv (.ok (.error (str "EOF"))), .emit (.testError (str "ndt5+plain") (str "control") (str "LoginCeremony"))] ++
  storing openingRecord ++ closing [.panicCount (str "ndt5+plain") (str "Login"), .controlCount (str "ndt5+plain") (str "panic")]

theorem refusedLogin_exec : Exec (HandleControlChannel plainCfg) () refusedLogin (.ok ()) () := by
  unfold refusedLogin opening storing closing
  follow

/-- C17 is violated: the documented global equality does not hold. A refused login counts an error and no result. -/
theorem C17_global_equality_false :
    ¬ ∀ (cfg : Cfg) (evs : List Ev) (out : Outcome Unit), Exec (HandleControlChannel cfg) () evs out () →
      count (anyError (labelText cfg.kind)) evs = count (anyErrorResult (labelText cfg.kind)) evs := by
  intro h
  have := h _ _ _ refusedLogin_exec
  revert this
  decide +kernel

/-- A login for no test at all. -/
def emptyLogin : List Ev :=
  opening ++ [.call .recv (.ok (.ok [2, 0, 1, 0])), .emit (.testError (str "ndt5+plain") (str "control") (str "TestStatus"))] ++
  storing openingRecord ++ closing [.controlCount (str "ndt5+plain") (str "okay")]

theorem emptyLogin_exec : Exec (HandleControlChannel plainCfg) () emptyLogin (.ok ()) () := by
  unfold emptyLogin opening storing closing
  follow

/-- C18 is violated: a connection can be counted as okay without having been served the script, whatever it is. -/
theorem C18_okay_means_complete_false :
    ¬ ∀ (cfg : Cfg) (evs : List Ev) (out : Outcome Unit), Exec (HandleControlChannel cfg) () evs out () → countedOkay (labelText cfg.kind) evs →
      ∃ m n, sent evs = sessionScript cfg.lib m n evs := by
  intro h
  obtain ⟨m, n, h⟩ := h _ _ _ emptyLogin_exec (by unfold countedOkay; decide +kernel)
  have h0 : sent emptyLogin = [] := rfl
  rw [h0] at h
  simp [sessionScript] at h

/-- An upload whose announcement cannot be sent. -/
def lostAnnouncement : List Ev :=
  opening ++ [.call .recv (.ok (.ok [2, 0, 1, 18])), .emit (.requested (str "ndt5+plain") (str "c2s")), .emit (.suite (str "ndt5+plain") (str "status-c2s")),
    .call (.send (Messager.tlv.frame MsgType.srvQueue (str "0"))) (.ok none),
    .call (.send (Messager.tlv.frame MsgType.msgLogin (str "v5.0-NDTinGO"))) (.ok none),
    .call (.send (Messager.tlv.frame MsgType.msgLogin (str "2"))) (.ok none),
    .emit (.serverStart (str "PLAIN")), .call (.listen .c2s) (.ok (.ok 40000)),
    .call (.send (Messager.tlv.frame MsgType.testPrepare (itoa 40000))) (.ok (some (str "broken pipe"))),
    .emit (.testError (str "ndt5+plain") (str "c2s") (str "TestPrepare")),
    .emit (.testResult (str "ndt5+plain") (str "c2s") (str "error-without-rate"))] ++
  storing { openingRecord with messageProtocol := str "TLV", c2s := some { error := str "broken pipe" } } ++
  closing [.panicCount (str "ndt5+plain") (str "C2S"), .controlCount (str "ndt5+plain") (str "panic")]

theorem lostAnnouncement_exec : Exec (HandleControlChannel plainCfg) () lostAnnouncement (.ok ()) () := by
  unfold lostAnnouncement opening storing closing
  follow

/-- C19 is violated: a listener stays open if the announcement of its port cannot be sent. -/
theorem C19_listener_released_false :
    ¬ ∀ (cfg : Cfg) (evs : List Ev) (out : Outcome Unit) (d : Dir), Exec (HandleControlChannel cfg) () evs out () →
      count (opensListener d) evs = count (closesListener d) evs := by
  intro h
  have := h _ _ _ .c2s lostAnnouncement_exec
  revert this
  decide +kernel

/-- C20 is violated for downloads that crash: the connection is not closed (here sending the data crashes). -/
theorem C20_download_conn_released_false :
    ¬ ∀ (cfg : Cfg) (m : Messager) (evs : List Ev) (o : Outcome (S2CRecord × Option Err)), Exec (downloadManage cfg m) () evs o () → ServesOne evs →
      count (handsConn .s2c) evs = count (closesConn .s2c) evs := by
  intro h
  have := h plainCfg .tlv
    [.emit (.serverStart (str "PLAIN")), .call (.listen .s2c) (.ok (.ok 3002)),
     .call (.send (Messager.tlv.frame MsgType.testPrepare (itoa 3002))) (.ok none),
     .call (.accept .s2c) (.ok (true, none)), .emit (.serverStop (str "PLAIN")), .emit (.closeListener .s2c),
     .call (.uuid (.test .s2c)) (.ok (str "u")), .call (.addrs (.test .s2c)) (.ok ⟨str "s", 3002, str "c", 4001⟩),
     .call (.send (Messager.tlv.frame MsgType.testStart [])) (.ok none), .call (.startMeasuring .s2c) (.ok ()),
     .clock 7, .clock 8, .call (.fill dataToSend) (.panic (str "boom"))] (.panic (str "boom")) (by follow)
    (by intro d b e he; simp at he; obtain ⟨-, rfl, rfl⟩ := he; simp)
  revert this
  decide +kernel

/-- C20 is violated if the server hands over a connection together with the error of another client's handshake (which it does, see
`C32_conn_with_error_false`): the test gives up and the connection is not closed. -/
theorem C20_conn_with_error_false :
    ¬ ∀ (cfg : Cfg) (m : Messager) (evs : List Ev) (o : Outcome (C2SRecord × Option Err)), Exec (uploadManage cfg m) () evs o () →
      count (handsConn .c2s) evs = count (closesConn .c2s) evs := by
  intro h
  have := h { plainCfg with kind := .ws } .json
    [.emit (.serverStart (str "WS")), .call (.listen .c2s) (.ok (.ok 3002)),
     .call (.send (Messager.json.frame MsgType.testPrepare (itoa 3002))) (.ok none),
     .call (.accept .c2s) (.ok (true, some (str "bad handshake"))), .emit (.serverStop (str "WS")), .emit (.closeListener .c2s),
     .emit (.testError (str "ndt5+ws") (str "c2s") (str "ServeOnce"))]
    (.ok ({ error := str "bad handshake" }, some (str "bad handshake"))) (by follow)
  revert this
  decide +kernel

/-- A complete session with the meta test: the login asks for status, meta, middlebox and firewall tests. -/
def metaSession : List Ev :=
  opening ++ [.call .recv (.ok (.ok [2, 0, 1, 57])), .emit (.requested (str "ndt5+plain") (str "mid")), .emit (.requested (str "ndt5+plain") (str "sfw")),
    .emit (.requested (str "ndt5+plain") (str "meta")), .emit (.suite (str "ndt5+plain") (str "status-mid-sfw-meta")),
    .call (.send (Messager.tlv.frame MsgType.srvQueue (str "0"))) (.ok none),
    .call (.send (Messager.tlv.frame MsgType.msgLogin (str "v5.0-NDTinGO"))) (.ok none),
    .call (.send (Messager.tlv.frame MsgType.msgLogin (str "32"))) (.ok none),
    .call (.send (Messager.tlv.frame MsgType.testPrepare [])) (.ok none),
    .call (.send (Messager.tlv.frame MsgType.testStart [])) (.ok none),
    .call .ctxErr (.ok none), .call .recv (.ok (.ok (Messager.tlv.frame MsgType.testMsg (str "os:linux")))),
    .call .ctxErr (.ok none), .call .recv (.ok (.ok (Messager.tlv.frame MsgType.testMsg []))),
    .call .ctxErr (.ok none), .emit (.metaValues 1), .call (.send (Messager.tlv.frame MsgType.testFinalize [])) (.ok none),
    .call (.send (Messager.tlv.frame MsgType.msgResults (closingText (.fin 0) (.fin 0)))) (.ok none),
    .call (.send (Messager.tlv.frame MsgType.msgLogout [])) (.ok none)] ++
  storing { openingRecord with messageProtocol := str "TLV", clientMetadata := [⟨str "os", str "linux"⟩] } ++
  closing [.controlCount (str "ndt5+plain") (str "okay")]

theorem metaSession_exec : Exec (HandleControlChannel plainCfg) () metaSession (.ok ()) () := by
  unfold metaSession opening storing closing
  follow

/-- The login of this session is served, and the session is counted as okay. -/
example : Served .plain metaSession .tlv 57 ∧ countedOkay (str "ndt5+plain") metaSession ∧ NoCrash metaSession ∧ attempts metaSession = sent metaSession ∧
    testsSeen metaSession ≠ [] := by
  refine ⟨⟨_, rfl, .inl ⟨rfl, ⟨57, ⟨0, 1, rfl, rfl⟩, rfl⟩, rfl⟩, by decide +kernel⟩, ?_, ?_, rfl, ?_⟩
  · unfold countedOkay; decide +kernel
  · unfold NoCrash metaSession opening storing closing; simp [crashed]
  · decide +kernel

/-- The same login without the bits of the middlebox and firewall tests agrees on the other bits. -/
example : LoggedIn .plain [2, 0, 1, 48] .tlv 48 ∧ ∀ k ∈ [1, 2, 4, 5], requested 57 k = requested 48 k :=
  ⟨.inl ⟨rfl, ⟨48, ⟨0, 1, rfl, rfl⟩, rfl⟩, rfl⟩, by decide +kernel⟩

/-- A listener is opened and an error counted in a session of which the partial theorems speak. -/
example : count (opensListener .c2s) lostAnnouncement = 1 ∧ count (countsErrorResult (str "ndt5+plain") (str "c2s")) lostAnnouncement = 1 := by
  decide +kernel

end Verif.Props
