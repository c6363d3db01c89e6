import Verif.Ndt5.GoodReplies
import Verif.Props.Times

/-!
# A session in which nothing goes wrong succeeds

C93: a client that keeps to the protocol gets its whole session and its results are recorded without an error.
-/

namespace Verif.Props
open Verif.Go Verif.Ndt5 Verif.Spec

set_option maxRecDepth 20000

section
variable {cfg : Cfg} {evs : List Ev} {out : Outcome Unit} {m : Messager} {n : Int}

/-- The counters of a session tell that every requested throughput test gave one result, and that nothing went wrong in either. -/
structure CleanCounters (cfg : Cfg) (n : Int) (evs : List Ev) : Prop where
  okay : countedOkay (labelText cfg.kind) evs
  upload : count (countsResult (labelText cfg.kind) (str "c2s")) evs = if requested n 1 then 1 else 0
  download : count (countsResult (labelText cfg.kind) (str "s2c")) evs = if requested n 2 then 1 else 0
  noErrors : ∀ d, count (countsError (labelText cfg.kind) (testText d)) evs = 0 ∧ count (countsErrorResult (labelText cfg.kind) (testText d)) evs = 0

/-- The record holds a result for exactly the requested tests, none with an error. -/
structure CleanRecord (cfg : Cfg) (m : Messager) (n : Int) (evs : List Ev) (r : Record) : Prop where
  encoding : r.messageProtocol = encodingText m
  upload : r.c2s = if requested n 1 then some (uploadRecord evs) else none
  download : r.s2c = if requested n 2 then some (downloadRecord cfg.lib m evs) else none
  metadata : r.clientMetadata = if requested n 5 then (texts m (metaEvents evs)).filterMap pairOf else []

private theorem clean_of_run {d : Dir} {req : Bool} {done : Prop} {e : List Ev} (h : DirRun cfg m d req done e) (hd : done) :
    count (countsError cfg.label d.name) e = 0 := by
  cases h with
  | silent _ h _ => exact (only_errors d _).zero _ h
  | around A E B ok hr hA hE hB hok hs => rw [count_around (only_errors d _) hA hB]; exact hE.okErrors (hok hd)

/-- C93: if nothing goes wrong, the client of a served session gets the whole script, and the counters tell one result for every requested test, and no error. -/
theorem C93_good_session (h : Exec (HandleControlChannel cfg) () evs out ()) (hs : Served cfg.kind evs m n) (hg : GoodSession m evs) :
    sent evs = sessionScript cfg.lib m n evs ∧ CleanCounters cfg n evs := by
  have hok := whole_good (whole h).2 hs hg
  refine ⟨(C12_script h hs).complete (by rw [label_eq]; exact hok), ?_⟩
  cases (whole h).2.talk with
  | none hn => obtain ⟨f, hf, hl, -⟩ := hs; exact absurd ⟨f, m, n, hf, hl⟩ hn
  | noStatus f m' n' hf hl hr =>
    obtain ⟨f', hf', hl', hr'⟩ := hs
    rw [hf] at hf'
    cases hf'
    obtain ⟨rfl, rfl⟩ := loggedIn_unique hl hl'
    rw [hr] at hr'; cases hr'
  | served f m' n' hf hl hr _ hU hD =>
    obtain ⟨rfl, rfl⟩ := served_unique hs ⟨f, hf, hl, hr⟩
    have hz : ∀ d : Dir, count (countsError cfg.label d.name) evs = 0
      | .c2s => clean_of_run hU hok
      | .s2c => clean_of_run hD hok
    refine ⟨by rw [label_eq]; exact hok, ?_, ?_, fun d => ?_⟩
    · rw [label_eq]; exact hU.facts.doneResult hok
    · rw [label_eq]; exact hD.facts.doneResult hok
    · rw [← C17_directions_agree_partial h, and_self, label_eq, test_eq]
      exact hz d

/-- C93: in such a session every message of the client after its login is used as the protocol says: one as its own download rate if it asked for a download, the following ones
as metadata if it asked for that, until an empty one or the twentieth; and the client sends no others that are read. -/
theorem C93_messages_used (h : Exec (HandleControlChannel cfg) () evs out ()) (hs : Served cfg.kind evs m n) (hg : GoodSession m evs) :
    ∃ login reads, evs.filterMap recvAnswer = login :: reads ∧ Used n m reads (clientReply evs) ((metaEvents evs).filterMap recvAnswer) :=
  whole_used (whole h).2 hs hg

private theorem good_uuid (h : Exec (HandleControlChannel cfg) () evs out ()) (hg : GoodSession m evs) : ∃ u, .call (.uuid .control) (.ok u) ∈ evs := by
  have hnc := worked_noCrash hg.calls
  cases (whole h).2 with
  | early mid t0 t1 o h1 h2 h3 => exact absurd (fun x hx => hnc x (by simp [hx])) h3
  | run t0 t t1 a u eS eF oS oF r s h1 h2 => exact ⟨u, by simp [preEvents]⟩

/-- C93: if moreover the disk works, there is a record telling what happened, with a result for every requested test and no error in it; if its rates are numbers, it is
written, in the file named after the connection. -/
theorem C93_good_record (h : Exec (HandleControlChannel cfg) () evs out ()) (hs : Served cfg.kind evs m n) (hg : GoodSession m evs) (hd : DiskWorks evs) :
    ∃ r, Archived cfg evs r ∧ CleanRecord cfg m n evs r ∧ (FiniteRates r → ∃ path, Spec.written evs = [(path, r)] ∧
      (r.uuid ≠ badUUID → path = pathJoin [pathJoin [cfg.dataDir, cfg.lib.dateDir r.startTime], r.uuid ++ str ".json"])) := by
  obtain ⟨-, hc⟩ := C93_good_session h hs hg
  obtain ⟨r, ha, -, hw⟩ := C16_record_written_partial h (good_uuid h hg) hd
  refine ⟨r, ha, ⟨?_, ?_, ?_, ?_⟩, fun hf => ?_⟩
  · rcases ha.encoding with ⟨m', n', hs', he⟩ | ⟨hn, -⟩
    · obtain ⟨rfl, rfl⟩ := served_unique hs hs'
      exact he
    · exact absurd ⟨m, n, hs⟩ hn
  · have h1 := hc.upload
    have h2 := (hc.noErrors .c2s).2
    rcases ha.upload with ⟨hr, h0⟩ | ⟨h0, er, hr, her⟩
    · rw [h0] at h1
      split at h1
      · cases h1
      · rename_i hq; rw [if_neg hq]; exact hr
    · rw [h0] at h1
      split at h1
      · rename_i hq
        rw [if_pos hq, hr]
        simp only [testText] at h2
        rw [her] at h2
        cases er with
        | none => simp only [Option.getD_none]; unfold uploadRecord; split <;> rfl
        | some x => cases h2
      · cases h1
  · have h1 := hc.download
    have h2 := (hc.noErrors .s2c).2
    rcases ha.download with ⟨hr, h0⟩ | ⟨h0, m', n', hs', er, hr, her⟩
    · rw [h0] at h1
      split at h1
      · cases h1
      · rename_i hq; rw [if_neg hq]; exact hr
    · obtain ⟨rfl, rfl⟩ := served_unique hs hs'
      rw [h0] at h1
      split at h1
      · rename_i hq
        rw [if_pos hq, hr]
        simp only [testText] at h2
        rw [her] at h2
        cases er with
        | none => simp only [Option.getD_none]; unfold downloadRecord; split <;> rfl
        | some x => cases h2
      · cases h1
  · rcases ha.metadata with ⟨hr, hq⟩ | ⟨m', n', hs', hq, hr⟩
    · rw [hr, hq hc.okay m n hs]; rfl
    · obtain ⟨rfl, rfl⟩ := served_unique hs hs'
      rw [hr, if_pos hq]
  · obtain ⟨path, h1, h2, -⟩ := hw hf
    exact ⟨path, h1, h2⟩

end

/-- An environment in which everything works, for a client that logs in for the upload, the download and the metadata (2 + 4 + 16 + 32), says that it measured 12 in its
download, sends one piece of metadata and says that this was all. -/
private def goodEnv (h : List Ev) : (q : Call) → Outcome q.Answer
  | .recv => .ok (.ok (match (h.filterMap recvAnswer).length with
      | 0 => [2, 0, 1, 54]
      | 1 => [5, 0, 2, 49, 50]
      | 2 => [5, 0, 3, 97, 58, 98]
      | _ => [5, 0, 0]))
  | q => nanEnv h q

/-- A session in this environment; every event takes a second. -/
private def goodSession : List Ev × (Outcome Unit × Unit) :=
  Prog.exec (S := sig) goodEnv (fun h => h.length * 1000000000) (HandleControlChannel plainCfg ()) []

/-- No call fails, as a test. -/
private def fine : Ev → Bool
  | .call _ (.panic _) => false
  | .call (.send _) (.ok e) => e.isNone
  | .call (.listen _) (.ok (.ok _)) => true
  | .call (.listen _) (.ok (.error _)) => false
  | .call (.accept _) (.ok (b, e)) => b && e.isNone
  | .call (.stopMeasuring _) (.ok (.ok _)) => true
  | .call (.stopMeasuring _) (.ok (.error _)) => false
  | .call .ctxErr (.ok e) => e.isNone
  | _ => true

private theorem worked_of_fine {x : Ev} (h : fine x = true) : worked x := by
  cases x with
  | clock t => trivial
  | emit o => trivial
  | call q a =>
    cases a with
    | panic msg => cases h
    | ok a =>
      cases q <;> first
        | trivial
        | (rcases a with ⟨b, _ | e⟩ <;> simp_all [fine, worked]; done)
        | (rcases a with _ | a <;> simp_all [fine, worked]; done)

private theorem goodSession_facts : goodSession.1.all (fun x => fine x && !diskFailure x) = true ∧
    goodSession.1.filterMap recvAnswer = .ok [2, 0, 1, 54] :: [[5, 0, 2, 49, 50], [5, 0, 3, 97, 58, 98], [5, 0, 0]].map .ok ∧
    uploadTooShort goodSession.1 = false ∧ (Spec.written goodSession.1).length = 1 ∧
    (uploadMeasurement goodSession.1).isSome = true ∧ (downloadMeasurement goodSession.1).isSome = true := by decide +kernel

/-- The hypotheses hold for a session with all three tests, whose record is written. -/
example : ∃ evs out, Exec (HandleControlChannel plainCfg) () evs out () ∧ Served plainCfg.kind evs .tlv 54 ∧ GoodSession .tlv evs ∧ DiskWorks evs ∧
    (Spec.written evs).length = 1 ∧ (uploadMeasurement evs).isSome = true ∧ (downloadMeasurement evs).isSome = true ∧
    requested 54 1 = true ∧ requested 54 2 = true ∧ requested 54 5 = true := by
  obtain ⟨h1, h2, h3, h4, h5, h6⟩ := goodSession_facts
  obtain ⟨b, hb⟩ : ∃ b, b = goodSession := ⟨_, rfl⟩
  rw [← hb] at h1 h2 h3 h4 h5 h6
  have h0 := exec_in _ () goodEnv (fun h => h.length * 1000000000) (hb.trans goodSession.eq_1).symm
  have h1 : ∀ x ∈ b.1, fine x = true ∧ diskFailure x = false := fun x hx => by have := List.all_eq_true.1 h1 x hx; simp_all
  refine ⟨_, _, h0, ⟨[2, 0, 1, 54], ?_, .inl ⟨rfl, ?_, rfl⟩, rfl⟩, ⟨fun x hx => worked_of_fine (h1 x hx).1, ⟨_, _, h2, ?_⟩, h3⟩, fun x hx => (h1 x hx).2, h4, h5, h6, rfl, rfl, rfl⟩
  · unfold firstRead
    rw [← List.head?_filterMap, h2]; rfl
  · exact ⟨54, ⟨0, 1, rfl, rfl⟩, rfl⟩
  · intro r hr
    simp only [List.mem_cons, List.not_mem_nil, or_false] at hr
    rcases hr with rfl | rfl | rfl
    · exact ⟨_, 0, 2, rfl, rfl⟩
    · exact ⟨_, 0, 3, rfl, rfl⟩
    · exact ⟨_, 0, 0, rfl, rfl⟩

end Verif.Props
