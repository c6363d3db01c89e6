import Verif.Web.PlayLemmas
import Verif.Props.GoodSession

/-!
# The server and the page that it ships

C99: the ndt5 client of `html/` and the server understand each other, whatever the order in which their messages arrive.
-/

namespace Verif.Props
open Verif.Go Verif.Ndt5 Verif.Spec Verif.Web

set_option maxRecDepth 20000

section
variable {cfg : Cfg} {evs : List Ev} {out : Outcome Unit} {iv : Int} {p : Page} {down up : List Bytes}

/-- The login of the page. -/
abbrev pageLogin : Bytes := makeLoginMessage (2 ||| 4 ||| 32)

/-- C99: the login of the page asks for the upload, the download, the metadata, and the status messages. -/
theorem C99_login (kind : Kind) : LoggedIn kind (makeLoginMessage (2 ||| 4 ||| 32)) .json 54 ∧
    requested 54 1 = true ∧ requested 54 2 = true ∧ requested 54 4 = true ∧ requested 54 5 = true :=
  ⟨.inr ⟨(C10_ws_login_iff _ _).1 (by decide +kernel), rfl⟩, by decide, by decide, by decide, by decide⟩

private theorem got_recv {evs : List Ev} {f : Bytes} (h : firstRead evs = some (.ok f)) : (evs.filterMap gotOf).head? = some f := by
  induction evs with
  | nil => cases h
  | cons x evs ih =>
    unfold firstRead at h ih
    rw [List.findSome?_cons] at h
    cases hx : recvAnswer x with
    | some r =>
      rw [hx] at h
      injection h with h
      subst h
      unfold recvAnswer at hx
      split at hx
      · injection hx with hx; subst hx; rfl
      · cases hx
    | none =>
      rw [hx] at h
      have : gotOf x = none := by
        unfold gotOf
        split
        · simp [recvAnswer] at hx
        · rfl
      rw [List.filterMap_cons_none this]
      exact ih h

/-- Only the login of the page can be served. -/
private theorem served_login {m : Messager} {n : Int} {outs : List Bytes} (hs : Served cfg.kind evs m n) (hg : [pageLogin] ++ outs = evs.filterMap gotOf ++ up) :
    m = .json ∧ n = 54 := by
  obtain ⟨f, hf, hl, -⟩ := hs
  have hh := got_recv hf
  have : f = pageLogin := by
    cases hq : evs.filterMap gotOf with
    | nil => rw [hq] at hh; cases hh
    | cons g gs =>
      rw [hq] at hh hg
      injection hh with hh
      injection hg with hg _
      rw [← hh, ← hg]
  subst this
  exact loggedIn_unique hl (C99_login _).1

/-- Where the page is after any session. -/
theorem page_at (h : Exec (HandleControlChannel cfg) () evs out ()) (hp : Ports evs) (hpl : PlaysFrom iv evs p down up) :
    ∃ c ph rate said arrived, p = .running c ∧ At (planOf cfg.lib evs) ph iv c said rate ∧ Arrived evs arrived ∧
      (planOf cfg.lib evs).script = (arrived.take (arrived.length - down.length)) ++ ph.rest (planOf cfg.lib evs) ∧
      (∃ handled, arrived = handled ++ down) ∧ pageLogin :: said = evs.filterMap gotOf ++ up := by
  obtain ⟨handled, arrived, outs, h1, h2, h3, h4⟩ := plays_ran hpl
  rw [List.nil_append] at h3
  have hpre : handled <+: (planOf cfg.lib evs).script := by
    by_cases hs : ∃ m n, Served cfg.kind evs m n
    · obtain ⟨m, n, hs⟩ := hs
      obtain ⟨rfl, rfl⟩ := served_login hs h4
      have hw := C12_script h hs
      have := (arrived_prefix h2 hw.failStop).trans hw.isPrefix
      rw [plan_script] at this
      have hh : handled <+: arrived := ⟨down, h3.symm⟩
      exact hh.trans this
    · have := (arrived_between h2).2
      rw [C12_nothing_sent h hs] at this
      rw [List.sublist_nil.1 this] at h3
      rw [(List.append_eq_nil_iff.1 h3.symm).1]
      exact List.nil_prefix
  obtain ⟨c, ph, rate, e1, e2, e3⟩ := ran_at (plan_fits cfg.lib hp) h1 rfl (at_start _ iv) hpre
  refine ⟨c, ph, rate, _, arrived, e1, e2, h2, ?_, ⟨handled, h3⟩, h4⟩
  rw [h3]
  simpa [Phase.rest] using e3

/-- C99: whatever the server, the machine and the network do, no message of the server makes the page fail. -/
theorem C99_page_never_fails (h : Exec (HandleControlChannel cfg) () evs out ()) (hp : Ports evs) (hpl : PlaysFrom iv evs p down up) :
    ∃ c, p = .running c := by
  obtain ⟨c, -, -, -, -, e, -⟩ := page_at h hp hpl
  exact ⟨c, e⟩

/-- C99: what the server receives from the page is its login, its own download rate, one piece of metadata and the end of the metadata, in this order, as far as it comes. -/
theorem C99_page_sends (h : Exec (HandleControlChannel cfg) () evs out ()) (hp : Ports evs) (hpl : PlaysFrom iv evs p down up) :
    ∃ rate, RateText rate ∧ evs.filterMap gotOf ++ up <+:
      [makeLoginMessage (2 ||| 4 ||| 32), makeNdtMessage 5 rate, makeNdtMessage 5 (str "client.os.name:NDTjs"), makeNdtMessage 5 []] := by
  obtain ⟨c, ph, rate, said, arrived, e1, e2, e3, e4, e5, e6⟩ := page_at h hp hpl
  refine ⟨rate, e2.rate, ?_⟩
  rw [← e6, e2.said]
  cases ph <;> simp [Phase.said, pageLogin]

private theorem message_object (s : Bytes) : MessageObject [(str "msg", .str s)] := by
  intro kv hkv _
  simp only [List.mem_singleton] at hkv
  exact .inl ⟨s, by rw [hkv]⟩

private theorem message_doc {s : Bytes} (hs : Web.Plain s) (hl : s.length ≤ 30) : ∃ doc, IsFrame (makeNdtMessage 5 s) 5 doc ∧ IsJson doc (.obj [(str "msg", .str s)]) := by
  have hj := isJson_msg (w0 := [32]) (w1 := [32]) (w2 := [32]) (w3 := [32]) (stringBody_plain hs) blank_space blank_space blank_space blank_space
  refine ⟨_, ⟨_, _, rfl, ?_⟩, ?_⟩
  rotate_left
  · have e : str "{ \"msg\": \"" ++ s ++ str "\" } " = 123 :: ([32] ++ (34 :: str "msg" ++ 34 :: (58 :: ([32] ++ (34 :: s ++ [34] ++ [32]))))) ++ [125] ++ [32] := by
      rw [show str "{ \"msg\": \"" = 123 :: 32 :: 34 :: (str "msg" ++ [34, 58, 32, 34]) by decide, show str "\" } " = [34, 32, 125, 32] by decide]
      simp
    rw [e]
    exact hj
  · have h1 : (str "{ \"msg\": \"").length = 10 := by decide
    have h2 : (str "\" } ").length = 4 := by decide
    simp only [List.length_append, h1, h2]
    have h3 : 10 + s.length + 4 < 256 := by omega
    rw [Nat.shiftRight_eq_div_pow, Nat.div_eq_of_lt (by simpa using h3)]
    simp only [UInt8.toNat_ofNat']
    omega

private theorem message_frame {s : Bytes} (hs : Web.Plain s) (hl : s.length ≤ 30) : TestMessage .json (makeNdtMessage 5 s) := by
  obtain ⟨doc, h1, h2⟩ := message_doc hs hl
  exact ⟨doc, _, h1, h2, message_object s⟩

private theorem rate_plain {s : Bytes} (h : RateText s) : Web.Plain s := by
  intro b hb
  refine (?_ : ∀ b : UInt8, ((48 ≤ b ∧ b ≤ 57) ∨ (97 ≤ b ∧ b ≤ 122) ∨ (65 ≤ b ∧ b ≤ 90) ∨ b = 43 ∨ b = 45 ∨ b = 46) → 0x20 ≤ b ∧ b < 0x80 ∧ b ≠ 34 ∧ b ≠ 92) b (h.2.2 b hb)
  exact byte_all (by decide +kernel)

private theorem all_messages {rate : Bytes} (h : RateText rate) :
    ∀ r ∈ [makeNdtMessage 5 rate, makeNdtMessage 5 (str "client.os.name:NDTjs"), makeNdtMessage 5 []], TestMessage .json r := by
  intro r hr
  simp only [List.mem_cons, List.not_mem_nil, or_false] at hr
  rcases hr with rfl | rfl | rfl
  · exact message_frame (rate_plain h) h.2.1
  · exact message_frame (by unfold Web.Plain; decide) (by decide)
  · exact message_frame (by unfold Web.Plain; decide) (by decide)

private theorem recv_got {evs : List Ev} (h : Connected evs) : evs.filterMap recvAnswer = (evs.filterMap gotOf).map .ok := by
  induction evs with
  | nil => rfl
  | cons x evs ih =>
    have ih := ih fun e he => h e (by simp [he])
    cases hx : recvAnswer x with
    | none =>
      have : gotOf x = none := by
        unfold gotOf
        split
        · simp [recvAnswer] at hx
        · rfl
      rw [List.filterMap_cons_none hx, List.filterMap_cons_none this, ih]
    | some r =>
      rw [List.filterMap_cons_some hx, ih]
      unfold recvAnswer at hx
      split at hx
      · injection hx with hx
        subst hx
        rename_i r
        cases r with
        | error e => exact absurd (by simp) (h e)
        | ok f => rfl
      · cases hx

/-- A machine that works reads the login. -/
private theorem reads_login (h : Exec (HandleControlChannel cfg) () evs out ()) (hw : ∀ x ∈ evs, worked x) : ∃ r, firstRead evs = some r := by
  have hnc := worked_noCrash hw
  cases (whole h).2 with
  | early mid t0 t1 o h1 h2 h3 => exact absurd (fun x hx => hnc x (by simp [hx])) h3
  | run t0 t t1 a u eS eF oS oF r s h1 h2 =>
    rw [firstRead_run h2]
    cases h1 with
    | crashed msg => have := hnc (.call .recv (.panic msg)) (by simp); simp [crashed] at this
    | nilLogin r' enc hnl _ _ => exact ⟨_, rfl⟩
    | refused r' x enc hnl => exact ⟨_, rfl⟩
    | noStatus frame m' n' hl hn => exact ⟨_, rfl⟩
    | run frame m' n' e _ _ hl hst hex => exact ⟨_, rfl⟩

private theorem page_good (h : Exec (HandleControlChannel cfg) () evs out ()) (hp : Ports evs) (hpl : PlaysFrom iv evs p down up) (hg : GoodPage evs) :
    Served cfg.kind evs .json 54 ∧ GoodSession .json evs := by
  obtain ⟨rate, hr, hpre⟩ := C99_page_sends h hp hpl
  obtain ⟨r, hf⟩ := reads_login h hg.calls
  have hrg := recv_got hg.connected
  have hgp := (List.prefix_append (evs.filterMap gotOf) up).trans hpre
  cases hq : evs.filterMap gotOf with
  | nil =>
    rw [hq] at hrg
    unfold firstRead at hf
    rw [← List.head?_filterMap, hrg] at hf
    cases hf
  | cons g gs =>
    rw [hq] at hgp hrg
    rw [List.cons_prefix_cons] at hgp
    obtain ⟨rfl, hgs⟩ := hgp
    refine ⟨⟨_, ?_, (C99_login _).1, (C99_login .plain).2.2.2.1⟩, ⟨hg.calls, ⟨pageLogin, gs, by rw [hrg]; rfl, fun r hr' => all_messages hr r (hgs.subset hr')⟩, hg.upload⟩⟩
    unfold firstRead
    rw [← List.head?_filterMap, hrg]
    rfl

/-- C99: if the machine works, the connection does not fail and the browser uploads for long enough, the page is sent the whole session, and the counters tell one result of
the upload, one of the download and no error. -/
theorem C99_session_succeeds (h : Exec (HandleControlChannel cfg) () evs out ()) (hp : Ports evs) (hpl : PlaysFrom iv evs p down up) (hg : GoodPage evs) :
    Served cfg.kind evs .json 54 ∧ sent evs = sessionScript cfg.lib .json 54 evs ∧ CleanCounters cfg 54 evs := by
  obtain ⟨h1, h2⟩ := page_good h hp hpl hg
  exact ⟨h1, C93_good_session h h1 h2⟩

private theorem page_text {s : Bytes} (hs : Web.Plain s) (hl : s.length ≤ 30) : Messager.json.receive (.ok (makeNdtMessage 5 s)) MsgType.testMsg = (some s, none) := by
  obtain ⟨doc, h1, h2⟩ := message_doc hs hl
  refine (C85_json_received_iff _ _ _).2 ⟨doc, _, h1, h2, message_object s, .inl ⟨[], _, [], rfl, ?_, by simp [NoString]⟩⟩
  exact (foldName_iff (by decide)).1 rfl

private theorem os_plain : Web.Plain (str "client.os.name:NDTjs") := by unfold Web.Plain; decide
private theorem empty_plain : Web.Plain [] := by unfold Web.Plain; decide

/-- The messages after the login: what is used as rate and what as metadata. -/
private theorem page_used (h : Exec (HandleControlChannel cfg) () evs out ()) (hp : Ports evs) (hpl : PlaysFrom iv evs p down up) (hg : GoodPage evs) :
    ∃ rate, RateText rate ∧ up = [] ∧ evs.filterMap gotOf = [makeLoginMessage (2 ||| 4 ||| 32), makeNdtMessage 5 rate, makeNdtMessage 5 (str "client.os.name:NDTjs"), makeNdtMessage 5 []] ∧
      clientReply evs = some (.ok (makeNdtMessage 5 rate)) ∧
      (metaEvents evs).filterMap recvAnswer = [.ok (makeNdtMessage 5 (str "client.os.name:NDTjs")), .ok (makeNdtMessage 5 [])] := by
  obtain ⟨rate, hr, hpre⟩ := C99_page_sends h hp hpl
  obtain ⟨h1, h2⟩ := page_good h hp hpl hg
  obtain ⟨l, reads, hl, ⟨own, hown, hlen, hrep⟩, -, hend⟩ := C93_messages_used h h1 h2
  rw [if_pos (C99_login .plain).2.2.1] at hlen
  obtain ⟨o, rfl⟩ := List.length_eq_one_iff.1 hlen
  have hend := hend (C99_login .plain).2.2.2.2
  rw [recv_got hg.connected, hown] at hl
  generalize (metaEvents evs).filterMap recvAnswer = data at *
  have hos := page_text os_plain (by decide)
  have hem := page_text empty_plain (by decide)
  obtain ⟨rest, hrest⟩ := hpre
  generalize hgot : evs.filterMap gotOf = got at *
  match got, hl, hrest with
  | [_, g], hl, hrest =>
    simp only [List.map_cons, List.map_nil, List.cons_append, List.nil_append, List.cons.injEq] at hl
    rw [← hl.2.2] at hend
    rcases hend with ⟨-, h20⟩ | ⟨b, x, hb, -⟩
    · simp at h20
    · simp at hb
  | [_, g, g1], hl, hrest =>
    simp only [List.map_cons, List.map_nil, List.cons_append, List.nil_append, List.cons.injEq] at hl hrest
    obtain ⟨-, -, rfl, -⟩ := hrest
    obtain ⟨-, -, rfl⟩ := hl
    rcases hend with ⟨-, h20⟩ | ⟨b, x, hb, -, hx⟩
    · simp at h20
    · have : x = .ok (makeNdtMessage 5 (str "client.os.name:NDTjs")) := by
        have := congrArg List.getLast? hb
        simpa using this.symm
      subst this
      rw [hos] at hx
      exact absurd hx (by decide)
  | [_, g, g1, g2], hl, hrest =>
    simp only [List.map_cons, List.map_nil, List.cons_append, List.nil_append, List.cons.injEq] at hl hrest
    obtain ⟨rfl, rfl, rfl, rfl, hr'⟩ := hrest
    obtain ⟨-, rfl, rfl⟩ := hl
    exact ⟨rate, hr, (List.append_eq_nil_iff.1 hr').1, rfl, hrep, rfl⟩

/-- C99: … once the page has handled all messages of such a session, it has finished all tests; without progress callbacks it shows the upload rate that the server measured and
the download rate that it measured and sent itself. -/
theorem C99_page_finishes (h : Exec (HandleControlChannel cfg) () evs out ()) (hp : Ports evs) (hpl : PlaysFrom iv evs p [] up) (hg : GoodPage evs) :
    ∃ c rate, p = .running c ∧ PageShows evs c ∧ RateText rate ∧ up = [] ∧
      evs.filterMap gotOf = [makeLoginMessage (2 ||| 4 ||| 32), makeNdtMessage 5 rate, makeNdtMessage 5 (str "client.os.name:NDTjs"), makeNdtMessage 5 []] ∧
      (iv = 0 → c.get (str "c2sRate") = .number (itoa (measuredUpload evs).toInt64) ∧ c.get (str "s2cRate") = .own rate) := by
  obtain ⟨h1, h2, -⟩ := C99_session_succeeds h hp hpl hg
  obtain ⟨c, ph, rate, said, arrived, e1, e2, e3, e4, -, e6⟩ := page_at h hp hpl
  rw [plan_script] at h2
  have ha := arrived_sent e3 (worked_sent hg.calls)
  rw [h2] at ha
  have hrest : ph.rest (planOf cfg.lib evs) = [] := by
    rw [ha] at e4
    simp only [List.length_nil, Nat.sub_zero, List.take_length] at e4
    have := congrArg List.length e4
    rw [List.length_append] at this
    exact List.eq_nil_of_length_eq_zero (by omega)
  have hph : ph = .over := by
    cases ph <;> first | rfl | (simp [Phase.rest, Plan.fromMeta, Plan.fromDown, Plan.script] at hrest)
  subst hph
  refine ⟨c, rate, e1, ⟨e2.finished.2 rfl, ?_, e2.ports, fun v hv => over_shows e2 hv⟩, e2.rate, ?_⟩
  · rw [e2.changes]; rfl
  obtain ⟨-, -, rfl, -⟩ := page_used h hp hpl hg
  rw [List.append_nil, e2.said] at e6
  refine ⟨rfl, e6.symm, fun hi => ?_⟩
  · have hc : c.interval = 0 := by rw [e2.interval, hi]
    exact ⟨e2.upRate hc, e2.downRate hc⟩

/-- C99: … and, if the disk works, the record of the session has the results of both tests without an error, the rate that the page measured, and its piece of metadata; if the
rates are numbers, it is written. -/
theorem C99_record (h : Exec (HandleControlChannel cfg) () evs out ()) (hp : Ports evs) (hpl : PlaysFrom iv evs p down up) (hg : GoodPage evs) (hd : DiskWorks evs) :
    ∃ r rate, Archived cfg evs r ∧ RateText rate ∧ r.messageProtocol = str "JSON" ∧ r.c2s = some (uploadRecord evs) ∧ r.s2c = some (downloadRecord cfg.lib .json evs) ∧
      evs.filterMap gotOf = [makeLoginMessage (2 ||| 4 ||| 32), makeNdtMessage 5 rate, makeNdtMessage 5 (str "client.os.name:NDTjs"), makeNdtMessage 5 []] ∧
      clientMbps cfg.lib .json evs = (match cfg.lib.parseFloat rate with
        | none => .fin 0
        | some kbps => .div kbps (.ofInt 1000)) ∧
      r.clientMetadata = [{ name := str "client.os.name", value := str "NDTjs" }] ∧ (FiniteRates r → ∃ path, Spec.written evs = [(path, r)]) := by
  obtain ⟨h1, h2⟩ := page_good h hp hpl hg
  obtain ⟨rate, hr, -, hgot, hc, hm⟩ := page_used h hp hpl hg
  obtain ⟨r, ha, hcl, hw⟩ := C93_good_record h h1 h2 hd
  refine ⟨r, rate, ha, hr, hcl.encoding, ?_, ?_, hgot, ?_, ?_, fun hf => ?_⟩
  · rw [hcl.upload, if_pos (C99_login .plain).2.1]
  · rw [hcl.download, if_pos (C99_login .plain).2.2.1]
  · unfold clientMbps
    rw [hc]
    simp only [page_text (rate_plain hr) hr.2.1, Option.getD_some]
    cases cfg.lib.parseFloat rate <;> rfl
  · rw [hcl.metadata, if_pos (C99_login .plain).2.2.2.2]
    unfold texts replies
    rw [hm]
    simp only [List.map_cons, List.map_nil, page_text os_plain (by decide), page_text empty_plain (by decide)]
    decide
  · obtain ⟨path, hw, -⟩ := hw hf
    exact ⟨path, hw⟩

/-! ## A session -/

/-- The page handles every message at once, and then these things happen in the browser. -/
private def attend (env : Client → Env) (between : Client → List Idle) : Client → List Bytes → List Ev → Option (Client × List Bytes)
  | c, up, [] => some (c, up)
  | c, up, .call (.send f) _ :: evs => match onMessage c f (env c) with
    | .ok (c', out) => match (between c').foldlM Web.idle c' with
      | some c'' => attend env between c'' (up ++ out) evs
      | none => none
    | .error _ => none
  | c, up, .call .recv (.ok (.ok f)) :: evs => match up with
    | g :: up => if g = f then attend env between c up evs else none
    | [] => none
  | c, up, x :: evs => if exchanges x then none else attend env between c up evs

private theorem plays_idles {is : List Idle} {c c' : Client} {down up : List Bytes} {evs : List Ev} {p' : Page} {down' up' : List Bytes} (h : is.foldlM Web.idle c = some c')
    (hp : Plays (.running c') down up evs p' down' up') : Plays (.running c) down up evs p' down' up' := by
  induction is generalizing c with
  | nil => simp at h; rwa [h]
  | cons i is ih =>
    simp only [List.foldlM_cons] at h
    cases hi : Web.idle c i with
    | none => rw [hi] at h; cases h
    | some c1 => rw [hi] at h; exact .idle i hi (ih h)

private theorem attend_plays {env : Client → Env} (he : ∀ c, RateText (env c).rate) {between : Client → List Idle} {evs : List Ev} {c c' : Client} {up up' : List Bytes}
    (h : attend env between c up evs = some (c', up')) : Plays (.running c) [] up evs (.running c') [] up' := by
  fun_induction attend env between c up evs with
  | case1 => cases h; exact .done _ _ _
  | case2 c up f r evs c1 out hm c2 hi ih => exact .sends (.handle (env c) (he c) hm (plays_idles hi (ih h)))
  | case3 => cases h
  | case4 => cases h
  | case5 c f evs up ih => exact .receives (ih h)
  | case6 => cases h
  | case7 => cases h
  | case8 => cases h
  | case9 c up x evs _ _ hx ih => exact .other (by simpa using hx) (ih h)

end

/-- What the kernel measured in two looks at a connection, with round trip times of 2 ms and of 1500.9 ms. -/
def exKernel : Metrics := { tcpInfo := { bytesAcked := 1000000 }, minRTT := 2, maxRTT := 1500, sumRTT := 1502, countRTT := 2 }

private def isExKernel (w : Metrics) : Bool :=
  w.maxRTT == 1500 && w.minRTT == 2 && w.sumRTT == 1502 && w.pktsOut == 0 && w.countRTT == 2 && w.curMSS == 0 && w.tcpInfo.bytesAcked == 1000000 && w.tcpInfo.bytesReceived == 0 && w.tcpInfo.reflected.isEmpty

private theorem eq_exKernel {w : Metrics} (h : isExKernel w = true) : w = exKernel := by
  obtain ⟨a, b, c, d, e, f, g, i, j⟩ := w
  simp only [isExKernel, Bool.and_eq_true, beq_iff_eq, List.isEmpty_iff] at h
  obtain ⟨⟨⟨⟨⟨⟨⟨⟨rfl, rfl⟩, rfl⟩, rfl⟩, rfl⟩, rfl⟩, rfl⟩, rfl⟩, rfl⟩ := h
  rfl

/-- An environment in which everything works, for the page: what is received is what the page sends. -/
private def pageEnv (h : List Ev) : (q : Call) → Outcome q.Answer
  | .recv => .ok (.ok (match (h.filterMap recvAnswer).length with
      | 0 => makeLoginMessage (2 ||| 4 ||| 32)
      | 1 => makeNdtMessage 5 (str "12345.5")
      | 2 => makeNdtMessage 5 (str "client.os.name:NDTjs")
      | _ => makeNdtMessage 5 []))
  | .stopMeasuring _ => .ok (.ok exKernel)
  | q => nanEnv h q

/-- A websocket server. -/
private def wsCfg : Cfg := { plainCfg with kind := .ws }

/-- A session in this environment; every event takes a second. -/
private def pageSession : List Ev × (Outcome Unit × Unit) :=
  Prog.exec (S := sig) pageEnv (fun h => h.length * 1000000000) (HandleControlChannel wsCfg ()) []

/-- The browser's times and rates. -/
private def browser (_ : Client) : Env := ⟨0, 0, str "12345.5"⟩

/-- The upload connection opens at once; the timer of the upload runs out eleven seconds after the start, when the rate of the server is there. -/
private def lateTimer (c : Client) : List Idle :=
  if c.active = some (.c2s .start) then [.opened] else if c.active = some (.c2s .finalize) then [.timer ⟨11000, 11000, str "777"⟩] else []

/-- The two pages at the end. -/
private def quietPage : Option (Client × List Bytes) := attend browser (fun _ => []) { interval := 0 } [makeLoginMessage (2 ||| 4 ||| 32)] pageSession.1
private def busyPage : Option (Client × List Bytes) := attend browser lateTimer { interval := 1000 } [makeLoginMessage (2 ||| 4 ||| 32)] pageSession.1

private def fine : Ev → Bool
  | .call _ (.panic _) => false
  | .call (.send _) (.ok e) => e.isNone
  | .call (.listen _) (.ok (.ok n)) => n ≤ 65535
  | .call (.listen _) (.ok (.error _)) => false
  | .call (.accept _) (.ok (b, e)) => b && e.isNone
  | .call (.stopMeasuring _) (.ok (.ok _)) => true
  | .call (.stopMeasuring _) (.ok (.error _)) => false
  | .call .ctxErr (.ok e) => e.isNone
  | .call .recv (.ok (.error _)) => false
  | _ => true

private theorem worked_of_fine {x : Ev} (h : fine x = true) : worked x := by
  cases x with
  | clock t => trivial
  | emit o => trivial
  | call q a =>
    cases a with
    | panic msg => cases h
    | ok a =>
      cases q <;> first
        | trivial
        | (rcases a with ⟨b, _ | e⟩ <;> simp_all [fine, worked]; done)
        | (rcases a with _ | a <;> simp_all [fine, worked]; done)

private theorem pageSession_facts : pageSession.1.all (fun x => fine x && !diskFailure x) = true ∧ uploadTooShort pageSession.1 = false ∧
    (quietPage.any fun r => r.1.finished && r.2 == []) = true ∧
    (busyPage.any fun r => r.1.finished && r.1.get (str "c2sRate") == .own (str "777")) = true ∧
    (uploadMeasurement pageSession.1).isSome = true ∧ (downloadMeasurement pageSession.1).isSome = true ∧ isExKernel (downloadKernel pageSession.1) = true := by decide +kernel

private theorem rate_browser (c : Client) : RateText (browser c).rate := by
  have : str "12345.5" = [49, 50, 51, 52, 53, 46, 53] := by decide
  refine ⟨by simp only [browser, this]; simp, by simp only [browser, this]; simp, ?_⟩
  simp only [browser, this]
  decide

/-- What the two sessions are, for later. -/
private theorem pages : ∃ evs out c c' up, Exec (HandleControlChannel wsCfg) () evs out () ∧ Ports evs ∧ GoodPage evs ∧ DiskWorks evs ∧
    (uploadMeasurement evs).isSome = true ∧ (downloadMeasurement evs).isSome = true ∧ downloadKernel evs = exKernel ∧
    PlaysFrom 0 evs (.running c) [] [] ∧ PlaysFrom 1000 evs (.running c') [] up ∧ c'.get (str "c2sRate") = .own (str "777") := by
  obtain ⟨h1, h2, h3, h4, h5, h6, h7⟩ := pageSession_facts
  rw [quietPage] at h3
  rw [busyPage] at h4
  obtain ⟨b, hb⟩ : ∃ b, b = pageSession := ⟨_, rfl⟩
  rw [← hb] at h1 h2 h3 h4 h5 h6 h7
  have h0 := exec_in _ () pageEnv (fun h => h.length * 1000000000) (hb.trans pageSession.eq_1).symm
  clear hb
  obtain ⟨evs, out, u⟩ := b
  simp only at h0 h1 h2 h3 h4 h5 h6
  have h1 : ∀ x ∈ evs, fine x = true ∧ diskFailure x = false := fun x hx => by have := List.all_eq_true.1 h1 x hx; simp_all
  obtain ⟨⟨c, up0⟩, hc, h3⟩ := (Option.any_eq_true _ _).1 h3
  obtain ⟨⟨c', up⟩, hc', h4⟩ := (Option.any_eq_true _ _).1 h4
  simp only [Bool.and_eq_true, beq_iff_eq] at h3 h4
  obtain ⟨-, rfl⟩ := h3
  refine ⟨evs, out, c, c', up, h0, fun d port hm => ?_, ⟨fun x hx => worked_of_fine (h1 x hx).1, fun e he => ?_, h2⟩, fun x hx => (h1 x hx).2, h5, h6, eq_exKernel h7, attend_plays rate_browser hc,
    attend_plays rate_browser hc', h4.2⟩
  · simpa [fine] using (h1 _ hm).1
  · simpa [fine] using (h1 _ he).1

/-- The hypotheses hold for a session of a websocket server with a page that has handled everything. -/
example : ∃ cfg evs out p up, Exec (HandleControlChannel cfg) () evs out () ∧ Ports evs ∧ PlaysFrom 0 evs p [] up ∧ GoodPage evs ∧ DiskWorks evs ∧
    (uploadMeasurement evs).isSome = true ∧ (downloadMeasurement evs).isSome = true := by
  obtain ⟨evs, out, c, c', up, a, b, d, dw, e, f, -, g, -⟩ := pages
  exact ⟨_, evs, out, _, _, a, b, g, d, dw, e, f⟩

/-- C99 is violated with progress callbacks: although nothing goes wrong, the page can show its own estimate of the upload instead of the rate that the server measured and sent,
if a timer of the upload runs out after that rate was received. -/
theorem C99_upload_rate_false : ¬ ∀ (cfg : Cfg) (evs : List Ev) (out : Outcome Unit) (iv : Int) (c : Client) (up : List Bytes), Exec (HandleControlChannel cfg) () evs out () →
    Ports evs → GoodPage evs → PlaysFrom iv evs (.running c) [] up → c.get (str "c2sRate") = .number (itoa (measuredUpload evs).toInt64) := by
  intro h
  obtain ⟨evs, out, c, c', up, a, b, d, -, -, -, -, -, g, e⟩ := pages
  have := h _ _ _ _ _ _ a b d g
  rw [e] at this
  cases this

/-! ## For the widget -/

/-- A good session in which a page with progress callbacks shows its own upload rate. -/
theorem exPage_busy : ∃ cfg evs out c up, Exec (HandleControlChannel cfg) () evs out () ∧ Ports evs ∧ GoodPage evs ∧ PlaysFrom 1000 evs (.running c) [] up ∧
    c.get (str "c2sRate") = .own (str "777") ∧ downloadKernel evs = exKernel := by
  obtain ⟨evs, out, c, c', up, a, b, d, -, -, -, k, -, g, e⟩ := pages
  exact ⟨_, evs, out, c', up, a, b, d, g, e, k⟩

/-- The same environment, except that the server has no port for its tests. -/
private def noPortEnv (h : List Ev) : (q : Call) → Outcome q.Answer
  | .listen _ => .ok (.error (str "too many open files"))
  | q => pageEnv h q

private def noPortSession : List Ev × (Outcome Unit × Unit) :=
  Prog.exec (S := sig) noPortEnv (fun h => h.length * 1000000000) (HandleControlChannel wsCfg ()) []

private def stuckPage : Option (Client × List Bytes) := attend browser (fun _ => []) { interval := 1000 } [makeLoginMessage (2 ||| 4 ||| 32)] noPortSession.1

private theorem noPort_facts : noPortSession.1.all (fun | .call (.listen _) (.ok (.ok _)) => false | _ => true) = true ∧
    (stuckPage.any fun r => r.1.finished == false && r.1.state == .results) = true := by decide +kernel

/-- A session that the server ended early: the page has handled all that it was sent, and waits. -/
theorem exPage_stuck : ∃ cfg evs out c up, Exec (HandleControlChannel cfg) () evs out () ∧ Ports evs ∧ PlaysFrom 1000 evs (.running c) [] up ∧ c.finished = false ∧ c.state = .results := by
  obtain ⟨h1, h2⟩ := noPort_facts
  rw [stuckPage] at h2
  obtain ⟨b, hb⟩ : ∃ b, b = noPortSession := ⟨_, rfl⟩
  rw [← hb] at h1 h2
  have h0 := exec_in _ () noPortEnv (fun h => h.length * 1000000000) (hb.trans noPortSession.eq_1).symm
  clear hb
  obtain ⟨evs, out, u⟩ := b
  simp only at h0 h1 h2
  obtain ⟨⟨c, up⟩, hc, h2⟩ := (Option.any_eq_true _ _).1 h2
  simp only [Bool.and_eq_true, beq_iff_eq] at h2
  refine ⟨_, evs, out, c, up, h0, fun d port hm => ?_, attend_plays rate_browser hc, h2⟩
  have := List.all_eq_true.1 h1 _ hm
  simp at this

end Verif.Props
