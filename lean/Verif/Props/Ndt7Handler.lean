import Verif.Ndt7.HandlerLemmas
import Verif.Ndt5.Control
import Verif.Go.FloatLemmas

/-!
# ndt7 requests: C37, C38, C39, C40, C41
-/

namespace Verif.Props
open Verif.Go Verif.Ndt7 Verif.Spec
open Verif.Ndt5 (NameValue)

/-! ## C37: the early-exit parameter -/

/-- The parameter is present with this first value. -/
def FirstValue (q : Query) (name value : Bytes) : Prop := ∃ rest, (name, value :: rest) ∈ q

/-- The parameter is absent. -/
def Absent (q : Query) (name : Bytes) : Prop := ∀ e ∈ q, e.1 ≠ name

private theorem WF.tail {e : Bytes × List Bytes} {q : Query} (h : Query.WF (e :: q)) : Query.WF q :=
  ⟨(List.nodup_cons.1 (by simpa using h.distinct)).2, fun x hx => h.nonempty x (List.mem_cons_of_mem _ hx)⟩

/-- In a well-formed query a parameter is absent or has exactly one first value. -/
theorem first_or_absent {q : Query} (h : q.WF) (name : Bytes) : Absent q name ∨ ∃ v, FirstValue q name v := by
  by_cases hx : ∃ e ∈ q, e.1 = name
  · obtain ⟨⟨n, vs⟩, he, rfl⟩ := hx
    cases vs with
    | nil => exact absurd rfl (h.nonempty _ he)
    | cons v rest => exact .inr ⟨v, rest, he⟩
  · exact .inl fun e he hn => hx ⟨e, he, hn⟩

theorem first_unique {q : Query} (h : q.WF) {name v w : Bytes} (hv : FirstValue q name v) (hw : FirstValue q name w) : v = w := by
  obtain ⟨r, hr⟩ := hv
  obtain ⟨t, ht⟩ := hw
  have := List.inj_on_of_nodup_map h.distinct hr ht rfl
  simp at this
  exact this.1

private theorem validate_cons (name : Bytes) (values : List Bytes) (rest : Query) : validateEarlyExit ((name, values) :: rest) =
    if name ≠ earlyExitName then validateEarlyExit rest
    else match values with
      | [] => .panic indexPanic
      | value :: _ =>
        if validEarlyExit.contains value = false then
          .ok (.error (str "invalid " ++ name ++ str " parameter value " ++ value))
        else .ok (.ok { isEarlyExit := true, maxBytes := (atoi value).getD 0 * 1000000 }) := by
  cases values <;> rfl

private theorem append_cons (acc : List NameValue) (name : Bytes) (values : List Bytes) (rest : Query) :
    appendClientMetadata acc ((name, values) :: rest) =
    if excluded name then appendClientMetadata acc rest
    else match values with
      | [] => .panic indexPanic
      | value :: _ => appendClientMetadata (acc ++ [{ name := name, value := value }]) rest := by
  cases values <;> rfl

private theorem validate_absent {q : Query} (h : Absent q (str "early_exit")) : validateEarlyExit q = .ok (.ok ⟨false, 0⟩) := by
  induction q with
  | nil => rfl
  | cons e q ih =>
    obtain ⟨n, vs⟩ := e
    have h1 : n ≠ earlyExitName := h _ List.mem_cons_self
    rw [validate_cons, if_pos h1]
    exact ih fun e he => h e (List.mem_cons_of_mem _ he)

private theorem validate_first {q : Query} (hq : q.WF) {v : Bytes} (h : FirstValue q (str "early_exit") v) :
    validateEarlyExit q = if v = str "250" then .ok (.ok ⟨true, 250000000⟩)
      else .ok (.error (str "invalid early_exit parameter value " ++ v)) := by
  induction q with
  | nil => obtain ⟨r, hr⟩ := h; simp at hr
  | cons e q ih =>
    obtain ⟨n, vs⟩ := e
    obtain ⟨r, hr⟩ := h
    by_cases hn : n = earlyExitName
    · have hvs : vs = v :: r := by
        rcases List.mem_cons.1 hr with h1 | h1
        · simp at h1; exact h1.2.symm
        · have hd := hq.distinct
          simp only [List.map_cons, List.nodup_cons] at hd
          exact absurd (List.mem_map.2 ⟨_, h1, hn.symm⟩) hd.1
      subst hvs
      subst hn
      rw [validate_cons, if_neg (by simp)]
      by_cases hv : v = str "250"
      · subst hv; rfl
      · have : validEarlyExit.contains v = false := by simp [validEarlyExit, hv]
        simp only [this, if_true, hv, if_false]
        rfl
    · rw [validate_cons, if_pos hn]
      refine ih (WF.tail hq) ⟨r, ?_⟩
      rcases List.mem_cons.1 hr with h1 | h1
      · simp at h1; exact absurd h1.1.symm hn
      · exact h1

/-- C37: a query is accepted with early exit at 250,000,000 bytes exactly if its `early_exit` parameter is `250`. -/
theorem C37_accepts_250 {q : Query} (hq : q.WF) :
    validateEarlyExit q = .ok (.ok ⟨true, 250000000⟩) ↔ FirstValue q (str "early_exit") (str "250") := by
  constructor
  · intro h
    rcases first_or_absent hq (str "early_exit") with ha | ⟨v, hv⟩
    · rw [validate_absent ha] at h; simp at h
    · rw [validate_first hq hv] at h
      by_cases hx : v = str "250"
      · exact hx ▸ hv
      · simp [hx] at h
  · intro h
    rw [validate_first hq h, if_pos rfl]

/-- C37: a query is accepted without early exit exactly if it has no `early_exit` parameter. -/
theorem C37_accepts_absent {q : Query} (hq : q.WF) :
    validateEarlyExit q = .ok (.ok ⟨false, 0⟩) ↔ Absent q (str "early_exit") := by
  constructor
  · intro h
    rcases first_or_absent hq (str "early_exit") with ha | ⟨v, hv⟩
    · exact ha
    · rw [validate_first hq hv] at h
      split at h <;> simp at h
  · exact validate_absent

/-- C37: every other query is refused. -/
theorem C37_refuses_others {q : Query} (hq : q.WF) :
    (∃ e, validateEarlyExit q = .ok (.error e)) ↔ ∃ v, FirstValue q (str "early_exit") v ∧ v ≠ str "250" := by
  constructor
  · rintro ⟨e, h⟩
    rcases first_or_absent hq (str "early_exit") with ha | ⟨v, hv⟩
    · rw [validate_absent ha] at h; simp at h
    · refine ⟨v, hv, ?_⟩
      rintro rfl
      rw [validate_first hq hv, if_pos rfl] at h
      simp at h
  · rintro ⟨v, hv, hx⟩
    exact ⟨_, by rw [validate_first hq hv, if_neg hx]⟩

/-- C37: other parameters and the order of enumeration do not matter, not even for the error. -/
theorem C37_depends_on_early_exit_only {q q' : Query} (hq : q.WF) (hq' : q'.WF)
    (h : ∀ vs, (str "early_exit", vs) ∈ q ↔ (str "early_exit", vs) ∈ q') : validateEarlyExit q = validateEarlyExit q' := by
  rcases first_or_absent hq (str "early_exit") with ha | ⟨v, hv⟩
  · have ha' : Absent q' (str "early_exit") := by
      rintro ⟨n, vs⟩ he rfl
      exact ha _ ((h vs).2 he) rfl
    rw [validate_absent ha, validate_absent ha']
  · obtain ⟨r, hr⟩ := hv
    rw [validate_first hq ⟨r, hr⟩, validate_first hq' ⟨r, (h _).1 hr⟩]

/-- A query with the parameter and another one, in both orders. -/
example : let q : Query := [(str "a", [str "1"]), (str "early_exit", [str "250", str "9"])]
    q.WF ∧ Query.WF q.reverse ∧ FirstValue q (str "early_exit") (str "250") ∧ validateEarlyExit q = validateEarlyExit q.reverse := by
  refine ⟨⟨by decide, by decide⟩, ⟨by decide, by decide⟩, ⟨[str "9"], by decide⟩, rfl⟩

section
variable {h : Server} {kind : Subtest} {req : Request} {evs : List Ev} {out : Outcome Unit} {s' : Result}

theorem validate_total {q : Query} (hq : q.WF) : ∀ msg, validateEarlyExit q ≠ .panic msg := by
  intro msg
  rcases first_or_absent hq (str "early_exit") with ha | ⟨v, hv⟩
  · rw [validate_absent ha]; simp
  · rw [validate_first hq hv]; split <;> simp

theorem append_total {q : Query} (hq : q.WF) : ∀ acc, ∃ md, appendClientMetadata acc q = .ok md := by
  induction q with
  | nil => intro acc; exact ⟨acc, rfl⟩
  | cons e q ih =>
    intro acc
    obtain ⟨n, vs⟩ := e
    rw [append_cons]
    split
    · exact ih (WF.tail hq) acc
    · cases vs with
      | nil => exact absurd rfl (hq.nonempty _ List.mem_cons_self)
      | cons v r => exact ih (WF.tail hq) _

/-- The query as both loops see it. -/
structure QueryOk (req : Request) : Prop where
  wf : req.query.WF
  same : req.query.Perm req.query2

theorem QueryOk.wf2 (hq : QueryOk req) : req.query2.WF :=
  ⟨(hq.same.map Prod.fst).nodup_iff.1 hq.wf.distinct, fun e he => hq.wf.nonempty e (hq.same.mem_iff.2 he)⟩

private theorem handled (hq : QueryOk req) (he : Exec (runMeasurement h kind req) {} evs out s') :
    ∃ md, appendClientMetadata [] req.query2 = .ok md ∧ Handled h kind req md evs := by
  obtain ⟨md, hmd⟩ := append_total hq.wf2 []
  exact ⟨md, hmd, wp_iff.1 (runMeasurement_spec h kind req md hmd {} (validate_total hq.wf)) _ _ _ he⟩

/-- C37: a refused request gets status 400 and nothing else happens. -/
theorem C37_refused_before_upgrade (hq : QueryOk req) (he : Exec (runMeasurement h kind req) {} evs out s') {v : Bytes}
    (hv : FirstValue req.query (str "early_exit") v) (hx : v ≠ str "250") : evs = [.emit (.respond 400)] := by
  obtain ⟨e, hr⟩ := (C37_refuses_others hq.wf).2 ⟨v, hv, hx⟩
  obtain ⟨md, hmd, hh⟩ := handled hq he
  cases hh <;> simp_all

/-- C37: the other requests with the subprotocol are upgraded. -/
theorem C37_accepted_upgraded (hq : QueryOk req) (he : Exec (runMeasurement h kind req) {} evs out s')
    (hv : Absent req.query (str "early_exit") ∨ FirstValue req.query (str "early_exit") (str "250"))
    (hp : req.protocol = str "net.measurementlab.ndt.v7") : ∃ r rest, evs = .call .upgrade r :: rest := by
  obtain ⟨md, hmd, hh⟩ := handled hq he
  have hok : ∃ p, validateEarlyExit req.query = .ok (.ok p) := by
    rcases hv with hv | hv
    · exact ⟨_, validate_absent hv⟩
    · exact ⟨_, (C37_accepts_250 hq.wf).2 hv⟩
  obtain ⟨p, hok⟩ := hok
  cases hh with
  | refused e hv => simp_all
  | wrongProtocol p' hv hp' => exact absurd hp hp'
  | upgradeCrash p hv hp msg => exact ⟨_, _, rfl⟩
  | upgradeFailed p hv hp e => exact ⟨_, _, rfl⟩
  | uuidCrash p hv hp msg => exact ⟨_, _, rfl⟩
  | uuidFailed p hv hp e => exact ⟨_, _, rfl⟩
  | measured p hv hp uuid e hm => exact ⟨_, _, rfl⟩

/-- C37: what the download sender is told. -/
theorem C37_download_parameters (hq : QueryOk req) (he : Exec (runMeasurement h .download req) {} evs out s')
    {k : Subtest} {p : Option Params} {r : Outcome (Call.subtest k p).Answer} (hr : .call (.subtest k p) r ∈ evs) :
    k = .download ∧ ((p = some ⟨true, 250000000⟩ ∧ FirstValue req.query (str "early_exit") (str "250")) ∨
      (p = some ⟨false, 0⟩ ∧ Absent req.query (str "early_exit"))) := by
  obtain ⟨md, hmd, hh⟩ := handled hq he
  cases hh with
  | measured p' hv hp uuid e hm =>
    simp at hr
    obtain ⟨h1, h2⟩ := hm.asked k p r hr
    refine ⟨h1, ?_⟩
    simp only at h2
    subst h2
    rcases first_or_absent hq.wf (str "early_exit") with ha | ⟨v, hv'⟩
    · rw [validate_absent ha] at hv
      simp at hv
      exact .inr ⟨by rw [hv], ha⟩
    · have hx : v = str "250" := by
        by_cases hx : v = str "250"
        · exact hx
        · rw [validate_first hq.wf hv', if_neg hx] at hv
          simp at hv
      subst hx
      rw [validate_first hq.wf hv', if_pos rfl] at hv
      simp at hv
      exact .inl ⟨by rw [hv], hv'⟩
  | _ => simp at hr

/-! ## C38: the client metadata -/

private theorem append_spec {q : Query} (hq : q.WF) : ∀ {acc md}, appendClientMetadata acc q = .ok md →
    md = acc ++ (q.filter fun e => !((str "server_").isPrefixOf e.1)).map fun e => ⟨e.1, e.2.headD []⟩ := by
  induction q with
  | nil => intro acc md h; simp [appendClientMetadata] at h; simp [h]
  | cons e q ih =>
    intro acc md h
    obtain ⟨n, vs⟩ := e
    rw [append_cons] at h
    by_cases hx : excluded n = true
    · rw [if_pos hx] at h
      rw [ih (WF.tail hq) h]
      rw [List.filter_cons_of_neg (by simpa [excluded, hasPrefix] using hx)]
    · rw [if_neg hx] at h
      cases vs with
      | nil => exact absurd rfl (hq.nonempty _ List.mem_cons_self)
      | cons v r =>
        rw [ih (WF.tail hq) h]
        have hf : (str "server_").isPrefixOf n = false := Bool.eq_false_iff.2 hx
        rw [List.filter_cons_of_pos (by simp only [hf, Bool.not_false])]
        simp

/-- The client metadata demanded for a query: one entry per parameter whose name does not start with `server_`, with the first value. -/
structure MetadataOf (q : Query) (md : List NameValue) : Prop where
  entries : ∀ n v, (⟨n, v⟩ : NameValue) ∈ md ↔ FirstValue q n v ∧ ¬ str "server_" <+: n
  once : (md.map (·.name)).Nodup

/-- C38: the loop over the query yields exactly the client metadata, whatever the order of enumeration. -/
theorem C38_metadata_exact {q : Query} (hq : q.WF) : ∃ md, appendClientMetadata [] q = .ok md ∧ MetadataOf q md := by
  obtain ⟨md, hmd⟩ := append_total hq []
  refine ⟨md, hmd, ?_⟩
  have := append_spec hq hmd
  simp only [List.nil_append] at this
  subst this
  constructor
  · intro n v
    simp only [List.mem_map, List.mem_filter, Bool.not_eq_true', NameValue.mk.injEq, Prod.exists, FirstValue]
    constructor
    · rintro ⟨a, b, ⟨h1, h2⟩, rfl, rfl⟩
      cases b with
      | nil => exact absurd rfl (hq.nonempty _ h1)
      | cons v r =>
        refine ⟨⟨r, h1⟩, fun hp => ?_⟩
        rw [List.isPrefixOf_iff_prefix.2 hp] at h2
        simp at h2
    · rintro ⟨⟨r, h1⟩, h2⟩
      refine ⟨n, v :: r, ⟨h1, ?_⟩, rfl, rfl⟩
      rw [← Bool.not_eq_true, List.isPrefixOf_iff_prefix]
      exact h2
  · rw [List.map_map]
    exact (hq.distinct.sublist (List.Sublist.map _ List.filter_sublist))

/-- C38: the order of enumeration changes at most the order of the entries. -/
theorem C38_order_irrelevant {q q' : Query} (hq : q.WF) (hp : q.Perm q') {md md' : List NameValue}
    (h : appendClientMetadata [] q = .ok md) (h' : appendClientMetadata [] q' = .ok md') : md.Perm md' := by
  have hq' : q'.WF := ⟨(hp.map Prod.fst).nodup_iff.1 hq.distinct, fun e he => hq.nonempty e (hp.mem_iff.2 he)⟩
  rw [append_spec hq h, append_spec hq' h']
  simp only [List.nil_append]
  exact (hp.filter _).map _

/-- C38: the record written holds exactly the client metadata. -/
theorem C38_metadata_stored (hq : QueryOk req) (he : Exec (runMeasurement h kind req) {} evs out s') (hs : SetupOk evs) (hx : NoExit evs)
    {path : Bytes} {r : Result} {d : ArchivalData} (hr : .wrote path r ∈ marks evs) (hd : under kind r = some d) :
    MetadataOf req.query d.clientMetadata := by
  obtain ⟨md, hmd, hh⟩ := handled hq he
  cases hh with
  | measured p hv hp uuid e hm =>
    obtain ⟨t0, t1, tf, id, r', d', h1, h2, h3, h4, h5, h6⟩ := hm.file (by simpa [atSetup] using hs) (by simpa using hx)
    simp [h1] at hr
    obtain ⟨rfl, rfl⟩ := hr
    rw [hd] at h2
    cases h2
    rw [h5]
    obtain ⟨md', hmd', hof⟩ := C38_metadata_exact hq.wf2
    rw [hmd] at hmd'
    cases hmd'
    exact ⟨fun n v => by simp only [hof.entries, FirstValue, hq.same.mem_iff], hof.once⟩
  | _ => simp at hr

/-- A query with an excluded parameter and one with two values. -/
example : let q : Query := [(str "client_name", [str "x", str "y"]), (str "server_x", [str "1"]), (str "xserver_", [[]])]
    q.WF ∧ appendClientMetadata [] q = .ok [⟨str "client_name", str "x"⟩, ⟨str "xserver_", []⟩] := by
  refine ⟨⟨by decide, by decide⟩, rfl⟩

/-! ## C39: the subprotocol and the connection counter -/

open Classical in
/-- C39: without the subprotocol a request gets status 400, is counted as a websocket error unless its parameters were refused, and
nothing else happens. -/
theorem C39_wrong_subprotocol (hq : QueryOk req) (he : Exec (runMeasurement h kind req) {} evs out s')
    (hp : req.protocol ≠ str "net.measurementlab.ndt.v7") :
    evs = .emit (.respond 400) :: (if (Absent req.query (str "early_exit") ∨ FirstValue req.query (str "early_exit") (str "250"))
      then [.emit (.connection (directionText kind) (str "websocket-error"))] else []) := by
  rw [← name_eq]
  obtain ⟨md, hmd, hh⟩ := handled hq he
  cases hh with
  | refused e hv =>
    obtain ⟨v, hv', hx⟩ := (C37_refuses_others hq.wf).1 ⟨e, hv⟩
    rw [if_neg]
    rintro (ha | hb)
    · obtain ⟨r, hr⟩ := hv'
      exact ha _ hr rfl
    · exact hx (first_unique hq.wf hv' hb)
  | wrongProtocol p hv hp' =>
    rw [if_pos]
    rcases first_or_absent hq.wf (str "early_exit") with ha | ⟨v, hv'⟩
    · exact .inl ha
    · by_cases hx : v = str "250"
      · exact .inr (hx ▸ hv')
      · rw [validate_first hq.wf hv', if_neg hx] at hv
        simp at hv
  | upgradeCrash p hv hp' msg => exact absurd hp' hp
  | upgradeFailed p hv hp' e => exact absurd hp' hp
  | uuidCrash p hv hp' msg => exact absurd hp' hp
  | uuidFailed p hv hp' e => exact absurd hp' hp
  | measured p hv hp' uuid e hm => exact absurd hp' hp

/-- C39: a request whose parameters are accepted is counted exactly once, unless the upgrade or the look-up of the UUID crashes. -/
theorem C39_counted_once (hq : QueryOk req) (he : Exec (runMeasurement h kind req) {} evs out s')
    (hv : Absent req.query (str "early_exit") ∨ FirstValue req.query (str "early_exit") (str "250"))
    (h1 : ∀ msg, .call .upgrade (.panic msg) ∉ evs) (h2 : ∀ msg, .call .uuid (.panic msg) ∉ evs) :
    ∃ st ∈ [str "websocket-error", str "uuid-error", str "result"], statuses evs = [(directionText kind, st)] := by
  rw [← name_eq]
  obtain ⟨md, hmd, hh⟩ := handled hq he
  cases hh with
  | refused e hv' =>
    obtain ⟨v, hv', hx⟩ := (C37_refuses_others hq.wf).1 ⟨e, hv'⟩
    rcases hv with ha | hb
    · obtain ⟨r, hr⟩ := hv'
      exact absurd rfl (ha _ hr)
    · exact absurd (first_unique hq.wf hv' hb) hx
  | wrongProtocol p hv hp' => exact ⟨_, by simp, rfl⟩
  | upgradeCrash p hv hp' msg => exact absurd (by simp) (h1 msg)
  | upgradeFailed p hv hp' e => exact ⟨_, by simp, rfl⟩
  | uuidCrash p hv hp' msg => exact absurd (by simp) (h2 msg)
  | uuidFailed p hv hp' e => exact ⟨str "uuid-error", by simp, rfl⟩
  | measured p hv hp' uuid e hm => exact ⟨str "result", by simp, by simp [hm.statuses]⟩

/-- C39: a request whose parameters are refused is not counted. -/
theorem C39_refused_not_counted (hq : QueryOk req) (he : Exec (runMeasurement h kind req) {} evs out s') {v : Bytes}
    (hv : FirstValue req.query (str "early_exit") v) (hx : v ≠ str "250") : statuses evs = [] := by
  rw [C37_refused_before_upgrade hq he hv hx]; rfl

/-! ## C40: the result file and the flow events -/

/-- C40, partial: it is assumed that the process is not ended by a failing file operation (`rtx.Must`) and that no library call outside
the subtest crashes. A request counted as "result" writes exactly one file, between the flow events, which carry its UUID; the file
holds the data under the direction of the test only. A crash of the subtest makes no difference. -/
theorem C40_one_file_and_flow_partial (hq : QueryOk req) (he : Exec (runMeasurement h kind req) {} evs out s') (hs : SetupOk evs) (hx : NoExit evs)
    (hc : (directionText kind, str "result") ∈ statuses evs) :
    ∃ t0 t1 path uuid id r d, marks evs = [.created t0 uuid id, .opened path, .wrote path r, .deleted t1 uuid] ∧
      .call .uuid (.ok (.ok uuid)) ∈ evs ∧ under kind r = some d ∧ under (other kind) r = none ∧ d.uuid = uuid ∧
      r.startTime = t0 ∧ r.endTime = t1 ∧ d.serverMetadata = h.serverMetadata ∧
      (∀ x ∈ subtests evs, d.serverMeasurements = x.2.2.serverMeasurements ∧ d.clientMeasurements = x.2.2.clientMeasurements ∧
        d.startTime = x.2.2.startTime ∧ d.endTime = x.2.2.endTime) := by
  rw [← name_eq] at hc
  obtain ⟨md, hmd, hh⟩ := handled hq he
  cases hh with
  | measured p hv hp uuid e hm =>
    obtain ⟨t0, t1, tf, id, r, d, m1, m2, m3, m4, m5, m6, m7, m8, m9, m10, m11, m12, m13, m14, m15⟩ :=
      hm.file (by simpa [atSetup] using hs) (by simpa using hx)
    refine ⟨t0, t1, _, uuid, id, r, d, by simp [m1]; exact rfl, by simp, m2, m3, m4, m7, m8, m6, ?_⟩
    intro x hx
    exact m15 x (by simpa using hx)
  | wrongProtocol p hv hp' => simp [str] at hc
  | upgradeFailed p hv hp' e => simp [str] at hc
  | uuidFailed p hv hp' e => simp [str] at hc
  | _ => simp at hc

/-- C40: for every other request there is no file and no flow event. -/
theorem C40_others_nothing (hq : QueryOk req) (he : Exec (runMeasurement h kind req) {} evs out s')
    (hc : (directionText kind, str "result") ∉ statuses evs) : marks evs = [] := by
  rw [← name_eq] at hc
  obtain ⟨md, hmd, hh⟩ := handled hq he
  cases hh with
  | measured p hv hp uuid e hm => simp [hm.statuses] at hc
  | _ => rfl

end

/-! ## Concrete requests -/

/-- A server for examples. -/
def exServer : Server where
  dataDir := str "/d"
  serverMetadata := [⟨str "machine-type", str "virtual"⟩]
  compress := false
  gitShortCommit := str "abc"
  version := str "v1"
  lib := { dateDir := fun _ => str "2020/01/01", stamp := fun _ => str "20200101T000000.000000000Z" }

/-- A request with the subprotocol. -/
def exRequest : Request where
  query := [(str "client_name", [str "x"])]
  query2 := [(str "client_name", [str "x"])]
  protocol := str "net.measurementlab.ndt.v7"

theorem exRequest_ok : QueryOk exRequest := ⟨⟨by decide, by decide⟩, .refl _⟩

/-- The record written for the example. -/
def exRecord : Result where
  gitShortCommit := str "abc"
  version := str "v1"
  clientIP := str "::1"
  clientPort := 1
  serverIP := str "::1"
  serverPort := 1
  startTime := 5
  endTime := 7
  download := some { uuid := str "u", clientMetadata := [⟨str "client_name", str "x"⟩], serverMetadata := [⟨str "machine-type", str "virtual"⟩] }

/-- The file written for the example. -/
def exPath : Bytes := str "/d/ndt7/2020/01/01/ndt7-download-20200101T000000.000000000Z.u.json"

/-- The beginning of a download. -/
def exBegin (e : SubtestEnd) : List Ev :=
  [.call .upgrade (.ok none), .emit .startCloser, .call .uuid (.ok (.ok (str "u"))), .emit (.connection (str "download") (str "result")),
   .call .remoteAddr (.ok none), .call .localAddr (.ok none), .clock 5,
   .emit (.flowCreated 5 (str "u") { srcIP := str "::1", dstIP := str "::1", sPort := 1, dPort := 1, cookie := -1 }),
   .call (.subtest .download (some ⟨false, 0⟩)) (.ok e)]

/-- The end of a download. -/
def exEnd : List Ev :=
  [.clock 7, .clock 7, .call (.mkdirAll (str "/d/ndt7/2020/01/01")) (.ok none), .call (.openExcl exPath) (.ok none),
   .call (.write exPath false exRecord) (.ok none), .call (.fileClose exPath) (.ok none), .emit (.flowDeleted 7 (str "u")), .emit .cancel]

/-- A download that crashes. -/
theorem exCrash : Exec (runMeasurement exServer .download exRequest) {} (exBegin { crash := some (str "boom") } ++ exEnd)
    (.panic (str "boom")) exRecord := by follow

/-- A download that fails without having measured anything. -/
theorem exFailed : Exec (runMeasurement exServer .download exRequest) {} (exBegin { err := some (str "e") } ++
    [.call .localText (.ok (str "[::1]:443")), .emit (.testResult (str "ndt7+wss") (str "download") (str "error-without-rate"))] ++ exEnd)
    (.ok ()) exRecord := by follow

/-- A download whose result cannot be written. -/
theorem exNoDisk : Exec (runMeasurement exServer .download exRequest) {} (exBegin { crash := some (str "boom") } ++
    [.clock 7, .clock 7, .call (.mkdirAll (str "/d/ndt7/2020/01/01")) (.ok (some (str "read-only"))),
     .emit (.exit (str "results.NewFile failed")), .emit .cancel])
    (.panic (str "results.NewFile failed")) exRecord := by follow

/-- C40 with a crash: the hypotheses hold and the file is there. -/
example : SetupOk (exBegin { crash := some (str "boom") } ++ exEnd) ∧ NoExit (exBegin { crash := some (str "boom") } ++ exEnd) ∧
    (directionText .download, str "result") ∈ statuses (exBegin { crash := some (str "boom") } ++ exEnd) := by
  simp [exBegin, exEnd, atSetup, Subtest.name, directionText]

/-- C40 is violated when the file system refuses the file: the process ends, and a request counted as "result" has no file and no
flow-deleted event. -/
theorem C40_one_file_and_flow_false : ¬ ∀ (h : Server) (kind : Subtest) (req : Request) (evs : List Ev) (out : Outcome Unit) (s' : Result),
    QueryOk req → Exec (runMeasurement h kind req) {} evs out s' → SetupOk evs → (directionText kind, str "result") ∈ statuses evs →
    ∃ path r, .wrote path r ∈ marks evs := by
  intro H
  obtain ⟨path, r, hr⟩ := H _ _ _ _ _ _ exRequest_ok exNoDisk (by simp [exBegin, atSetup]) (by simp [exBegin, Subtest.name, directionText])
  simp [exBegin] at hr

end Verif.Props
