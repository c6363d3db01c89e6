import Mathlib.Tactic.IntervalCases
import Mathlib.Data.List.Forall2
import Verif.Go.JsonLemmas
import Verif.Go.QueryLemmas
import Verif.Props.Ndt7Handler

/-!
# C87: the query string of an ndt7 request
-/

namespace Verif.Props
open Verif.Go Verif.Ndt7 Verif.Spec

variable {h : Server} {kind : Subtest} {req : Request} {evs : List Ev} {out : Outcome Unit} {s' : Result} {raw : Bytes}

/-- The request has this query string (`URL.RawQuery`): each loop of the handler enumerates the map made from it in some order. -/
structure FromRaw (raw : Bytes) (req : Request) : Prop where
  first : req.query.Perm (urlQuery raw)
  second : req.query2.Perm (urlQuery raw)

private theorem urlQuery_wf (raw : Bytes) : Query.WF (urlQuery raw) := ⟨urlQuery_nodup raw, urlQuery_nonempty⟩

/-- What C37 to C41 assume of the query holds for every query string. -/
theorem FromRaw.ok (hr : FromRaw raw req) : QueryOk req :=
  ⟨⟨(hr.first.map Prod.fst).nodup_iff.2 (urlQuery_nodup raw), fun e he => urlQuery_nonempty e (hr.first.mem_iff.1 he)⟩, hr.first.trans hr.second.symm⟩

theorem FromRaw.first_iff (hr : FromRaw raw req) {n v : Bytes} : FirstValue req.query n v ↔ Gives raw n v := by
  rw [← mem_urlQuery_cons]
  simp only [FirstValue, hr.first.mem_iff]

/-- C87: every name has at most one first value. -/
theorem C87_gives_unique {n v w : Bytes} (hv : Gives raw n v) (hw : Gives raw n w) : v = w := by
  have hr : FromRaw raw ⟨urlQuery raw, urlQuery raw, []⟩ := ⟨.refl _, .refl _⟩
  exact first_unique (urlQuery_wf raw) (mem_urlQuery_cons.2 hv) (mem_urlQuery_cons.2 hw)

theorem FromRaw.absent_iff (hr : FromRaw raw req) {n : Bytes} : Absent req.query n ↔ GivesNone raw n := by
  obtain ⟨ps, hps⟩ := pieces_exist raw
  constructor
  · intro ha qs hqs p hp v hv
    obtain rfl := pieces_unique hps hqs
    have hm := mem_pairsOf.2 ⟨p, hp, hv⟩
    have hvs : valuesFor n (pairsOf ps) ≠ [] := by
      intro he
      simp only [valuesFor, List.map_eq_nil_iff, List.filter_eq_nil_iff, decide_eq_true_eq] at he
      exact he _ hm rfl
    have := (Values.mem_addAll_nil (pairsOf ps)).2 ⟨rfl, hvs⟩
    rw [← urlQuery_eq hps] at this
    exact ha _ (hr.first.mem_iff.2 this) rfl
  · intro hg e he hn
    obtain ⟨n', vs⟩ := e
    cases hn
    have := hr.first.mem_iff.1 he
    rw [urlQuery_eq hps, Values.mem_addAll_nil] at this
    obtain ⟨rfl, h2⟩ := this
    cases hv : valuesFor n' (pairsOf ps) with
    | nil => exact h2 hv
    | cons v rest =>
      obtain ⟨b, p, a, rfl, h1, -⟩ := pairsOf_split.1 (valuesFor_eq_cons.1 ⟨rest, hv⟩)
      exact hg _ hps p (by simp) v h1

/-- C87: the record holds, for every parameter of the query string whose name does not start with `server_`, its name and first value as the client meant them,
and nothing else. -/
theorem C87_metadata_stored (hr : FromRaw raw req) (he : Exec (runMeasurement h kind req) {} evs out s') (hs : SetupOk evs) (hx : NoExit evs)
    {path : Bytes} {r : Result} {d : ArchivalData} (hw : .wrote path r ∈ marks evs) (hd : under kind r = some d) :
    (∀ n v, (⟨n, v⟩ : Ndt5.NameValue) ∈ d.clientMetadata ↔ Gives raw n v ∧ ¬ str "server_" <+: n) ∧ (d.clientMetadata.map (·.name)).Nodup := by
  have := C38_metadata_stored hr.ok he hs hx hw hd
  exact ⟨fun n v => by rw [this.entries, hr.first_iff], this.once⟩

/-- C87: a request is refused before the upgrade if its query string gives `early_exit` another value than 250. -/
theorem C87_refused (hr : FromRaw raw req) (he : Exec (runMeasurement h kind req) {} evs out s') {v : Bytes}
    (hv : Gives raw (str "early_exit") v) (hx : v ≠ str "250") : evs = [.emit (.respond 400)] :=
  C37_refused_before_upgrade hr.ok he (hr.first_iff.2 hv) hx

/-- C87: every other request with the subprotocol is upgraded, however its query string looks. -/
theorem C87_upgraded (hr : FromRaw raw req) (he : Exec (runMeasurement h kind req) {} evs out s')
    (hv : GivesNone raw (str "early_exit") ∨ Gives raw (str "early_exit") (str "250"))
    (hp : req.protocol = str "net.measurementlab.ndt.v7") : ∃ r rest, evs = .call .upgrade r :: rest :=
  C37_accepted_upgraded hr.ok he (hv.imp hr.absent_iff.2 hr.first_iff.2) hp

/-- C87: the download sender stops early exactly if the query string asks for it. -/
theorem C87_download_parameters (hr : FromRaw raw req) (he : Exec (runMeasurement h .download req) {} evs out s')
    {k : Subtest} {p : Option Params} {r : Outcome (Call.subtest k p).Answer} (hc : .call (.subtest k p) r ∈ evs) :
    (p = some ⟨true, 250000000⟩ ∧ Gives raw (str "early_exit") (str "250")) ∨ (p = some ⟨false, 0⟩ ∧ GivesNone raw (str "early_exit")) := by
  rcases (C37_download_parameters hr.ok he hc).2 with ⟨h1, h2⟩ | ⟨h1, h2⟩
  · exact .inl ⟨h1, hr.first_iff.1 h2⟩
  · exact .inr ⟨h1, hr.absent_iff.1 h2⟩

/-! ## A client can send any names and values -/

/-- The query string a client builds from URL-encoded names and values. -/
def queryString : List (Bytes × Bytes) → Bytes
  | [] => []
  | [(a, b)] => a ++ 61 :: b
  | (a, b) :: rest => a ++ 61 :: b ++ 38 :: queryString rest

private theorem queryString_pieces (es : List (Bytes × Bytes)) (hne : es ≠ []) (h38 : ∀ e ∈ es, 38 ∉ e.1 ∧ 38 ∉ e.2) :
    Pieces (queryString es) (es.map fun e => e.1 ++ 61 :: e.2) := by
  induction es with
  | nil => exact absurd rfl hne
  | cons e es ih =>
    obtain ⟨a, b⟩ := e
    have h1 := h38 (a, b) (by simp)
    have hp : (38 : UInt8) ∉ a ++ 61 :: b := by simp [h1.1, h1.2]
    cases es with
    | nil => exact .last hp
    | cons e' es => exact .more hp (ih (by simp) fun e he => h38 e (by simp [he]))

/-- The first pair is a URL-encoded form of the second one in which `&`, `;` and, in the name, `=` are encoded. -/
structure EncodedPair (e nv : Bytes × Bytes) : Prop where
  name : UrlEncoded e.1 nv.1
  value : UrlEncoded e.2 nv.2
  noEq : 61 ∉ e.1
  noAmp : 38 ∉ e.1 ∧ 38 ∉ e.2
  noSemi : 59 ∉ e.1 ∧ 59 ∉ e.2

private theorem pairs_encoded {es nvs : List (Bytes × Bytes)} (henc : List.Forall₂ EncodedPair es nvs) :
    pairsOf (es.map fun e => e.1 ++ 61 :: e.2) = nvs := by
  induction henc with
  | nil => rfl
  | @cons e nv es nvs h _ ih =>
    have : queryPair (e.1 ++ 61 :: e.2) = some (some (nv.1, nv.2)) :=
      queryPair_some.2 ⟨by simp [h.noSemi.1, h.noSemi.2], by simp, e.1, e.2, h.name, h.value, h.noEq, .inl rfl⟩
    rw [← ih]
    simp [pairsOf, this]

/-- C87: whatever names and values a client encodes, the server takes them for exactly these names and values: a name has the value that the client gave it first. -/
theorem C87_encoded_arrives {es nvs : List (Bytes × Bytes)} (henc : List.Forall₂ EncodedPair es nvs) (n v : Bytes) :
    Gives (queryString es) n v ↔ ∃ before after, nvs = before ++ (n, v) :: after ∧ ∀ nv ∈ before, nv.1 ≠ n := by
  cases es with
  | nil =>
    cases henc
    constructor
    · rintro ⟨b, p, a, h1, h2, h3⟩
      have := pieces_unique h1 (.last (p := queryString []) (by simp [queryString]))
      cases b with
      | nil => simp at this; exact absurd this.1 h2.2.1
      | cons x b => simp at this
    · rintro ⟨b, a, h, _⟩; simp at h
  | cons e es =>
    have hps := queryString_pieces (e :: es) (by simp) (by
      clear n v
      generalize e :: es = xs at henc
      induction henc with
      | nil => simp
      | cons h _ ih =>
        intro x hx
        simp at hx
        rcases hx with rfl | hx
        · exact h.noAmp
        · exact ih x hx)
    rw [← mem_urlQuery_cons, urlQuery_eq hps]
    simp only [Values.mem_addAll_nil, pairs_encoded henc]
    rw [← valuesFor_eq_cons]
    constructor
    · rintro ⟨rest, h, -⟩; exact ⟨rest, h.symm⟩
    · rintro ⟨rest, h⟩; exact ⟨rest, h.symm, by simp⟩

/-- C87: every pair of byte strings has such a form, so that a client can send whatever it wants. -/
theorem C87_all_encodable (nv : Bytes × Bytes) : ∃ e, EncodedPair e nv := by
  have key : ∀ s : Bytes, ∃ t, UrlEncoded t s ∧ 61 ∉ t ∧ 38 ∉ t ∧ 59 ∉ t := by
    have dig : ∀ x, x < 16 → ∃ a, IsHex a x ∧ a ≠ 61 ∧ a ≠ 38 ∧ a ≠ 59 := by
      intro x hx
      refine ⟨hexDigit x, hexVal_iff.1 (hexVal_hexDigit hx), ?_⟩
      interval_cases x <;> decide
    intro s
    induction s with
    | nil => exact ⟨[], .nil, by simp⟩
    | cons c s ih =>
      obtain ⟨t, h1, h2, h3, h4⟩ := ih
      obtain ⟨a, ha, ha1, ha2, ha3⟩ := dig (c.toNat / 16) (by have := c.toNat_lt; omega)
      obtain ⟨b, hb, hb1, hb2, hb3⟩ := dig (c.toNat % 16) (by omega)
      refine ⟨37 :: a :: b :: t, ?_, ?_⟩
      · have := UrlEncoded.byte ha hb h1
        rwa [show c.toNat / 16 * 16 + c.toNat % 16 = c.toNat by omega, UInt8.ofNat_toNat] at this
      · simp only [List.mem_cons, not_or]
        exact ⟨⟨by decide, ha1.symm, hb1.symm, h2⟩, ⟨by decide, ha2.symm, hb2.symm, h3⟩, ⟨by decide, ha3.symm, hb3.symm, h4⟩⟩
  obtain ⟨a, a1, a2, a3, a4⟩ := key nv.1
  obtain ⟨b, b1, b2, b3, b4⟩ := key nv.2
  exact ⟨(a, b), a1, b1, a2, ⟨a3, b3⟩, ⟨a4, b4⟩⟩

/-! ## What is not refused -/

/-- A request with the given query string and the subprotocol. -/
def rawRequest (raw : Bytes) : Request := ⟨urlQuery raw, urlQuery raw, str "net.measurementlab.ndt.v7"⟩

theorem rawRequest_from (raw : Bytes) : FromRaw raw (rawRequest raw) := ⟨.refl _, .refl _⟩

/-- Such a request whose upgrade fails. -/
theorem rawRequest_exec (raw : Bytes) (hv : validateEarlyExit (urlQuery raw) = .ok (.ok ⟨false, 0⟩)) :
    Exec (runMeasurement exServer .download (rawRequest raw)) {} [.call .upgrade (.ok (some (str "e"))), .emit (.connection (str "download") (str "websocket-error"))]
      (.ok ()) {} := by
  unfold runMeasurement
  rw [show (rawRequest raw).query = urlQuery raw from rfl, hv, show (rawRequest raw).protocol = str "net.measurementlab.ndt.v7" from rfl]
  follow

private theorem long_query (n : Nat) : urlQuery (List.replicate (n + 1) 97) = [(List.replicate (n + 1) 97, [[]])] := by
  have henc : ∀ n, UrlEncoded (List.replicate n 97) (List.replicate n 97) := by
    intro n
    induction n with
    | zero => exact .nil
    | succ n ih => exact .plain (by decide) (by decide) ih
  have hp : queryPair (List.replicate (n + 1) 97) = some (some (List.replicate (n + 1) 97, [])) :=
    queryPair_some.2 ⟨by simp, by simp, _, _, henc _, .nil, by simp, .inr ⟨rfl, rfl⟩⟩
  rw [urlQuery_eq (.last (by simp))]
  simp [pairsOf, hp, Values.addAll, Values.add]

/-- C87 is violated in one respect: the protocol demands that the upgrade fails if the query string is not parseable, but it is tried. -/
theorem C87_malformed_refused_false : ¬ ∀ (h : Server) (kind : Subtest) (raw : Bytes) (req : Request) (evs : List Ev) (out : Outcome Unit) (s' : Result),
    FromRaw raw req → Exec (runMeasurement h kind req) {} evs out s' → ¬ WellFormedQuery raw → ¬ Upgrades evs := by
  intro H
  have hu : urlQuery (str "a=%zz") = [] := by decide +kernel
  refine H _ _ (str "a=%zz") _ _ _ _ (rawRequest_from _) (rawRequest_exec (str "a=%zz") (by rw [hu]; rfl)) ?_ ⟨_, List.mem_cons_self⟩
  rw [← parseQuery_error]
  decide +kernel

/-- C87: nor is the length of the query string limited to 4096 bytes. -/
theorem C87_long_refused_false : ¬ ∀ (h : Server) (kind : Subtest) (raw : Bytes) (req : Request) (evs : List Ev) (out : Outcome Unit) (s' : Result),
    FromRaw raw req → Exec (runMeasurement h kind req) {} evs out s' → 4096 < raw.length → ¬ Upgrades evs := by
  intro H
  refine H _ _ (List.replicate (4096 + 1) 97) _ _ _ _ (rawRequest_from _) (rawRequest_exec _ ?_) (by rw [List.length_replicate]; omega) ⟨_, List.mem_cons_self⟩
  rw [long_query, validateEarlyExit, if_pos]
  · rfl
  · rw [List.replicate_succ]; intro h; cases h

/-- The example request of C40 has the query string `client_name=x`, and one with an escape; what is asked for is what is stored in `exRecord`. -/
example : FromRaw (str "client_name=x") exRequest ∧ FromRaw (str "client%5Fname=x&client_name=%") exRequest ∧ Gives (str "client_name=x") (str "client_name") (str "x") ∧
    GivesNone (str "client_name=x") (str "early_exit") := by
  have h1 : urlQuery (str "client_name=x") = exRequest.query := by decide +kernel
  have h2 : urlQuery (str "client%5Fname=x&client_name=%") = exRequest.query := by decide +kernel
  have hr : FromRaw (str "client_name=x") exRequest := ⟨h1 ▸ .refl _, h1 ▸ .refl _⟩
  refine ⟨hr, ⟨h2 ▸ .refl _, h2 ▸ .refl _⟩, hr.first_iff.1 ⟨[], by decide +kernel⟩, hr.absent_iff.1 ?_⟩
  unfold Absent
  decide +kernel

/-- A request that is refused. -/
example : Gives (str "a=b&early%5fexit=25%30&early_exit=300") (str "early_exit") (str "250") ∧ Gives (str "early_exit=300&early_exit=250") (str "early_exit") (str "300") :=
  ⟨mem_urlQuery_cons.1 ⟨[str "300"], by decide +kernel⟩, mem_urlQuery_cons.1 ⟨[str "250"], by decide +kernel⟩⟩

/-- Examples: escapes, an empty value, a repeated and an excluded name, a malformed piece that is skipped. -/
example : urlQuery (str "client+name=a%2Bb&x&&client%20name=c&server_x=1&bad=%2&early_exit=250") =
    [(str "client name", [str "a+b", str "c"]), (str "x", [[]]), (str "server_x", [str "1"]), (str "early_exit", [str "250"])] := by decide +kernel

end Verif.Props
