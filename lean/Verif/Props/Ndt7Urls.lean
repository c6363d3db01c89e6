import Verif.Web.Ndt7Urls
import Verif.Spec.Ndt7Urls
import Verif.Props.Query
import Verif.Props.GoodTest

/-!
# C103: the metadata of a page's ndt7 test
-/

namespace Verif.Props
open Verif.Go Verif.Ndt7 Verif.Spec Verif.Web

variable {user ps : JsObj}

/-! ## The object -/

private theorem mem_set {n v : Bytes} {ps : JsObj} (hn : (ps.map Prod.fst).Nodup) {m w : Bytes} :
    (m, w) ∈ ps.set n v ↔ if m = n then w = v else (m, w) ∈ ps := by
  induction ps with
  | nil => simp only [JsObj.set]; split <;> simp_all
  | cons p ps ih =>
    obtain ⟨a, b⟩ := p
    simp only [List.map_cons, List.nodup_cons] at hn
    have ih := ih hn.2
    simp only [JsObj.set]
    by_cases ha : a = n
    · subst ha
      rw [if_pos rfl]
      by_cases hm : m = a
      · subst hm
        simp only [List.mem_cons, Prod.mk.injEq, true_and, if_true]
        refine ⟨fun h => h.resolve_right fun h' => hn.1 (List.mem_map.2 ⟨_, h', rfl⟩), .inl⟩
      · simp [hm]
    · rw [if_neg ha]
      by_cases hm : m = n
      · subst hm
        have : m ≠ a := fun h => ha h.symm
        rw [List.mem_cons, ih]; simp [this]
      · rw [List.mem_cons, ih]; simp [hm]

private theorem names_set {n v : Bytes} {ps : JsObj} : ∀ m, m ∈ (ps.set n v).map Prod.fst ↔ m = n ∨ m ∈ ps.map Prod.fst := by
  induction ps with
  | nil => intro m; simp [JsObj.set]
  | cons p ps ih =>
    intro m
    simp only [JsObj.set]
    split
    · rename_i h; subst h; simp
    · rw [List.map_cons, List.mem_cons, ih m, List.map_cons, List.mem_cons]
      constructor
      · rintro (h | h | h) <;> simp [h]
      · rintro (h | h | h) <;> simp [h]

private theorem nodup_set {n v : Bytes} {ps : JsObj} (hn : (ps.map Prod.fst).Nodup) : ((ps.set n v).map Prod.fst).Nodup := by
  induction ps with
  | nil => simp [JsObj.set]
  | cons p ps ih =>
    obtain ⟨a, b⟩ := p
    simp only [JsObj.set]
    split
    · exact hn
    · rename_i h
      simp only [List.map_cons, List.nodup_cons] at hn ⊢
      refine ⟨fun hm => ?_, ih hn.2⟩
      rcases (names_set a).1 hm with h' | h'
      · exact h h'
      · exact hn.1 h'

private theorem nodup_assign {src t : JsObj} (hn : (t.map Prod.fst).Nodup) : ((t.assign src).map Prod.fst).Nodup := by
  induction src generalizing t with
  | nil => exact hn
  | cons p src ih => exact ih (nodup_set hn)

private theorem mem_assign {src t : JsObj} (hn : (t.map Prod.fst).Nodup) (hs : (src.map Prod.fst).Nodup) {m w : Bytes} :
    (m, w) ∈ t.assign src ↔ (m, w) ∈ src ∨ (m, w) ∈ t ∧ m ∉ src.map Prod.fst := by
  induction src generalizing t with
  | nil => simp [JsObj.assign]
  | cons p src ih =>
    obtain ⟨a, b⟩ := p
    simp only [List.map_cons, List.nodup_cons] at hs
    have := ih (t := t.set a b) (nodup_set hn) hs.2
    rw [show t.assign ((a, b) :: src) = (t.set a b).assign src from rfl, this, mem_set hn]
    by_cases hm : m = a
    · subst hm
      have : ∀ x, (m, x) ∉ src := fun x hx => hs.1 (List.mem_map.2 ⟨_, hx, rfl⟩)
      simp [this, hs.1]
    · simp [hm]

private theorem nodup_page (user : JsObj) : ((pageMetadata user).map Prod.fst).Nodup := nodup_assign (nodup_assign (by simp))

private theorem mem_page (hu : (user.map Prod.fst).Nodup) {n v : Bytes} : (n, v) ∈ pageMetadata user ↔ Meant user n v := by
  have hd : str "client_library_name" ≠ str "client_library_version" := by decide
  rw [pageMetadata, mem_assign (nodup_assign (by simp)) (by decide), mem_assign (by simp) hu]
  simp only [staticMetadata, List.mem_cons, Prod.mk.injEq, List.not_mem_nil, or_false, false_and, List.map_cons, List.map_nil, not_or, Meant]
  by_cases h1 : n = str "client_library_name"
  · subst h1; simp [hd]
  · by_cases h2 : n = str "client_library_version"
    · subst h2; simp [hd.symm]
    · simp [h1, h2]

/-! ## Its text -/

private theorem hex_upper {x : Nat} (hx : x < 16) : IsHex (upperHex x) x ∧ upperHex x ≠ 61 ∧ upperHex x ≠ 38 ∧ upperHex x ≠ 59 ∧ 33 ≤ upperHex x ∧ upperHex x ≤ 126 ∧ upperHex x ≠ 35 := by
  unfold IsHex
  interval_cases x <;> decide

/-- A byte of an encoded text: printable ASCII, and none of those that have a meaning in a URL or a query string. -/
private def QuietByte (b : UInt8) : Prop := b ≠ 61 ∧ b ≠ 38 ∧ b ≠ 59 ∧ 33 ≤ b ∧ b ≤ 126 ∧ b ≠ 35

private theorem plain_quiet {b : UInt8} (h : formPlain b = true) : QuietByte b ∧ b ≠ 37 ∧ b ≠ 43 := by
  have key : ∀ b : UInt8, formPlain b = true → (b ≠ 61 ∧ b ≠ 38 ∧ b ≠ 59 ∧ 33 ≤ b ∧ b ≤ 126 ∧ b ≠ 35) ∧ b ≠ 37 ∧ b ≠ 43 := by
    intro b
    obtain ⟨b⟩ := b
    revert b
    decide +kernel
  exact key b h

private theorem encode_ok (s : Bytes) : UrlEncoded (formEncode s) s ∧ ∀ b ∈ formEncode s, QuietByte b := by
  induction s with
  | nil => exact ⟨.nil, by simp [formEncode]⟩
  | cons c s ih =>
    obtain ⟨h1, h2⟩ := ih
    simp only [formEncode]
    split
    · rename_i hp
      obtain ⟨hq, h37, h43⟩ := plain_quiet hp
      refine ⟨.plain h37 h43 h1, ?_⟩
      simp only [List.cons_append, List.nil_append, List.mem_cons]
      rintro b (rfl | hb)
      · exact hq
      · exact h2 b hb
    · split
      · rename_i hc; subst hc
        refine ⟨.space h1, ?_⟩
        simp only [List.cons_append, List.nil_append, List.mem_cons]
        rintro b (rfl | hb)
        · unfold QuietByte; decide
        · exact h2 b hb
      · obtain ⟨ha, ha'⟩ := hex_upper (x := c.toNat / 16) (by have := c.toNat_lt; omega)
        obtain ⟨hb, hb'⟩ := hex_upper (x := c.toNat % 16) (by omega)
        refine ⟨?_, ?_⟩
        · have := UrlEncoded.byte ha hb h1
          rwa [show c.toNat / 16 * 16 + c.toNat % 16 = c.toNat by omega, UInt8.ofNat_toNat] at this
        · simp only [List.cons_append, List.nil_append, List.mem_cons]
          rintro b (rfl | rfl | rfl | hb)
          · unfold QuietByte; decide
          · exact ha'
          · exact hb'
          · exact h2 b hb

private theorem searchParams_eq (ps : JsObj) : searchParams ps = queryString (ps.map fun p => (formEncode p.1, formEncode p.2)) := by
  induction ps with
  | nil => rfl
  | cons p ps ih =>
    cases ps with
    | nil => rfl
    | cons q ps =>
      simp only [searchParams, List.map_cons, queryString] at ih ⊢
      rw [ih]

private theorem encoded_pairs (ps : JsObj) : List.Forall₂ EncodedPair (ps.map fun p => (formEncode p.1, formEncode p.2)) ps := by
  induction ps with
  | nil => exact .nil
  | cons p ps ih =>
    obtain ⟨a1, a2⟩ := encode_ok p.1
    obtain ⟨b1, b2⟩ := encode_ok p.2
    exact .cons ⟨a1, b1, fun h => (a2 _ h).1 rfl, ⟨fun h => (a2 _ h).2.1 rfl, fun h => (b2 _ h).2.1 rfl⟩, ⟨fun h => (a2 _ h).2.2.1 rfl, fun h => (b2 _ h).2.2.1 rfl⟩⟩ ih

/-- C103: the query string of the page's requests gives exactly the metadata of the user and of the library, whatever bytes there are in them and in whatever order the browser lists them. -/
theorem C103_query (hu : (user.map Prod.fst).Nodup) (hp : ps.Perm (pageMetadata user)) (n v : Bytes) : Gives (searchParams ps) n v ↔ Meant user n v := by
  rw [searchParams_eq, C87_encoded_arrives (encoded_pairs ps), ← mem_page hu, ← hp.mem_iff]
  have hn : (ps.map Prod.fst).Nodup := (hp.map Prod.fst).nodup_iff.2 (nodup_page user)
  constructor
  · rintro ⟨b, a, rfl, -⟩; simp
  · intro h
    obtain ⟨b, a, rfl⟩ := List.append_of_mem h
    refine ⟨b, a, rfl, fun nv hnv he => ?_⟩
    simp only [List.map_append, List.map_cons, List.nodup_append, List.nodup_cons] at hn
    exact hn.2.2 _ (List.mem_map_of_mem hnv) _ List.mem_cons_self he

private theorem searchParams_bytes (ps : JsObj) : ∀ b ∈ searchParams ps, 33 ≤ b ∧ b ≤ 126 ∧ b ≠ 35 := by
  induction ps with
  | nil => simp [searchParams]
  | cons p ps ih =>
    obtain ⟨n, v⟩ := p
    have hn := (encode_ok n).2
    have hv := (encode_ok v).2
    cases ps with
    | nil =>
      simp only [searchParams, List.mem_append, List.mem_cons]
      rintro b (h | rfl | h)
      · exact (hn b h).2.2.2
      · decide
      · exact (hv b h).2.2.2
    | cons q ps =>
      simp only [searchParams, List.append_assoc, List.mem_append, List.mem_cons, List.cons_append] at ih ⊢
      rintro b (h | rfl | h | rfl | h)
      · exact (hn b h).2.2.2
      · decide
      · exact (hv b h).2.2.2
      · decide
      · exact ih b h

/-- C103: the two URLs are those of the two tests at the server, with this query string, in which nothing would end it (a space, a control character or `#`) or would have to be encoded again. -/
theorem C103_urls (protocol server : Bytes) (ps : JsObj) : ∃ q,
    serverURLs protocol server ps = (protocol ++ str "://" ++ server ++ str "/ndt/v7/download?" ++ q, protocol ++ str "://" ++ server ++ str "/ndt/v7/upload?" ++ q) ∧
    q = searchParams ps ∧ ∀ b ∈ q, 33 ≤ b ∧ b ≤ 126 ∧ b ≠ 35 := by
  refine ⟨_, ?_, rfl, searchParams_bytes ps⟩
  have h1 : str "/ndt/v7/download?" = str "/ndt/v7/download" ++ str "?" := by decide
  have h2 : str "/ndt/v7/upload?" = str "/ndt/v7/upload" ++ str "?" := by decide
  simp only [serverURLs, h1, h2, List.append_assoc]

/-! ## At the server -/

variable {h : Server} {kind : Subtest} {req : Request} {evs : List Ev} {out : Outcome Unit} {s' : Result}

private theorem early_none (hu : (user.map Prod.fst).Nodup) (hp : ps.Perm (pageMetadata user)) (hx : str "early_exit" ∉ user.map Prod.fst) : GivesNone (searchParams ps) (str "early_exit") := by
  intro qs hqs p hpm v hv
  have : ∃ w, Gives (searchParams ps) (str "early_exit") w := by
    have hm := mem_pairsOf.2 ⟨p, hpm, hv⟩
    cases hvs : valuesFor (str "early_exit") (pairsOf qs) with
    | nil =>
      simp only [valuesFor, List.map_eq_nil_iff, List.filter_eq_nil_iff, decide_eq_true_eq] at hvs
      exact (hvs _ hm rfl).elim
    | cons w rest =>
      obtain ⟨b, q, a, rfl, h1, h2⟩ := pairsOf_split.1 (valuesFor_eq_cons.1 ⟨rest, hvs⟩)
      exact ⟨w, b, q, a, hqs, h1, h2⟩
  obtain ⟨w, hw⟩ := this
  rw [C103_query hu hp, Meant, if_neg (by decide), if_neg (by decide)] at hw
  exact hx (List.mem_map.2 ⟨_, hw, rfl⟩)

/-- C103: the server accepts the requests of the page: if the user's metadata do not ask for an early exit, or for the documented one, and the machine does its part, each is counted as "result" and nothing else, gets no error
response, and its subtest runs, with the early exit exactly if it was asked for. -/
theorem C103_accepted (hu : (user.map Prod.fst).Nodup) (hp : ps.Perm (pageMetadata user)) (hr : FromRaw (searchParams ps) req) (hs : req.protocol = Web.subprotocol)
    (hx : ∀ v, (str "early_exit", v) ∈ user → v = str "250") (he : Exec (runMeasurement h kind req) {} evs out s') (hw : ∀ x ∈ evs, requestWorked x) :
    statuses evs = [(directionText kind, str "result")] ∧ responses evs = [] ∧
      ∃ x, subtests evs = [(kind, paramsFor kind (if str "early_exit" ∈ user.map Prod.fst then ⟨true, 250000000⟩ else ⟨false, 0⟩), x)] := by
  refine C95_request hr.ok he hs ?_ hw
  split
  · rename_i hm
    obtain ⟨⟨n, v⟩, hv, rfl⟩ := List.mem_map.1 hm
    refine .inr ⟨?_, rfl⟩
    rw [hx v hv] at hv
    rw [hr.first_iff, C103_query hu hp, Meant, if_neg (by decide), if_neg (by decide)]
    exact hv
  · rename_i hm
    exact .inl ⟨hr.absent_iff.2 (early_none hu hp hm), rfl⟩

/-- C103: and the record of the test holds exactly the user's metadata and those of the library, each name once, but for names that start with `server_`. -/
theorem C103_stored (hu : (user.map Prod.fst).Nodup) (hp : ps.Perm (pageMetadata user)) (hr : FromRaw (searchParams ps) req)
    (he : Exec (runMeasurement h kind req) {} evs out s') (hs : SetupOk evs) (hx : NoExit evs) {path : Bytes} {r : Result} {d : ArchivalData} (hw : .wrote path r ∈ marks evs) (hd : under kind r = some d) :
    (∀ n v, (⟨n, v⟩ : Ndt5.NameValue) ∈ d.clientMetadata ↔ Meant user n v ∧ ¬ str "server_" <+: n) ∧ (d.clientMetadata.map (·.name)).Nodup := by
  obtain ⟨h1, h2⟩ := C87_metadata_stored hr he hs hx hw hd
  exact ⟨fun n v => by rw [h1, C103_query hu hp], h2⟩

/-- C103: a user who asks for another early exit gets the error 400 and no test. -/
theorem C103_refused (hu : (user.map Prod.fst).Nodup) (hp : ps.Perm (pageMetadata user)) (hr : FromRaw (searchParams ps) req) {v : Bytes} (hv : (str "early_exit", v) ∈ user) (hx : v ≠ str "250")
    (he : Exec (runMeasurement h kind req) {} evs out s') : evs = [.emit (.respond 400)] := by
  refine C87_refused hr he ((C103_query hu hp _ v).2 ?_) hx
  rw [Meant, if_neg (by decide), if_neg (by decide)]
  exact hv

/-! ## Examples -/

/-- The metadata of html/ndt7.html:37-39. -/
def shippedMetadata : JsObj := [(str "client_name", str "ndt-server-example")]

/-- Its query string. -/
example : searchParams (pageMetadata shippedMetadata) = str "client_name=ndt-server-example&client_library_name=ndt7-js&client_library_version=0.0.6" ∧ (shippedMetadata.map Prod.fst).Nodup := by decide +kernel

/-- A user who tries to replace the name of the library, and uses characters with a meaning. -/
example : searchParams (pageMetadata [(str "client_library_name", str "mine"), (str "a&b=c", str "x y;" ++ [195, 169])]) = str "client_library_name=ndt7-js&a%26b%3Dc=x+y%3B%C3%A9&client_library_version=0.0.6" := by decide +kernel

/-- A request of the shipped page, that the server upgrades. -/
example : FromRaw (searchParams (pageMetadata shippedMetadata)) (rawRequest (searchParams (pageMetadata shippedMetadata))) ∧ (rawRequest (searchParams (pageMetadata shippedMetadata))).protocol = Web.subprotocol ∧
    ∃ evs out s', Exec (runMeasurement exServer .download (rawRequest (searchParams (pageMetadata shippedMetadata)))) {} evs out s' ∧ Upgrades evs := by
  refine ⟨rawRequest_from _, rfl, _, _, _, rawRequest_exec _ ?_, _, List.mem_cons_self⟩
  have : urlQuery (searchParams (pageMetadata shippedMetadata)) = [(str "client_name", [str "ndt-server-example"]), (str "client_library_name", [str "ndt7-js"]), (str "client_library_version", [str "0.0.6"])] := by decide +kernel
  rw [this]; rfl

end Verif.Props
