import Verif.Spec.Discovery
import Verif.Props.Ndt7Urls
import Verif.Go.JsonEq

/-!
# C108: how the ndt7 page code finds a server
-/

namespace Verif.Props
open Verif.Go Verif.Spec Verif.Web

variable {f : Finding} {ps : JsObj} {answer : LbAnswer}

/-! ## Members of objects -/

private theorem lastMember_some {name : Bytes} {kvs : List (Bytes × Json)} {v : Json} :
    lastMember name kvs = some v ↔ ∃ before after, kvs = before ++ (name, v) :: after ∧ ∀ kv ∈ after, kv.1 ≠ name := by
  unfold lastMember
  induction kvs using List.reverseRecOn with
  | nil => simp
  | append_singleton l x ih =>
    rw [List.filter_append]
    by_cases hx : x.1 = name
    · simp only [List.filter_cons, hx, decide_true, if_true, List.filter_nil, List.getLast?_append, List.getLast?_singleton, Option.some_or, Option.map_some, Option.some.injEq]
      constructor
      · rintro rfl
        exact ⟨l, [], by rw [← hx], by simp⟩
      · rintro ⟨before, after, h, ha⟩
        rcases List.eq_nil_or_concat after with rfl | ⟨as, a, rfl⟩
        · have := (List.append_inj' h rfl).2
          simp at this
          rw [this]
        · have h2 : l ++ [x] = (before ++ (name, v) :: as) ++ [a] := by rw [h]; simp
          have := (List.append_inj' h2 rfl).2
          simp at this
          exact absurd (this ▸ hx) (ha a (by simp))
    · simp only [List.filter_cons, hx, decide_false, Bool.false_eq_true, if_false, List.filter_nil, List.append_nil]
      rw [ih]
      constructor
      · rintro ⟨before, after, rfl, ha⟩
        refine ⟨before, after ++ [x], by simp, ?_⟩
        intro kv hkv
        rcases List.mem_append.1 hkv with h | h
        · exact ha _ h
        · rw [List.mem_singleton.1 h]; exact hx
      · rintro ⟨before, after, h, ha⟩
        rcases List.eq_nil_or_concat after with rfl | ⟨as, a, rfl⟩
        · have := (List.append_inj' h rfl).2
          simp at this
          exact absurd (by rw [this]) hx
        · have h2 : l ++ [x] = (before ++ (name, v) :: as) ++ [a] := by rw [h]; simp
          exact ⟨before, as, (List.append_inj' h2 rfl).1, fun kv hkv => ha kv (by simp [hkv])⟩

private theorem propOf_member {name : Bytes} {j v : Json} : propOf name (some j) = some (some v) ↔ LastMember name j v := by
  cases j <;> simp [propOf, LastMember, lastMember_some]

private theorem hasMember_true {name : Bytes} {j : Json} : hasMember name j = some true ↔ ∃ v, LastMember name j v := by
  cases j <;> simp [hasMember, LastMember]
  rename_i kvs
  rw [Option.isSome_iff_exists]
  simp only [lastMember_some]
  simp

private theorem protocol_iff {p : Bytes} : Protocol f p ↔ protocolOf f = p := by
  unfold Protocol protocolOf
  cases f.protocol <;> simp [eq_comm]

private theorem balancer_iff {b : Bytes} : Balancer f b ↔ f.loadbalancer.getD (some locateURL) = some b := by
  unfold Balancer
  cases f.loadbalancer <;> simp [locateURL, eq_comm]

private theorem urlsOf_some {p : Bytes} {c : Option Json} {u : Urls} (h : urlsOf p c = some u) :
    ∃ choice urls, c = some choice ∧ propOf (str "urls") (some choice) = some (some urls) ∧
      propOf (p ++ str ":///ndt/v7/download") (some urls) = some u.download ∧ propOf (p ++ str ":///ndt/v7/upload") (some urls) = some u.upload := by
  unfold urlsOf at h
  cases hc : propOf (str "urls") c with
  | none => simp [hc] at h
  | some urls =>
    cases urls with
    | none =>
      simp only [hc] at h
      simp [propOf] at h
    | some urls =>
      simp only [hc] at h
      cases c with
      | none => simp [propOf] at hc
      | some choice =>
        split at h
        · rename_i d w h1 h2
          simp only [Option.some.injEq] at h
          subst h
          exact ⟨choice, urls, rfl, hc, h1, h2⟩
        · simp at h

/-! ## The property -/

/-- C108: with a server in the configuration nobody is asked: the URLs are those of the two tests at that server, for the protocol of the user and with the metadata of the user and of the library, and the user is told of no discovery. -/
theorem C108_server {server p : Bytes} (h : f.server = some server) (hp : Protocol f p) (hu : (f.metadata.map Prod.fst).Nodup) (ho : ps.Perm (pageMetadata f.metadata)) :
    ∃ q, discoverServerURLs f ps answer = ([], .returned ⟨some (.str (p ++ str "://" ++ server ++ str "/ndt/v7/download" ++ str "?" ++ q)), some (.str (p ++ str "://" ++ server ++ str "/ndt/v7/upload" ++ str "?" ++ q))⟩) ∧
      ∀ n v, Gives q n v ↔ Meant f.metadata n v := by
  rw [protocol_iff] at hp
  subst hp
  exact ⟨searchParams ps, by simp [discoverServerURLs, h, serverURLs], fun n v => C103_query hu ho n v⟩

/-- C108: without one, the load balancer of the user or else the locate service is asked once; the user is told of the request before it is made, and its query string gives exactly the metadata of the user and of the library. -/
theorem C108_asks {base : Bytes} (h : f.server = none) (hb : Balancer f base) (hu : (f.metadata.map Prod.fst).Nodup) (hp : ps.Perm (pageMetadata f.metadata)) :
    ∃ q rest, (discoverServerURLs f ps answer).1 = .discovery (base ++ str "?" ++ q) :: .fetch (base ++ str "?" ++ q) :: rest ∧ (∀ n v, Gives q n v ↔ Meant f.metadata n v) ∧
      ∀ e ∈ rest, (e = .error ∨ ∃ c, e = .chosen c) := by
  rw [balancer_iff] at hb
  refine ⟨searchParams ps, (readAnswer f answer).1, by simp [discoverServerURLs, h, hb], fun n v => C103_query hu hp n v, fun e he => ?_⟩
  unfold readAnswer at he
  split at he
  · simp at he
  · split at he
    · simp at he
    · split at he
      · simp at he
      · simp at he; exact .inl he
      · split at he
        · simp at he
        · split at he <;> simp at he <;> exact .inr ⟨_, he⟩

/-- C108: if the answer has results, the first one is chosen, and the user is told so; the URLs of the tests are those of this result for the protocol, whatever other results there are. -/
theorem C108_first {b p : Bytes} {base : Bytes} {js choice d u : Json} (h : f.server = none) (hb : Balancer f base) (hp : Protocol f p) (hj : parseJson b = some js) (hc : FirstResult js choice)
    (hd : UrlOf choice p (str "download") d) (hu : UrlOf choice p (str "upload") u) :
    ∃ asked, (discoverServerURLs f ps (.body b)) = (asked ++ [.chosen (some choice)], .returned ⟨some d, some u⟩) := by
  rw [balancer_iff] at hb
  rw [protocol_iff] at hp
  subst hp
  obtain ⟨rest, hr⟩ := hc
  obtain ⟨urls, h1, h2⟩ := hd
  obtain ⟨urls', h1', h3⟩ := hu
  rw [← propOf_member] at h1 h1' h2 h3
  rw [h1] at h1'
  simp only [Option.some.injEq] at h1'
  subst h1'
  have hm : hasMember (str "results") js = some true := hasMember_true.2 ⟨_, hr⟩
  rw [← propOf_member] at hr
  have e1 : protocolOf f ++ str ":///ndt/v7/" ++ str "download" = protocolOf f ++ str ":///ndt/v7/download" := by rw [List.append_assoc]; rfl
  have e2 : protocolOf f ++ str ":///ndt/v7/" ++ str "upload" = protocolOf f ++ str ":///ndt/v7/upload" := by rw [List.append_assoc]; rfl
  rw [e1] at h2
  rw [e2] at h3
  have hu : urlsOf (protocolOf f) (some choice) = some ⟨some d, some u⟩ := by simp only [urlsOf, h1, h2, h3]
  have hra : readAnswer f (.body b) = ([.chosen (some choice)], .returned ⟨some d, some u⟩) := by
    simp only [readAnswer, hj, hm, hr, Option.bind_some, firstOf, List.head?_cons, hu]
  refine ⟨[.discovery (base ++ str "?" ++ searchParams ps), .fetch (base ++ str "?" ++ searchParams ps)], ?_⟩
  simp only [discoverServerURLs, h, hb, hra, List.cons_append, List.nil_append]

/-- C108: a URL is never made up: if the discovery gives one without a server in the configuration, the load balancer has answered with a JSON document, and the URL is the one that the result of which the user was told has for the
protocol and the test; where the results are a list, that result is its first element. -/
theorem C108_only {p : Bytes} {urls : Urls} (h : f.server = none) (hp : Protocol f p) (hr : (discoverServerURLs f ps answer).2 = .returned urls) :
    (∀ test v, (test = str "download" ∧ urls.download = some v ∨ test = str "upload" ∧ urls.upload = some v) →
      ∃ b js rs choice, answer = .body b ∧ parseJson b = some js ∧ LastMember (str "results") js rs ∧ .chosen (some choice) ∈ (discoverServerURLs f ps answer).1 ∧ UrlOf choice p test v ∧
        ∀ l, rs = .arr l → ∃ rest, l = choice :: rest) := by
  rw [protocol_iff] at hp
  subst hp
  intro test v ht
  unfold discoverServerURLs at hr ⊢
  simp only [h] at hr ⊢
  cases hb : f.loadbalancer.getD (some locateURL) with
  | none => simp [hb] at hr
  | some base =>
    simp only [hb] at hr ⊢
    cases answer with
    | failed => simp [readAnswer] at hr
    | body b =>
      unfold readAnswer at hr ⊢
      cases hj : parseJson b with
      | none => simp [hj] at hr
      | some js =>
        simp only [hj] at hr ⊢
        cases hm : hasMember (str "results") js with
        | none => simp [hm] at hr
        | some has =>
          cases has with
          | false =>
            simp only [hm] at hr
            split at hr
            · simp only [Settled.returned.injEq] at hr
              subst hr
              simp at ht
            · simp at hr
          | true =>
            simp only [hm] at hr ⊢
            obtain ⟨rs, hrs⟩ := hasMember_true.1 hm
            rw [propOf_member.2 hrs, Option.bind_some] at hr ⊢
            cases hf : firstOf (some rs) with
            | none => simp [hf] at hr
            | some c =>
              simp only [hf] at hr ⊢
              cases hu : urlsOf (protocolOf f) c with
              | none => simp [hu] at hr
              | some us =>
                simp only [hu, Settled.returned.injEq] at hr ⊢
                subst hr
                obtain ⟨choice, w, rfl, k1, k2, k3⟩ := urlsOf_some hu
                refine ⟨b, js, rs, choice, rfl, hj, hrs, by simp, ⟨w, propOf_member.1 k1, ?_⟩, ?_⟩
                · rcases ht with ⟨rfl, ht⟩ | ⟨rfl, ht⟩
                  · rw [ht, propOf_member] at k2
                    rw [List.append_assoc]; exact k2
                  · rw [ht, propOf_member] at k3
                    rw [List.append_assoc]; exact k3
                · rintro l rfl
                  simp only [firstOf, Option.some.injEq] at hf
                  cases l with
                  | nil => simp at hf
                  | cons x l => simp at hf; exact ⟨l, by rw [hf]⟩

/-- C108: an answer without results, though a JSON object, is an error that the user is told; there are no URLs then. -/
theorem C108_no_results {b base : Bytes} {kvs : List (Bytes × Json)} (h : f.server = none) (hb : Balancer f base) (hj : parseJson b = some (.obj kvs)) (hl : Lacks (str "results") (.obj kvs)) :
    (∃ asked, (discoverServerURLs f ps (.body b)).1 = asked ++ [.error]) ∧
      ((discoverServerURLs f ps (.body b)).2 = .thrown ∨ (f.hasError = true ∧ (discoverServerURLs f ps (.body b)).2 = .returned ⟨none, none⟩)) := by
  rw [balancer_iff] at hb
  have hm : hasMember (str "results") (.obj kvs) = some false := by
    cases hx : hasMember (str "results") (.obj kvs) with
    | none => simp [hasMember] at hx
    | some x => cases x with
      | false => rfl
      | true => exact absurd (hasMember_true.1 hx) (by rintro ⟨v, hv⟩; exact hl v hv)
  refine ⟨⟨[.discovery (base ++ str "?" ++ searchParams ps), .fetch (base ++ str "?" ++ searchParams ps)], by simp [discoverServerURLs, h, hb, readAnswer, hj, hm]⟩, ?_⟩
  cases he : f.hasError <;> simp [discoverServerURLs, h, hb, readAnswer, hj, hm, he]

/-- C108: no answer, one that is not JSON, and an empty list of results make the discovery fail. -/
theorem C108_fails {base : Bytes} (h : f.server = none) (hb : Balancer f base)
    (ha : answer = .failed ∨ (∃ b, answer = .body b ∧ parseJson b = none) ∨ ∃ b js, answer = .body b ∧ parseJson b = some js ∧ LastMember (str "results") js (.arr [])) :
    (discoverServerURLs f ps answer).2 = .thrown := by
  rw [balancer_iff] at hb
  rcases ha with rfl | ⟨b, rfl, hj⟩ | ⟨b, js, rfl, hj, hm⟩
  · simp [discoverServerURLs, h, hb, readAnswer]
  · simp [discoverServerURLs, h, hb, readAnswer, hj]
  · have hx := hasMember_true.2 ⟨_, hm⟩
    rw [← propOf_member] at hm
    have hn : propOf (str "urls") none = none := rfl
    simp [discoverServerURLs, h, hb, readAnswer, hj, hx, hm, firstOf, urlsOf, hn]

/-- C108: and without a request, if the load balancer of the user is not a URL. -/
theorem C108_not_a_url (h : f.server = none) (hb : f.loadbalancer = some none) : discoverServerURLs f ps answer = ([], .thrown) := by
  simp [discoverServerURLs, h, hb]

/-! ## Concrete cases -/

/-- An answer with two results. -/
def twoResults : Bytes := str "{\"results\":[{\"machine\":\"a\",\"urls\":{\"wss:///ndt/v7/download\":\"wss://a/d?access_token=1\",\"wss:///ndt/v7/upload\":\"wss://a/u\"}},{\"machine\":\"b\",\"urls\":{}}]}"

/-- Its first result. -/
def firstOfTwo : Json := .obj [(str "machine", .str (str "a")), (str "urls", .obj [(str "wss:///ndt/v7/download", .str (str "wss://a/d?access_token=1")), (str "wss:///ndt/v7/upload", .str (str "wss://a/u"))])]

private theorem twoResults_json : parseJson twoResults = some (.obj [(str "results", .arr [firstOfTwo, .obj [(str "machine", .str (str "b")), (str "urls", .obj [])]])]) := parseJson_of_beq (by decide +kernel)

/-- The hypotheses of `C108_first` and `C108_asks`. -/
example : Protocol {} (str "wss") ∧ Balancer {} locateURL ∧ ∃ js, parseJson twoResults = some js ∧ FirstResult js firstOfTwo ∧ UrlOf firstOfTwo (str "wss") (str "download") (.str (str "wss://a/d?access_token=1")) ∧
    UrlOf firstOfTwo (str "wss") (str "upload") (.str (str "wss://a/u")) := by
  refine ⟨.inr ⟨rfl, rfl⟩, .inr ⟨rfl, rfl⟩, _, twoResults_json, ⟨_, [], [], rfl, by simp⟩, ⟨_, ⟨[_], [], rfl, by simp⟩, ⟨[], [_], rfl, ?_⟩⟩, ⟨_, ⟨[_], [], rfl, by simp⟩, ⟨[_], [], rfl, by simp⟩⟩⟩
  intro kv hkv
  rw [List.mem_singleton.1 hkv]
  decide

/-- And of the two others. -/
example : (∃ js, parseJson (str "{\"results\":[]}") = some js ∧ LastMember (str "results") js (.arr [])) ∧ (∃ kvs, parseJson (str "{\"error\":1}") = some (.obj kvs) ∧ Lacks (str "results") (.obj kvs)) := by
  refine ⟨⟨.obj [(str "results", .arr [])], parseJson_of_beq (by decide +kernel), [], [], rfl, by simp⟩, ⟨[(str "error", .num (str "1"))], parseJson_of_beq (by decide +kernel), ?_⟩⟩
  rintro v ⟨before, after, h, -⟩
  have hm : (str "results", v) ∈ [(str "error", Json.num (str "1"))] := by
    simp only [Json.obj.injEq] at h
    rw [h]; simp
  have := List.mem_singleton.1 hm
  have h3 : str "results" = str "error" := (Prod.mk.inj this).1
  exact absurd h3 (by decide)

end Verif.Props
