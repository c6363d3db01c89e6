import Verif.Main.Config

/-!
# C60, C61, C62: configuration and start of the server
-/

namespace Verif.Props
open Verif.Go Verif.Ndt5 Verif.Main

/-! ## C60 -/

/-- The label that marks canaries. -/
def canary : Bytes × Bytes := (str "deployment", str "canary")

private theorem labelLoop_spec (rest : List (Bytes × Bytes)) (done : List NameValue) (junk : List NameValue) (ver : Bytes)
    (hj : junk.length = rest.length) :
    labelLoop rest (done ++ junk) done.length ver =
      some (done ++ rest.map fun l => ⟨l.1, l.2⟩, ver ++ (List.replicate (rest.count canary) (str "-canary")).flatten) := by
  induction rest generalizing done junk ver with
  | nil =>
    cases junk with
    | nil => simp [labelLoop]
    | cons _ _ => cases hj
  | cons l rest ih =>
    obtain ⟨k, v⟩ := l
    cases junk with
    | nil => cases hj
    | cons j junk =>
      rw [labelLoop, if_pos (by simp)]
      have h1 : (done ++ j :: junk).set done.length ⟨k, v⟩ = (done ++ [⟨k, v⟩]) ++ junk := by
        rw [List.set_append_right _ _ (Nat.le_refl _)]
        simp
      have h2 : done.length + 1 = (done ++ [(⟨k, v⟩ : NameValue)]).length := by simp
      rw [h1, h2, ih _ _ _ (by simpa using hj)]
      by_cases hc : k = str "deployment" ∧ v = str "canary"
      · obtain ⟨rfl, rfl⟩ := hc
        rw [if_pos ⟨rfl, rfl⟩, List.count_cons, if_pos (by simp [canary])]
        simp [List.replicate_succ]
      · rw [if_neg hc, List.count_cons, if_neg (by simpa [canary] using hc)]
        simp

/-- The list is an iteration over the map. -/
structure Iterates (order : List (Bytes × Bytes)) (m : Bytes → Option Bytes) : Prop where
  nodup : (order.map Prod.fst).Nodup
  complete : ∀ k v, (k, v) ∈ order ↔ m k = some v

private theorem parse_eq (labels : List (Bytes × Bytes)) (ver : Bytes) : parseDeploymentLabels labels ver =
    some (labels.map fun l => ⟨l.1, l.2⟩, ver ++ (List.replicate (labels.count canary) (str "-canary")).flatten) := by
  have := labelLoop_spec labels [] (List.replicate labels.length ⟨[], []⟩) ver (by simp)
  simpa [parseDeploymentLabels] using this

private theorem filter_name (labels : List (Bytes × Bytes)) (hd : (labels.map Prod.fst).Nodup) (k v : Bytes) (hm : (k, v) ∈ labels) :
    labels.filter (fun l => l.1 = k) = [(k, v)] := by
  induction labels with
  | nil => cases hm
  | cons l labels ih =>
    rw [List.map_cons, List.nodup_cons] at hd
    by_cases hl : l.1 = k
    · have hrest : labels.filter (fun l => l.1 = k) = [] := by
        rw [List.filter_eq_nil_iff]
        intro x hx
        simp only [decide_eq_true_eq]
        rintro rfl
        exact hd.1 (hl ▸ List.mem_map_of_mem hx)
      rw [List.filter_cons_of_pos (by simpa using hl), hrest]
      rcases List.mem_cons.1 hm with rfl | hm
      · rfl
      · have : (k, v) ∈ labels.filter (fun l => l.1 = k) := List.mem_filter.2 ⟨hm, by simp⟩
        rw [hrest] at this; cases this
    · rw [List.filter_cons_of_neg (by simpa using hl)]
      rcases List.mem_cons.1 hm with rfl | hm
      · exact absurd rfl hl
      · exact ih hd.2 hm

/-- C60: whatever the labels and the order of iteration, the function returns; for every name the metadata have exactly one entry if there is a label of that name, with its
value, and none otherwise; the version gains the suffix once if the label `deployment=canary` is there and is unchanged otherwise. -/
theorem C60_labels (m : Bytes → Option Bytes) (order : List (Bytes × Bytes)) (ver : Bytes) (h : Iterates order m) :
    ∃ md ver', parseDeploymentLabels order ver = some (md, ver') ∧
      (∀ k v, m k = some v → md.filter (fun e => e.name = k) = [⟨k, v⟩]) ∧ (∀ k, m k = none → md.filter (fun e => e.name = k) = []) ∧
      (m (str "deployment") = some (str "canary") → ver' = ver ++ str "-canary") ∧ (m (str "deployment") ≠ some (str "canary") → ver' = ver) := by
  refine ⟨_, _, parse_eq order ver, ?_, ?_, ?_, ?_⟩
  · intro k v hk
    rw [List.filter_map, show ((fun e : NameValue => decide (e.name = k)) ∘ fun l : Bytes × Bytes => (⟨l.1, l.2⟩ : NameValue)) = fun l => decide (l.1 = k) from rfl,
      filter_name order h.nodup k v ((h.complete k v).2 hk)]
    rfl
  · intro k hk
    rw [List.filter_eq_nil_iff]
    intro e he
    obtain ⟨l, hl, rfl⟩ := List.mem_map.1 he
    simp only [decide_eq_true_eq]
    rintro rfl
    have := (h.complete l.1 l.2).1 hl
    rw [hk] at this; cases this
  · intro hc
    have hm := (h.complete _ _).2 hc
    have hn : order.Nodup := List.Pairwise.imp (fun hne heq => hne (congrArg Prod.fst heq)) (List.pairwise_map.1 h.nodup)
    have h1 : order.count canary = 1 := by
      have h2 := List.nodup_iff_count.1 hn canary
      have h3 := List.count_pos_iff.2 (show canary ∈ order from hm)
      omega
    simp [h1]
  · intro hc
    have h1 : order.count canary = 0 := List.count_eq_zero.2 fun hm => hc ((h.complete _ _).1 hm)
    simp [h1]

/-- C60: two iterations over the same map give the same entries in some order, and the same version. -/
theorem C60_order (m : Bytes → Option Bytes) (o1 o2 : List (Bytes × Bytes)) (ver v1 v2 : Bytes) (md1 md2 : List NameValue) (h1 : Iterates o1 m)
    (h2 : Iterates o2 m) (e1 : parseDeploymentLabels o1 ver = some (md1, v1)) (e2 : parseDeploymentLabels o2 ver = some (md2, v2)) :
    md1.Perm md2 ∧ v1 = v2 := by
  have hn1 : o1.Nodup := List.Pairwise.imp (fun hne heq => hne (congrArg Prod.fst heq)) (List.pairwise_map.1 h1.nodup)
  have hn2 : o2.Nodup := List.Pairwise.imp (fun hne heq => hne (congrArg Prod.fst heq)) (List.pairwise_map.1 h2.nodup)
  have hp : o1.Perm o2 := (List.perm_ext_iff_of_nodup hn1 hn2).2 fun ⟨k, v⟩ => (h1.complete k v).trans (h2.complete k v).symm
  rw [parse_eq] at e1 e2
  cases e1; cases e2
  exact ⟨hp.map _, by rw [hp.count_eq]⟩

/-- C60: a map with two labels. -/
example : Iterates [(str "machine-type", str "virtual"), (str "deployment", str "canary")]
    (fun k => if k = str "deployment" then some (str "canary") else if k = str "machine-type" then some (str "virtual") else none) := by
  refine ⟨by decide, ?_⟩
  intro k v
  have : str "deployment" ≠ str "machine-type" := by decide
  simp only [List.mem_cons, Prod.mk.injEq, List.not_mem_nil, or_false]
  grind

/-! ## C62 -/

/-- C62: the properties of a server created by `httpServer`. -/
structure SafeServer (f : Flags) (s : HttpServer) : Prop where
  read : s.readTimeout = 60 * 10 ^ 9
  write : s.writeTimeout = 60 * 10 ^ 9
  http1 : s.http2 = false
  tls13 : s.tls.minVersion = 0x0304 ↔ f.tlsVersion = str "1.3"
  tls12 : s.tls.minVersion = 0x0303 ↔ f.tlsVersion = str "1.2"
  default : f.tlsVersion ≠ str "1.3" → f.tlsVersion ≠ str "1.2" → s.tls.minVersion = 0
  acme : str "acme-tls/1" ∈ s.tls.nextProtos ↔ f.autocertEnabled = true

theorem C62_httpServer (f : Flags) (addr : Bytes) (handler : Handler) : SafeServer f (httpServer f addr handler) ∧
    (httpServer f addr handler).addr = addr ∧ (httpServer f addr handler).handler = handler := by
  have h : str "1.3" ≠ str "1.2" := by decide
  refine ⟨⟨rfl, rfl, rfl, ?_, ?_, ?_, ?_⟩, rfl, rfl⟩
  all_goals
    by_cases h3 : f.tlsVersion = str "1.3" <;> by_cases h2 : f.tlsVersion = str "1.2" <;> cases h1 : f.autocertEnabled <;>
      simp_all [httpServer]

/-! ## All executions of main -/

/-- An event of `main` starts this server, with or without TLS. -/
def StartsServer (secure : Bool) (s : HttpServer) (e : Event mainSig) : Prop :=
  (secure = false ∧ e = .call (.listen s) (.ok none)) ∨ (secure = true ∧ ∃ c k, e = .call (.listenTLS s c k) (.ok none))

private theorem runs_must {q : MainCall} {k : Prog mainSig Exit} {evs : List (Event mainSig)} {x : Exit} (h : Prog.Runs (must q k) evs x) :
    (∃ evs', evs = .call q (.ok none) :: evs' ∧ Prog.Runs k evs' x) ∨ (∃ r : Outcome (Option Err), r ≠ .ok none ∧ evs = [.call q r] ∧ x ≠ .ok) := by
  cases h with
  | call q k' r evs b h =>
    rcases r with (_ | e) | m
    · exact .inl ⟨_, rfl, h⟩
    · cases h; exact .inr ⟨_, by simp, rfl, by simp⟩
    · cases h; exact .inr ⟨_, by simp, rfl, by simp⟩

private def mustAll : List MainCall → Prog mainSig Exit → Prog mainSig Exit
  | [], k => k
  | q :: qs, k => must q (mustAll qs k)

private def done (q : MainCall) : Event mainSig := .call q (.ok none)

private theorem runs_mustAll {qs : List MainCall} {k : Prog mainSig Exit} {evs : List (Event mainSig)} {x : Exit} (h : Prog.Runs (mustAll qs k) evs x) :
    (∃ evs', evs = qs.map done ++ evs' ∧ Prog.Runs k evs' x) ∨
    (∃ a q b, ∃ r : Outcome (Option Err), qs = a ++ q :: b ∧ r ≠ .ok none ∧ evs = a.map done ++ [.call q r] ∧ x ≠ .ok) := by
  induction qs generalizing evs with
  | nil => exact .inl ⟨evs, rfl, h⟩
  | cons q qs ih =>
    rcases runs_must h with ⟨evs', rfl, h'⟩ | ⟨r, h1, h2, h3⟩
    · rcases ih h' with ⟨e, rfl, h4⟩ | ⟨a, q', b, r, rfl, h1, rfl, h3⟩
      · exact .inl ⟨e, rfl, h4⟩
      · exact .inr ⟨q :: a, q', b, r, rfl, h1, rfl, h3⟩
    · exact .inr ⟨[], q, qs, r, rfl, h1, h2, h3⟩

private theorem runs_closeAll {l : List Bytes} {evs : List (Event mainSig)} {x : Exit} (h : Prog.Runs (closeAll l) evs x) :
    evs = l.map (fun a => .emit (.close a)) ∧ x = .ok := by
  induction l generalizing evs with
  | nil => cases h; exact ⟨rfl, rfl⟩
  | cons a l ih =>
    cases h with
    | emit o k evs b h =>
      obtain ⟨h1, h2⟩ := ih h
      exact ⟨by rw [h1]; rfl, h2⟩

/-- The metadata of the flags. -/
def metadataOf (f : Flags) : List NameValue := f.labels.map fun l => ⟨l.1, l.2⟩

/-- The server with certificates from autocert. -/
private def autoServer (f : Flags) (md : List NameValue) : HttpServer :=
  { ndt7Server f md with tls := { (ndt7Server f md).tls with autocertFor := some f.autocertHostname } }

private def tlsCalls (f : Flags) (md : List NameValue) : List MainCall :=
  if f.certFile ≠ [] ∧ f.keyFile ≠ [] then [.listenTLS (wssServer f md) f.certFile f.keyFile, .listenTLS (ndt7Server f md) f.certFile f.keyFile]
  else if f.autocertEnabled = true ∧ f.autocertHostname ≠ [] then [.listenTLS (autoServer f md) f.certFile f.keyFile]
  else []

private def closes (f : Flags) : List Bytes :=
  f.healthAddr :: (if f.certFile ≠ [] ∧ f.keyFile ≠ [] then [f.ndt7Addr, f.ndt5WssAddr]
    else if f.autocertEnabled = true ∧ f.autocertHostname ≠ [] then [f.ndt7Addr] else []) ++ [f.ndt7AddrCleartext, f.ndt5WsAddr]

private def listenCalls (f : Flags) (md : List NameValue) : List MainCall :=
  [.listenRaw f.ndt5Addr (f.dataDir ++ str "/ndt5") f.ndt5WsAddr md (access5 f), .listen (wsServer f md), .listen (cleartextServer f md)] ++ tlsCalls f md ++
  [.listen (healthServer f)]

private theorem mainTLS_eq (f : Flags) (md : List NameValue) :
    must (.listenRaw f.ndt5Addr (f.dataDir ++ str "/ndt5") f.ndt5WsAddr md (access5 f)) (must (.listen (wsServer f md)) (must (.listen (cleartextServer f md))
      (mainTLS f md [f.ndt7AddrCleartext, f.ndt5WsAddr]))) = mustAll (listenCalls f md) (.emit .wait (closeAll (closes f))) := by
  simp only [mainTLS, listenCalls, tlsCalls, closes, mainEnd]
  split
  · rfl
  · split <;> rfl

/-- All executions of `main`: it ends before it listens anywhere; or at a listener that fails; or it starts all services, waits, and closes them. -/
private theorem main_runs {f : Flags} {ver : Bytes} {evs : List (Event mainSig)} {x : Exit} (h : Prog.Runs (main f ver) evs x) :
    ((∀ e ∈ evs, ∃ r, e = .call .argsFromEnv r ∨ e = .call .newVerifier r ∨ e = .call (.eventListen f.eventSocket) r) ∧ x ≠ .ok) ∨
    ∃ pre, (∃ v : Option Err, pre = [done .argsFromEnv, .call .newVerifier (.ok v), done (.eventListen f.eventSocket)] ∧
        ((f.tokenRequired5 = true ∨ f.tokenRequired7 = true) → v = none)) ∧
      ((x = .ok ∧ evs = pre ++ (listenCalls f (metadataOf f)).map done ++ .emit .wait :: (closes f).map (fun a => .emit (.close a))) ∨
       (x ≠ .ok ∧ ∃ a q b, ∃ r : Outcome (Option Err), listenCalls f (metadataOf f) = a ++ q :: b ∧ r ≠ .ok none ∧ evs = pre ++ a.map done ++ [.call q r])) := by
  unfold main at h
  replace h := runs_must h
  rcases h with ⟨e1, rfl, h⟩ | ⟨r, h1, rfl, h3⟩
  · rw [parse_eq] at h
    dsimp only at h
    cases h with
    | call q k r evs b h =>
      rcases r with v | m
      · dsimp only at h
        split at h
        · cases h
          refine .inl ⟨?_, by simp⟩
          intro e he
          rcases List.mem_cons.1 he with rfl | he
          · exact ⟨_, .inl rfl⟩
          · rcases List.mem_cons.1 he with rfl | he
            · exact ⟨_, .inr (.inl rfl)⟩
            · cases he
        · rename_i hv
          replace h := runs_must h
          rcases h with ⟨e2, rfl, h⟩ | ⟨r, h1, rfl, h3⟩
          · rw [mainTLS_eq] at h
            right
            refine ⟨_, ⟨v, rfl, ?_⟩, ?_⟩
            · intro hr
              rcases v with _ | v
              · rfl
              · exfalso
                apply hv
                rcases hr with hr | hr <;> simp [hr]
            · replace h := runs_mustAll h
              rcases h with ⟨e3, rfl, h⟩ | ⟨a, q, b, r, h1, h2, rfl, h3⟩
              · cases h with
                | emit o k evs b h =>
                  obtain ⟨rfl, rfl⟩ := runs_closeAll h
                  exact .inl ⟨rfl, rfl⟩
              · exact .inr ⟨h3, a, q, b, r, h1, h2, rfl⟩
          · refine .inl ⟨?_, h3⟩
            intro e he
            rcases List.mem_cons.1 he with rfl | he
            · exact ⟨_, .inl rfl⟩
            · rcases List.mem_cons.1 he with rfl | he
              · exact ⟨_, .inr (.inl rfl)⟩
              · rw [List.mem_singleton] at he
                exact ⟨_, .inr (.inr he)⟩
      · cases h
        refine .inl ⟨?_, by simp⟩
        intro e he
        rcases List.mem_cons.1 he with rfl | he
        · exact ⟨_, .inl rfl⟩
        · rcases List.mem_cons.1 he with rfl | he
          · exact ⟨_, .inr (.inl rfl)⟩
          · cases he
  · refine .inl ⟨?_, h3⟩
    intro e he
    rw [List.mem_singleton] at he
    exact ⟨_, .inl he⟩

private theorem starts_mem {f : Flags} {ver : Bytes} {evs : List (Event mainSig)} {x : Exit} (h : Prog.Runs (main f ver) evs x) {secure : Bool} {s : HttpServer}
    {e : Event mainSig} (hm : e ∈ evs) (hs : StartsServer secure s e) :
    (secure = false ∧ .listen s ∈ listenCalls f (metadataOf f)) ∨ (secure = true ∧ ∃ c k, .listenTLS s c k ∈ listenCalls f (metadataOf f)) := by
  have hq : ∃ q, e = done q ∧ ((secure = false ∧ q = .listen s) ∨ (secure = true ∧ ∃ c k, q = .listenTLS s c k)) := by
    rcases hs with ⟨h1, h2⟩ | ⟨h1, c, k, h2⟩
    · exact ⟨_, h2, .inl ⟨h1, rfl⟩⟩
    · exact ⟨_, h2, .inr ⟨h1, c, k, rfl⟩⟩
  obtain ⟨q, rfl, hq⟩ := hq
  have key : q ∈ listenCalls f (metadataOf f) := by
    have hpre : ∀ v : Option Err, done q ∉ ([done .argsFromEnv, .call .newVerifier (.ok v), done (.eventListen f.eventSocket)] : List (Event mainSig)) := by
      intro v hv
      rcases hq with ⟨-, rfl⟩ | ⟨-, c, k, rfl⟩ <;> simp [done] at hv
    rcases main_runs h with ⟨h1, -⟩ | ⟨pre, ⟨v, rfl, -⟩, ⟨-, rfl⟩ | ⟨-, a, q', b, r, h1, h2, rfl⟩⟩
    · exfalso
      obtain ⟨r, h1⟩ := h1 _ hm
      rcases hq with ⟨-, rfl⟩ | ⟨-, c, k, rfl⟩ <;> simp [done] at h1
    · rw [List.append_assoc] at hm
      replace hm := (List.mem_append.1 hm).resolve_left (hpre v)
      rcases List.mem_append.1 hm with hm | hm
      · obtain ⟨q', h1, h2⟩ := List.mem_map.1 hm
        simp only [done, Event.call.injEq] at h2
        exact h2.1 ▸ h1
      · simp [done] at hm
    · rw [List.append_assoc] at hm
      replace hm := (List.mem_append.1 hm).resolve_left (hpre v)
      rcases List.mem_append.1 hm with hm | hm
      · obtain ⟨q', h3, h4⟩ := List.mem_map.1 hm
        simp only [done, Event.call.injEq] at h4
        rw [h1, ← h4.1]
        simp [h3]
      · rw [List.mem_singleton] at hm
        simp only [done, Event.call.injEq] at hm
        obtain ⟨rfl, h3⟩ := hm
        exact absurd (eq_of_heq h3).symm h2
  rcases hq with ⟨h1, rfl⟩ | ⟨h1, c, k, rfl⟩
  · exact .inl ⟨h1, key⟩
  · exact .inr ⟨h1, c, k, key⟩

/-- Which servers `main` starts. -/
private theorem starts_cases {f : Flags} {ver : Bytes} {evs : List (Event mainSig)} {x : Exit} (h : Prog.Runs (main f ver) evs x) {secure : Bool}
    {s : HttpServer} {e : Event mainSig} (hm : e ∈ evs) (hs : StartsServer secure s e) :
    (secure = false ∧ (s = wsServer f (metadataOf f) ∨ s = cleartextServer f (metadataOf f) ∨ s = healthServer f)) ∨
    (secure = true ∧ (f.certFile ≠ [] ∧ f.keyFile ≠ []) ∧ (s = wssServer f (metadataOf f) ∨ s = ndt7Server f (metadataOf f))) ∨
    (secure = true ∧ ¬ (f.certFile ≠ [] ∧ f.keyFile ≠ []) ∧ (f.autocertEnabled = true ∧ f.autocertHostname ≠ []) ∧ s = autoServer f (metadataOf f)) := by
  have hm := starts_mem h hm hs
  simp only [listenCalls, tlsCalls] at hm
  rcases hm with ⟨h1, h2⟩ | ⟨h1, c, k, h2⟩
  · refine .inl ⟨h1, ?_⟩
    split at h2
    · simp at h2; exact h2
    · split at h2 <;> simp at h2 <;> exact h2
  · right
    split at h2
    · rename_i hc
      simp at h2
      refine .inl ⟨h1, hc, ?_⟩
      rcases h2 with h2 | h2
      · exact .inl h2.1
      · exact .inr h2.1
    · rename_i hc
      split at h2
      · rename_i ha
        simp at h2
        exact .inr ⟨h1, hc, ha, h2.1⟩
      · simp at h2

/-- C62: every HTTP server that `main` starts, in whatever execution, has the properties. -/
theorem C62_started (f : Flags) (ver : Bytes) (evs : List (Event mainSig)) (x : Exit) (h : Prog.Runs (main f ver) evs x) (secure : Bool) (s : HttpServer)
    (e : Event mainSig) (hm : e ∈ evs) (hs : StartsServer secure s e) : SafeServer f s := by
  rcases starts_cases h hm hs with ⟨-, rfl | rfl | rfl⟩ | ⟨-, -, rfl | rfl⟩ | ⟨-, -, -, rfl⟩
  · exact (C62_httpServer _ _ _).1
  · exact (C62_httpServer _ _ _).1
  · exact (C62_httpServer _ _ _).1
  · exact (C62_httpServer _ _ _).1
  · exact (C62_httpServer _ _ _).1
  · obtain ⟨h1, h2, h3, h4, h5, h6, h7⟩ := (C62_httpServer f f.ndt7Addr (ndt7Server f (metadataOf f)).handler).1
    exact ⟨h1, h2, h3, h4, h5, h6, h7⟩

/-- C62 as stated for all HTTP servers fails: the servers of ndt5 tests over secure websockets have the timeouts, but neither the requested minimum version of TLS nor HTTP/2 disabled. -/
theorem C62_all_servers_false : ¬ ∀ (f : Flags) (handler : Handler), SafeServer f (singleServer handler) := by
  intro h
  have := (h ⟨[], [], [], [], [], [], [], [], [], false, [], [], [], false, [], false, false, [], []⟩ (.mux [])).http1
  cases this

/-- C62, what holds of those servers: the timeouts. -/
theorem C62_single_serving_timeouts (handler : Handler) : (singleServer handler).readTimeout = 60 * 10 ^ 9 ∧ (singleServer handler).writeTimeout = 60 * 10 ^ 9 := ⟨rfl, rfl⟩

/-! ## C61 -/

/-- In this execution a request for `path` at `addr`, with or without TLS, passes the access controllers and reaches the leaf. -/
def Offers (evs : List (Event mainSig)) (secure : Bool) (addr path : Bytes) (passed : List Access) (leaf : Leaf) : Prop :=
  ∃ s e, e ∈ evs ∧ StartsServer secure s e ∧ s.addr = addr ∧ Serves path s.handler passed leaf

/-- The tests of ndt7. -/
def Leaf.isNdt7 : Leaf → Prop
  | .ndt7Download .. | .ndt7Upload .. => True
  | _ => False

private theorem serves_log {path : Bytes} {h : Handler} {l : List Access} {leaf : Leaf} (hs : Serves path (.log h) l leaf) : Serves path h l leaf := by
  cases hs; assumption

private theorem serves_access {path : Bytes} {ac : Access} {h : Handler} {l : List Access} {leaf : Leaf} (hs : Serves path (.access ac h) l leaf) :
    ∃ l', l = ac :: l' ∧ Serves path h l' leaf := by
  cases hs; exact ⟨_, rfl, by assumption⟩

private theorem serves_mux {path : Bytes} {routes : List (Bytes × Leaf)} {l : List Access} {leaf : Leaf} (hs : Serves path (.mux routes) l leaf) :
    l = [] ∧ ∃ pattern, (pattern, leaf) ∈ routes ∧ Matches pattern path := by
  cases hs; exact ⟨rfl, _, by assumption, by assumption⟩

private theorem matches_exact {pattern path : Bytes} (h : Matches pattern path) (hp : pattern.getLast? ≠ some 47) : path = pattern := by
  rcases h with h | ⟨h, -⟩
  · exact h.symm
  · exact absurd h hp

private theorem no_slash : downloadPath.getLast? ≠ some 47 ∧ uploadPath.getLast? ≠ some 47 ∧ ndt5Path.getLast? ≠ some 47 ∧ (str "/health").getLast? ≠ some 47 := by decide

private theorem serves_ndt7 {f : Flags} {md : List NameValue} {path : Bytes} {l : List Access} {leaf : Leaf}
    (hs : Serves path (.access (access7 f) (.log (ndt7Mux f md))) l leaf) : l = [access7 f] ∧
    (leaf = .files f.htmlDir ∨ (path = downloadPath ∧ leaf = .ndt7Download f.dataDir f.ndt7Addr f.ndt7AddrCleartext md f.compress) ∨
      (path = uploadPath ∧ leaf = .ndt7Upload f.dataDir f.ndt7Addr f.ndt7AddrCleartext md f.compress)) := by
  obtain ⟨l', rfl, hs'⟩ := serves_access hs
  obtain ⟨rfl, p, h1, h2⟩ := serves_mux (serves_log hs')
  refine ⟨rfl, ?_⟩
  simp only [List.mem_cons, Prod.mk.injEq, List.not_mem_nil, or_false] at h1
  rcases h1 with ⟨-, rfl⟩ | ⟨rfl, rfl⟩ | ⟨rfl, rfl⟩
  · exact .inl rfl
  · exact .inr (.inl ⟨matches_exact h2 no_slash.1, rfl⟩)
  · exact .inr (.inr ⟨matches_exact h2 no_slash.2.1, rfl⟩)

private theorem serves_ws {f : Flags} {md : List NameValue} {path : Bytes} {l : List Access} {leaf : Leaf}
    (hs : Serves path (wsServer f md).handler l leaf) : l = [] ∧
    (leaf = .files f.htmlDir ∨ (path = ndt5Path ∧ leaf = .ndt5WS (f.dataDir ++ str "/ndt5") md)) := by
  obtain ⟨rfl, p, h1, h2⟩ := serves_mux (serves_log hs)
  refine ⟨rfl, ?_⟩
  simp only [List.mem_cons, Prod.mk.injEq, List.not_mem_nil, or_false] at h1
  rcases h1 with ⟨-, rfl⟩ | ⟨rfl, rfl⟩
  · exact .inl rfl
  · exact .inr ⟨matches_exact h2 no_slash.2.2.1, rfl⟩

private theorem serves_wss {f : Flags} {md : List NameValue} {path : Bytes} {l : List Access} {leaf : Leaf}
    (hs : Serves path (wssServer f md).handler l leaf) : l = [access5 f] ∧
    (leaf = .files f.htmlDir ∨ (path = ndt5Path ∧ leaf = .ndt5WSS (f.dataDir ++ str "/ndt5") f.certFile f.keyFile md)) := by
  obtain ⟨l', rfl, hs'⟩ := serves_access hs
  obtain ⟨rfl, p, h1, h2⟩ := serves_mux (serves_log hs')
  refine ⟨rfl, ?_⟩
  simp only [List.mem_cons, Prod.mk.injEq, List.not_mem_nil, or_false] at h1
  rcases h1 with ⟨-, rfl⟩ | ⟨rfl, rfl⟩
  · exact .inl rfl
  · exact .inr ⟨matches_exact h2 no_slash.2.2.1, rfl⟩

private theorem serves_health {f : Flags} {path : Bytes} {l : List Access} {leaf : Leaf} (hs : Serves path (healthServer f).handler l leaf) :
    l = [] ∧ path = str "/health" ∧ leaf = .health := by
  obtain ⟨rfl, p, h1, h2⟩ := serves_mux hs
  simp only [List.mem_cons, Prod.mk.injEq, List.not_mem_nil, or_false] at h1
  obtain ⟨rfl, rfl⟩ := h1
  exact ⟨rfl, matches_exact h2 no_slash.2.2.2, rfl⟩

section
variable (f : Flags) (ver : Bytes) (evs : List (Event mainSig)) (x : Exit)

/-- C61: wherever an ndt7 test is offered, in whatever execution, it is at its own path, and the request has passed the ndt7 access controller, which enforces tokens for that path
exactly if they are required, and which limits downloads. -/
theorem C61_ndt7_controlled (h : Prog.Runs (main f ver) evs x) (secure : Bool) (addr path : Bytes) (passed : List Access) (leaf : Leaf)
    (ho : Offers evs secure addr path passed leaf) (hl : Leaf.isNdt7 leaf) :
    ∃ ac, passed = [ac] ∧ ac.tokenRequired = f.tokenRequired7 ∧ ac.machine = f.tokenMachine ∧ path ∈ ac.tokenPaths ∧
      ((∃ a b c d e, leaf = .ndt7Download a b c d e) → path = str "/ndt/v7/download" ∧ path ∈ ac.txPaths) ∧
      ((∃ a b c d e, leaf = .ndt7Upload a b c d e) → path = str "/ndt/v7/upload") := by
  obtain ⟨s, e, hm, hs, -, hserve⟩ := ho
  have key : Serves path (.access (access7 f) (.log (ndt7Mux f (metadataOf f)))) passed leaf := by
    rcases starts_cases h hm hs with ⟨-, rfl | rfl | rfl⟩ | ⟨-, -, rfl | rfl⟩ | ⟨-, -, -, rfl⟩
    · rcases (serves_ws hserve).2 with rfl | ⟨-, rfl⟩ <;> exact hl.elim
    · exact hserve
    · obtain ⟨-, -, rfl⟩ := serves_health hserve; exact hl.elim
    · rcases (serves_wss hserve).2 with rfl | ⟨-, rfl⟩ <;> exact hl.elim
    · exact hserve
    · exact hserve
  obtain ⟨rfl, h1⟩ := serves_ndt7 key
  refine ⟨_, rfl, rfl, rfl, ?_⟩
  rcases h1 with rfl | ⟨rfl, rfl⟩ | ⟨rfl, rfl⟩
  · exact hl.elim
  · refine ⟨by simp [access7], fun _ => ⟨rfl, by simp [access7]⟩, ?_⟩
    rintro ⟨a, b, c, d, e, h⟩; cases h
  · refine ⟨by simp [access7], ?_, fun _ => rfl⟩
    rintro ⟨a, b, c, d, e, h⟩; cases h

/-- C61: wherever an ndt5 test over secure websockets is offered, the request has passed the ndt5 access controller, which enforces tokens and limits for that path. -/
theorem C61_wss_controlled (h : Prog.Runs (main f ver) evs x) (secure : Bool) (addr path : Bytes) (passed : List Access) (d c k : Bytes) (md : List NameValue)
    (ho : Offers evs secure addr path passed (.ndt5WSS d c k md)) :
    secure = true ∧ ∃ ac, passed = [ac] ∧ ac.tokenRequired = f.tokenRequired5 ∧ ac.machine = f.tokenMachine ∧ path = str "/ndt_protocol" ∧ path ∈ ac.tokenPaths ∧ path ∈ ac.txPaths := by
  obtain ⟨s, e, hm, hs, -, hserve⟩ := ho
  rcases starts_cases h hm hs with ⟨-, rfl | rfl | rfl⟩ | ⟨rfl, -, rfl | rfl⟩ | ⟨-, -, -, rfl⟩
  · rcases (serves_ws hserve).2 with h | ⟨-, h⟩ <;> cases h
  · rcases (serves_ndt7 hserve).2 with h | ⟨-, h⟩ | ⟨-, h⟩ <;> cases h
  · obtain ⟨-, -, h⟩ := serves_health hserve; cases h
  · obtain ⟨rfl, h1⟩ := serves_wss hserve
    rcases h1 with h | ⟨rfl, -⟩
    · cases h
    · exact ⟨rfl, _, rfl, rfl, rfl, rfl, by simp [access5], by simp [access5]⟩
  · rcases (serves_ndt7 hserve).2 with h | ⟨-, h⟩ | ⟨-, h⟩ <;> cases h
  · rcases (serves_ndt7 (f := f) (md := metadataOf f) hserve).2 with h | ⟨-, h⟩ | ⟨-, h⟩ <;> cases h

/-- C61: an ndt5 test over cleartext websockets passes no access controller, even if tokens are required. -/
theorem C61_ws_uncontrolled (h : Prog.Runs (main f ver) evs x) (secure : Bool) (addr path : Bytes) (passed : List Access) (d : Bytes) (md : List NameValue)
    (ho : Offers evs secure addr path passed (.ndt5WS d md)) : secure = false ∧ addr = f.ndt5WsAddr ∧ passed = [] := by
  obtain ⟨s, e, hm, hs, ha, hserve⟩ := ho
  rcases starts_cases h hm hs with ⟨rfl, rfl | rfl | rfl⟩ | ⟨-, -, rfl | rfl⟩ | ⟨-, -, -, rfl⟩
  · exact ⟨rfl, ha.symm, (serves_ws hserve).1⟩
  · rcases (serves_ndt7 hserve).2 with h | ⟨-, h⟩ | ⟨-, h⟩ <;> cases h
  · obtain ⟨-, -, h⟩ := serves_health hserve; cases h
  · rcases (serves_wss hserve).2 with h | ⟨-, h⟩ <;> cases h
  · rcases (serves_ndt7 hserve).2 with h | ⟨-, h⟩ | ⟨-, h⟩ <;> cases h
  · rcases (serves_ndt7 (f := f) (md := metadataOf f) hserve).2 with h | ⟨-, h⟩ | ⟨-, h⟩ <;> cases h

/-- C96: wherever an ndt5 test over websockets is offered, in whatever execution, its records go to the directory `ndt5` in the data directory, and wherever an ndt7 test is offered,
it gets the data directory itself. -/
theorem C96_directories (h : Prog.Runs (main f ver) evs x) (secure : Bool) (addr path : Bytes) (passed : List Access) (leaf : Leaf)
    (ho : Offers evs secure addr path passed leaf) :
    (∀ d md, leaf = .ndt5WS d md → d = f.dataDir ++ str "/ndt5") ∧ (∀ d c k md, leaf = .ndt5WSS d c k md → d = f.dataDir ++ str "/ndt5") ∧
    (∀ d a b md z, leaf = .ndt7Download d a b md z → d = f.dataDir) ∧ (∀ d a b md z, leaf = .ndt7Upload d a b md z → d = f.dataDir) := by
  obtain ⟨s, e, hm, hs, -, hserve⟩ := ho
  have h7 : Serves path (.access (access7 f) (.log (ndt7Mux f (metadataOf f)))) passed leaf →
      (∀ d md, leaf = .ndt5WS d md → d = f.dataDir ++ str "/ndt5") ∧ (∀ d c k md, leaf = .ndt5WSS d c k md → d = f.dataDir ++ str "/ndt5") ∧
      (∀ d a b md z, leaf = .ndt7Download d a b md z → d = f.dataDir) ∧ (∀ d a b md z, leaf = .ndt7Upload d a b md z → d = f.dataDir) := by
    intro hserve
    rcases (serves_ndt7 hserve).2 with rfl | ⟨-, rfl⟩ | ⟨-, rfl⟩ <;> simp <;> (intros; simp_all)
  rcases starts_cases h hm hs with ⟨-, rfl | rfl | rfl⟩ | ⟨-, -, rfl | rfl⟩ | ⟨-, -, -, rfl⟩
  · rcases (serves_ws hserve).2 with rfl | ⟨-, rfl⟩ <;> simp <;> (intros; simp_all)
  · exact h7 hserve
  · obtain ⟨-, -, rfl⟩ := serves_health hserve; simp
  · rcases (serves_wss hserve).2 with rfl | ⟨-, rfl⟩ <;> simp <;> (intros; simp_all)
  · exact h7 hserve
  · exact h7 hserve

/-- C61: the raw ndt5 server, in whatever execution, is started with its address, the address it forwards to, the labels and the ndt5 access controller. -/
theorem C61_raw (h : Prog.Runs (main f ver) evs x) (a d w : Bytes) (md : List NameValue) (ac : Access) (r : Outcome (Option Err))
    (hm : .call (.listenRaw a d w md ac) r ∈ evs) : a = f.ndt5Addr ∧ d = f.dataDir ++ str "/ndt5" ∧ w = f.ndt5WsAddr ∧
    md = (f.labels.map fun l => ⟨l.1, l.2⟩) ∧ ac = ⟨f.tokenRequired5, f.tokenMachine, [str "/ndt_protocol"], [str "/ndt_protocol"]⟩ := by
  have key : ∀ q ∈ listenCalls f (metadataOf f), q = .listenRaw a d w md ac → a = f.ndt5Addr ∧ d = f.dataDir ++ str "/ndt5" ∧ w = f.ndt5WsAddr ∧
      md = metadataOf f ∧ ac = access5 f := by
    rintro q hq rfl
    simp only [listenCalls, tlsCalls] at hq
    split at hq
    · simp at hq; exact hq
    · split at hq <;> simp at hq <;> exact hq
  rcases main_runs h with ⟨h1, -⟩ | ⟨pre, ⟨v, rfl, -⟩, ⟨-, rfl⟩ | ⟨-, a', q', b, r', h1, h2, rfl⟩⟩
  · obtain ⟨r, h1⟩ := h1 _ hm
    simp at h1
  · simp [done] at hm
    obtain ⟨q, hq, rfl, -⟩ := hm
    exact key _ hq rfl
  · have hsub : ∀ q, q ∈ a' ∨ q = q' → q ∈ listenCalls f (metadataOf f) := by
      intro q hq
      rw [h1]
      simp only [List.mem_append, List.mem_cons]
      rcases hq with hq | hq
      · exact .inl hq
      · exact .inr (.inl hq)
    simp [done] at hm
    rcases hm with ⟨q, hq, rfl, -⟩ | ⟨rfl, -⟩
    · exact key _ (hsub _ (.inl hq)) rfl
    · exact key _ (hsub _ (.inr rfl)) rfl

/-- C96: so do the records of ndt5 tests on the raw port. -/
theorem C96_raw_directory (h : Prog.Runs (main f ver) evs x) (a d w : Bytes) (md : List NameValue) (ac : Access) (r : Outcome (Option Err))
    (hm : .call (.listenRaw a d w md ac) r ∈ evs) : d = f.dataDir ++ str "/ndt5" := (C61_raw f ver evs x h a d w md ac r hm).2.1

private theorem up {f : Flags} {ver : Bytes} {evs : List (Event mainSig)} {x : Exit} (h : Prog.Runs (main f ver) evs x) (hw : .emit .wait ∈ evs) :
    (∀ q ∈ listenCalls f (metadataOf f), done q ∈ evs) ∧ ∀ a ∈ closes f, .emit (.close a) ∈ evs := by
  rcases main_runs h with ⟨h1, -⟩ | ⟨pre, ⟨v, rfl, -⟩, ⟨-, rfl⟩ | ⟨-, a, q', b, r, h1, h2, rfl⟩⟩
  · obtain ⟨r, h1⟩ := h1 _ hw
    simp at h1
  · refine ⟨fun q hq => ?_, fun a ha => ?_⟩
    · exact List.mem_append_left _ (List.mem_append_right _ (List.mem_map_of_mem hq))
    · exact List.mem_append_right _ (List.mem_cons_of_mem _ (List.mem_map_of_mem (f := fun a => (Event.emit (MainNote.close a) : Event mainSig)) ha))
  · simp [done] at hw

private theorem lengths : (str "/").length ≤ downloadPath.length ∧ (str "/").length ≤ uploadPath.length ∧ (str "/").length ≤ ndt5Path.length ∧
    downloadPath ≠ uploadPath ∧ uploadPath ≠ downloadPath := by decide

private theorem serves_ndt7_paths (f : Flags) (md : List NameValue) :
    Serves downloadPath (.access (access7 f) (.log (ndt7Mux f md))) [access7 f] (.ndt7Download f.dataDir f.ndt7Addr f.ndt7AddrCleartext md f.compress) ∧
    Serves uploadPath (.access (access7 f) (.log (ndt7Mux f md))) [access7 f] (.ndt7Upload f.dataDir f.ndt7Addr f.ndt7AddrCleartext md f.compress) := by
  constructor
  · refine .access _ _ _ _ (.log _ _ _ (.mux _ downloadPath _ (by simp) (.inl rfl) ?_))
    intro r hr hm
    simp only [List.mem_cons, List.not_mem_nil, or_false] at hr
    rcases hr with rfl | rfl | rfl
    · exact lengths.1
    · exact Nat.le_refl _
    · exact absurd (matches_exact hm no_slash.2.1) lengths.2.2.2.1
  · refine .access _ _ _ _ (.log _ _ _ (.mux _ uploadPath _ (by simp) (.inl rfl) ?_))
    intro r hr hm
    simp only [List.mem_cons, List.not_mem_nil, or_false] at hr
    rcases hr with rfl | rfl | rfl
    · exact lengths.2.1
    · exact absurd (matches_exact hm no_slash.1) lengths.2.2.2.2
    · exact Nat.le_refl _

private theorem serves_ndt5_path (dir : Bytes) (leaf : Leaf) : Serves ndt5Path (.log (.mux [(str "/", .files dir), (ndt5Path, leaf)])) [] leaf := by
  refine .log _ _ _ (.mux _ ndt5Path _ (by simp) (.inl rfl) ?_)
  intro r hr _
  simp only [List.mem_cons, List.not_mem_nil, or_false] at hr
  rcases hr with rfl | rfl
  · exact lengths.2.2.1
  · exact Nat.le_refl _

/-- C61: when the server is up (`main` waits for the end), the cleartext services and the health service are offered at their addresses, whatever the flags. -/
theorem C61_always (h : Prog.Runs (main f ver) evs x) (hw : .emit .wait ∈ evs) :
    (∃ dir md ac, .call (.listenRaw f.ndt5Addr dir f.ndt5WsAddr md ac) (.ok none) ∈ evs ∧ dir = f.dataDir ++ str "/ndt5" ∧ ac.tokenRequired = f.tokenRequired5) ∧
    (∃ md, Offers evs false f.ndt5WsAddr (str "/ndt_protocol") [] (.ndt5WS (f.dataDir ++ str "/ndt5") md)) ∧
    (∃ ac md, Offers evs false f.ndt7AddrCleartext (str "/ndt/v7/download") [ac] (.ndt7Download f.dataDir f.ndt7Addr f.ndt7AddrCleartext md f.compress)) ∧
    (∃ ac md, Offers evs false f.ndt7AddrCleartext (str "/ndt/v7/upload") [ac] (.ndt7Upload f.dataDir f.ndt7Addr f.ndt7AddrCleartext md f.compress)) ∧
    Offers evs false f.healthAddr (str "/health") [] .health := by
  have hu := (up h hw).1
  refine ⟨⟨_, _, access5 f, hu _ (by simp only [listenCalls, List.cons_append, List.mem_cons]; exact .inl rfl), rfl, rfl⟩,
    ⟨_, _, _, hu (.listen (wsServer f (metadataOf f))) (by simp [listenCalls]), .inl ⟨rfl, rfl⟩, rfl, serves_ndt5_path _ _⟩,
    ⟨_, _, _, _, hu (.listen (cleartextServer f (metadataOf f))) (by simp [listenCalls]), .inl ⟨rfl, rfl⟩, rfl, (serves_ndt7_paths _ _).1⟩,
    ⟨_, _, _, _, hu (.listen (cleartextServer f (metadataOf f))) (by simp [listenCalls]), .inl ⟨rfl, rfl⟩, rfl, (serves_ndt7_paths _ _).2⟩,
    ⟨_, _, hu (.listen (healthServer f)) (by simp [listenCalls]), .inl ⟨rfl, rfl⟩, rfl, .mux _ (str "/health") _ (by simp) (.inl rfl) ?_⟩⟩
  intro r hr _
  rw [List.mem_singleton] at hr
  subst hr; exact Nat.le_refl _

/-- C61: when the server is up, ndt5 over secure websockets is offered, anywhere, exactly with a certificate and a key; and then at its address with that certificate and key. -/
theorem C61_wss_iff (h : Prog.Runs (main f ver) evs x) (hw : .emit .wait ∈ evs) :
    ((∃ secure addr path passed d c k md, Offers evs secure addr path passed (.ndt5WSS d c k md)) ↔ f.certFile ≠ [] ∧ f.keyFile ≠ []) ∧
    (f.certFile ≠ [] ∧ f.keyFile ≠ [] → ∃ ac md,
      Offers evs true f.ndt5WssAddr (str "/ndt_protocol") [ac] (.ndt5WSS (f.dataDir ++ str "/ndt5") f.certFile f.keyFile md)) := by
  have key : f.certFile ≠ [] ∧ f.keyFile ≠ [] →
      Offers evs true f.ndt5WssAddr (str "/ndt_protocol") [access5 f] (.ndt5WSS (f.dataDir ++ str "/ndt5") f.certFile f.keyFile (metadataOf f)) := by
    intro hc
    exact ⟨_, _, (up h hw).1 (.listenTLS (wssServer f (metadataOf f)) f.certFile f.keyFile) (by simp [listenCalls, tlsCalls, hc]), .inr ⟨rfl, _, _, rfl⟩, rfl,
      .access _ _ _ _ (serves_ndt5_path _ _)⟩
  refine ⟨⟨?_, fun hc => ⟨_, _, _, _, _, _, _, _, key hc⟩⟩, fun hc => ⟨_, _, key hc⟩⟩
  rintro ⟨secure, addr, path, passed, d, c, k, md, s, e, hm, hs, -, hserve⟩
  rcases starts_cases h hm hs with ⟨-, rfl | rfl | rfl⟩ | ⟨-, hc, -⟩ | ⟨-, -, -, rfl⟩
  · rcases (serves_ws hserve).2 with h | ⟨-, h⟩ <;> cases h
  · rcases (serves_ndt7 hserve).2 with h | ⟨-, h⟩ | ⟨-, h⟩ <;> cases h
  · obtain ⟨-, -, h⟩ := serves_health hserve; cases h
  · exact hc
  · rcases (serves_ndt7 (f := f) (md := metadataOf f) hserve).2 with h | ⟨-, h⟩ | ⟨-, h⟩ <;> cases h

/-- C61: when the server is up, ndt7 over TLS is offered, anywhere, exactly with certificate and key, or with autocert and a hostname; and then both tests at the address of ndt7. -/
theorem C61_ndt7_tls_iff (h : Prog.Runs (main f ver) evs x) (hw : .emit .wait ∈ evs) :
    ((∃ addr path passed leaf, Leaf.isNdt7 leaf ∧ Offers evs true addr path passed leaf) ↔
      (f.certFile ≠ [] ∧ f.keyFile ≠ []) ∨ (f.autocertEnabled = true ∧ f.autocertHostname ≠ [])) ∧
    ((f.certFile ≠ [] ∧ f.keyFile ≠ []) ∨ (f.autocertEnabled = true ∧ f.autocertHostname ≠ []) → ∃ ac md,
      Offers evs true f.ndt7Addr (str "/ndt/v7/download") [ac] (.ndt7Download f.dataDir f.ndt7Addr f.ndt7AddrCleartext md f.compress) ∧
      Offers evs true f.ndt7Addr (str "/ndt/v7/upload") [ac] (.ndt7Upload f.dataDir f.ndt7Addr f.ndt7AddrCleartext md f.compress)) := by
  have key : (f.certFile ≠ [] ∧ f.keyFile ≠ []) ∨ (f.autocertEnabled = true ∧ f.autocertHostname ≠ []) →
      Offers evs true f.ndt7Addr (str "/ndt/v7/download") [access7 f] (.ndt7Download f.dataDir f.ndt7Addr f.ndt7AddrCleartext (metadataOf f) f.compress) ∧
      Offers evs true f.ndt7Addr (str "/ndt/v7/upload") [access7 f] (.ndt7Upload f.dataDir f.ndt7Addr f.ndt7AddrCleartext (metadataOf f) f.compress) := by
    intro hc
    by_cases h1 : f.certFile ≠ [] ∧ f.keyFile ≠ []
    · have hm := (up h hw).1 (.listenTLS (ndt7Server f (metadataOf f)) f.certFile f.keyFile) (by simp [listenCalls, tlsCalls, h1])
      exact ⟨⟨_, _, hm, .inr ⟨rfl, _, _, rfl⟩, rfl, (serves_ndt7_paths _ _).1⟩, ⟨_, _, hm, .inr ⟨rfl, _, _, rfl⟩, rfl, (serves_ndt7_paths _ _).2⟩⟩
    · have h2 := hc.resolve_left h1
      have hm := (up h hw).1 (.listenTLS (autoServer f (metadataOf f)) f.certFile f.keyFile) (by simp only [listenCalls, tlsCalls, if_neg h1, if_pos h2]; simp)
      exact ⟨⟨_, _, hm, .inr ⟨rfl, _, _, rfl⟩, rfl, (serves_ndt7_paths _ _).1⟩, ⟨_, _, hm, .inr ⟨rfl, _, _, rfl⟩, rfl, (serves_ndt7_paths _ _).2⟩⟩
  refine ⟨⟨?_, fun hc => ⟨_, _, _, _, ?_, (key hc).1⟩⟩, fun hc => ⟨_, _, key hc⟩⟩
  · rintro ⟨addr, path, passed, leaf, hl, s, e, hm, hs, -, hserve⟩
    rcases starts_cases h hm hs with ⟨h, -⟩ | ⟨-, hc, -⟩ | ⟨-, -, hc, -⟩
    · cases h
    · exact .inl hc
    · exact .inr hc
  · exact trivial

/-- What a table of paths makes of a path: its entry, and for any other path the files of the directory. -/
def RoutesTo (dir : Bytes) (table : List (Bytes × Leaf)) (path : Bytes) (leaf : Leaf) : Prop :=
  (path, leaf) ∈ table ∨ ((∀ r ∈ table, r.1 ≠ path) ∧ path.head? = some 47 ∧ leaf = .files dir)

private theorem root_matches {path : Bytes} : Matches (str "/") path ↔ path.head? = some 47 := by
  rw [show str "/" = [47] from rfl]
  cases path with
  | nil => simp [Matches]
  | cons b s =>
    simp only [Matches, List.head?_cons, Option.some.injEq, List.getLast?_singleton, true_and, List.cons.injEq, List.cons_prefix_cons]
    constructor
    · rintro (⟨h, -⟩ | ⟨h, -⟩) <;> exact h.symm
    · rintro rfl; exact .inr ⟨rfl, List.nil_prefix⟩

/-- Below the root, a table whose paths begin with a slash and do not end with one. -/
private theorem serves_table {dir path : Bytes} {table : List (Bytes × Leaf)} {leaf : Leaf}
    (ht : ∀ r ∈ table, r.1.head? = some 47 ∧ r.1.getLast? ≠ some 47) :
    Serves path (.mux ((str "/", .files dir) :: table)) [] leaf ↔ RoutesTo dir table path leaf := by
  have hlen : ∀ r ∈ table, 1 ≤ r.1.length := by
    intro r hr
    have := (ht r hr).1
    cases h : r.1 with
    | nil => rw [h] at this; cases this
    | cons => simp
  constructor
  · intro h
    cases h with
    | mux routes pattern leaf hmem hmat hmax =>
      rcases List.mem_cons.1 hmem with h | h
      · cases h
        refine .inr ⟨?_, root_matches.1 hmat, rfl⟩
        rintro r hr rfl
        have h1 := hmax r (List.mem_cons_of_mem _ hr) (.inl rfl)
        have h2 := (ht r hr)
        cases hp : r.1 with
        | nil => rw [hp] at h2; simp at h2
        | cons b t =>
          rw [hp] at h1 h2
          have h3 : t = [] := by
            rw [show (str "/").length = 1 from rfl] at h1
            simpa using h1
          subst h3
          exact h2.2 (by simpa using h2.1)
      · have := matches_exact hmat (ht _ h).2
        subst this
        exact .inl h
  · rintro (h | ⟨h1, h2, rfl⟩)
    · refine .mux _ path leaf (List.mem_cons_of_mem _ h) (.inl rfl) ?_
      intro r hr hm
      rcases List.mem_cons.1 hr with rfl | hr
      · exact hlen _ h
      · rw [matches_exact hm (ht r hr).2]; exact Nat.le_refl _
    · refine .mux _ (str "/") _ List.mem_cons_self (root_matches.2 h2) ?_
      intro r hr hm
      rcases List.mem_cons.1 hr with rfl | hr
      · exact Nat.le_refl _
      · exact absurd (matches_exact hm (ht r hr).2).symm (h1 r hr)

private theorem serves_log_iff {path : Bytes} {h : Handler} {l : List Access} {leaf : Leaf} : Serves path (.log h) l leaf ↔ Serves path h l leaf :=
  ⟨serves_log, .log _ _ _⟩

private theorem serves_access_iff {path : Bytes} {ac : Access} {h : Handler} {l : List Access} {leaf : Leaf} :
    Serves path (.access ac h) l leaf ↔ ∃ l', l = ac :: l' ∧ Serves path h l' leaf :=
  ⟨serves_access, by rintro ⟨l', rfl, h⟩; exact .access _ _ _ _ h⟩

private theorem mux_passed {path : Bytes} {routes : List (Bytes × Leaf)} {l : List Access} {leaf : Leaf} :
    Serves path (.mux routes) l leaf ↔ l = [] ∧ Serves path (.mux routes) [] leaf :=
  ⟨fun h => ⟨(serves_mux h).1, (serves_mux h).1 ▸ h⟩, by rintro ⟨rfl, h⟩; exact h⟩

private theorem serves5 {dir path : Bytes} {l : List Access} {t leaf : Leaf} :
    Serves path (.log (.mux [(str "/", .files dir), (ndt5Path, t)])) l leaf ↔ l = [] ∧ RoutesTo dir [(ndt5Path, t)] path leaf := by
  rw [serves_log_iff, mux_passed, serves_table]
  intro r hr
  rw [List.mem_singleton] at hr
  subst hr
  exact ⟨rfl, no_slash.2.2.1⟩

private theorem serves7 {f : Flags} {md : List NameValue} {path : Bytes} {l : List Access} {leaf : Leaf} :
    Serves path (.access (access7 f) (.log (ndt7Mux f md))) l leaf ↔ l = [access7 f] ∧
      RoutesTo f.htmlDir [(downloadPath, .ndt7Download f.dataDir f.ndt7Addr f.ndt7AddrCleartext md f.compress),
        (uploadPath, .ndt7Upload f.dataDir f.ndt7Addr f.ndt7AddrCleartext md f.compress)] path leaf := by
  rw [serves_access_iff]
  simp only [serves_log_iff, ndt7Mux]
  constructor
  · rintro ⟨l', rfl, h⟩
    obtain ⟨rfl, h⟩ := mux_passed.1 h
    refine ⟨rfl, (serves_table ?_).1 h⟩
    intro r hr
    simp only [List.mem_cons, List.not_mem_nil, or_false] at hr
    rcases hr with rfl | rfl
    · exact ⟨rfl, no_slash.1⟩
    · exact ⟨rfl, no_slash.2.1⟩
  · rintro ⟨rfl, h⟩
    refine ⟨[], rfl, (serves_table ?_).2 h⟩
    intro r hr
    simp only [List.mem_cons, List.not_mem_nil, or_false] at hr
    rcases hr with rfl | rfl
    · exact ⟨rfl, no_slash.1⟩
    · exact ⟨rfl, no_slash.2.1⟩

/-- C61: exactly what is offered when the server is up: for every address and path, with and without TLS, which access controllers are passed and what answers. -/
theorem C61_offers (h : Prog.Runs (main f ver) evs x) (hw : .emit .wait ∈ evs) (secure : Bool) (addr path : Bytes) (passed : List Access) (leaf : Leaf) :
    Offers evs secure addr path passed leaf ↔
      (secure = false ∧ addr = f.ndt5WsAddr ∧ passed = [] ∧
        RoutesTo f.htmlDir [(str "/ndt_protocol", .ndt5WS (f.dataDir ++ str "/ndt5") (f.labels.map fun l => ⟨l.1, l.2⟩))] path leaf) ∨
      (((secure = false ∧ addr = f.ndt7AddrCleartext) ∨
          (secure = true ∧ addr = f.ndt7Addr ∧ ((f.certFile ≠ [] ∧ f.keyFile ≠ []) ∨ (f.autocertEnabled = true ∧ f.autocertHostname ≠ [])))) ∧
        passed = [⟨f.tokenRequired7, f.tokenMachine, [str "/ndt/v7/download"], [str "/ndt/v7/download", str "/ndt/v7/upload"]⟩] ∧
        RoutesTo f.htmlDir [(str "/ndt/v7/download", .ndt7Download f.dataDir f.ndt7Addr f.ndt7AddrCleartext (f.labels.map fun l => ⟨l.1, l.2⟩) f.compress),
          (str "/ndt/v7/upload", .ndt7Upload f.dataDir f.ndt7Addr f.ndt7AddrCleartext (f.labels.map fun l => ⟨l.1, l.2⟩) f.compress)] path leaf) ∨
      (secure = true ∧ addr = f.ndt5WssAddr ∧ (f.certFile ≠ [] ∧ f.keyFile ≠ []) ∧
        passed = [⟨f.tokenRequired5, f.tokenMachine, [str "/ndt_protocol"], [str "/ndt_protocol"]⟩] ∧
        RoutesTo f.htmlDir [(str "/ndt_protocol", .ndt5WSS (f.dataDir ++ str "/ndt5") f.certFile f.keyFile (f.labels.map fun l => ⟨l.1, l.2⟩))] path leaf) ∨
      (secure = false ∧ addr = f.healthAddr ∧ passed = [] ∧ path = str "/health" ∧ leaf = .health) := by
  constructor
  · rintro ⟨s, e, hm, hs, rfl, hserve⟩
    rcases starts_cases h hm hs with ⟨rfl, rfl | rfl | rfl⟩ | ⟨rfl, hc, rfl | rfl⟩ | ⟨rfl, -, ha, rfl⟩
    · obtain ⟨h1, h2⟩ := serves5.1 hserve
      exact .inl ⟨rfl, rfl, h1, h2⟩
    · obtain ⟨h1, h2⟩ := serves7.1 hserve
      exact .inr (.inl ⟨.inl ⟨rfl, rfl⟩, h1, h2⟩)
    · obtain ⟨h1, h2, h3⟩ := serves_health hserve
      exact .inr (.inr (.inr ⟨rfl, rfl, h1, h2, h3⟩))
    · obtain ⟨l', rfl, h1⟩ := serves_access hserve
      obtain ⟨rfl, h2⟩ := serves5.1 h1
      exact .inr (.inr (.inl ⟨rfl, rfl, hc, rfl, h2⟩))
    · obtain ⟨h1, h2⟩ := serves7.1 hserve
      exact .inr (.inl ⟨.inr ⟨rfl, rfl, .inl hc⟩, h1, h2⟩)
    · obtain ⟨h1, h2⟩ := serves7.1 hserve
      exact .inr (.inl ⟨.inr ⟨rfl, rfl, .inr ha⟩, h1, h2⟩)
  · have hu := (up h hw).1
    rintro (⟨rfl, rfl, rfl, hr⟩ | ⟨⟨rfl, rfl⟩ | ⟨rfl, rfl, hc⟩, rfl, hr⟩ | ⟨rfl, rfl, hc, rfl, hr⟩ | ⟨rfl, rfl, rfl, rfl, rfl⟩)
    · exact ⟨_, _, hu (.listen (wsServer f (metadataOf f))) (by simp [listenCalls]), .inl ⟨rfl, rfl⟩, rfl, serves5.2 ⟨rfl, hr⟩⟩
    · exact ⟨_, _, hu (.listen (cleartextServer f (metadataOf f))) (by simp [listenCalls]), .inl ⟨rfl, rfl⟩, rfl, serves7.2 ⟨rfl, hr⟩⟩
    · by_cases h1 : f.certFile ≠ [] ∧ f.keyFile ≠ []
      · exact ⟨_, _, hu (.listenTLS (ndt7Server f (metadataOf f)) f.certFile f.keyFile) (by simp [listenCalls, tlsCalls, h1]), .inr ⟨rfl, _, _, rfl⟩, rfl,
          serves7.2 ⟨rfl, hr⟩⟩
      · exact ⟨_, _, hu (.listenTLS (autoServer f (metadataOf f)) f.certFile f.keyFile)
          (by simp only [listenCalls, tlsCalls, if_neg h1, if_pos (hc.resolve_left h1)]; simp), .inr ⟨rfl, _, _, rfl⟩, rfl, serves7.2 ⟨rfl, hr⟩⟩
    · exact ⟨_, _, hu (.listenTLS (wssServer f (metadataOf f)) f.certFile f.keyFile) (by simp [listenCalls, tlsCalls, hc]), .inr ⟨rfl, _, _, rfl⟩, rfl,
        .access _ _ _ _ (serves5.2 ⟨rfl, hr⟩)⟩
    · exact (C61_always f ver evs x h hw).2.2.2.2

/-- C61: a listener that fails is the last thing that happens: no later service starts and the server does not wait. -/
theorem C61_failure (h : Prog.Runs (main f ver) evs x) (q : MainCall) (hq : q ≠ .newVerifier) (r : Outcome (Option Err)) (hr : r ≠ .ok none)
    (hm : Event.call q r ∈ evs) : x ≠ .ok ∧ ∃ before, evs = before ++ [.call q r] := by
  unfold main at h
  replace h := runs_must h
  rcases h with ⟨e1, rfl, h⟩ | ⟨r', h1, rfl, h3⟩
  · replace hm := List.mem_cons.1 hm
    rcases hm with hm | hm
    · simp only [Event.call.injEq] at hm
      obtain ⟨rfl, h2⟩ := hm
      exact absurd (eq_of_heq h2) hr
    rw [parse_eq] at h
    dsimp only at h
    cases h with
    | call q' k r' evs b h =>
      replace hm := (List.mem_cons.1 hm).resolve_left (by
        intro h
        simp only [Event.call.injEq] at h
        exact hq h.1)
      rcases r' with v | m
      · dsimp only at h
        split at h
        · cases h; cases hm
        · rw [mainTLS_eq] at h
          replace h := runs_mustAll (qs := .eventListen f.eventSocket :: listenCalls f (metadataOf f)) h
          rcases h with ⟨e3, rfl, h⟩ | ⟨a, q', b, r', h1, h2, rfl, h3⟩
          · exfalso
            cases h with
            | emit o k evs b h =>
              obtain ⟨rfl, rfl⟩ := runs_closeAll h
              rcases List.mem_append.1 hm with hm | hm
              · obtain ⟨q', -, h2⟩ := List.mem_map.1 hm
                simp only [done, Event.call.injEq] at h2
                obtain ⟨rfl, h2⟩ := h2
                exact hr (eq_of_heq h2).symm
              · simp at hm
          · refine ⟨h3, ?_⟩
            rcases List.mem_append.1 hm with hm | hm
            · obtain ⟨q', -, h2⟩ := List.mem_map.1 hm
              simp only [done, Event.call.injEq] at h2
              obtain ⟨rfl, h2⟩ := h2
              exact absurd (eq_of_heq h2).symm hr
            · rw [List.mem_singleton] at hm
              rw [hm]
              exact ⟨_ :: _ :: _, rfl⟩
      · cases h; cases hm
  · rw [List.mem_singleton] at hm
    exact ⟨h3, [], by rw [hm]; rfl⟩

/-- C61: without a working verifier a server that requires tokens listens nowhere. -/
theorem C61_verifier (h : Prog.Runs (main f ver) evs x) (e : Err) (ht : f.tokenRequired5 = true ∨ f.tokenRequired7 = true)
    (hm : Event.call MainCall.newVerifier (.ok (some e)) ∈ evs) :
    x ≠ .ok ∧ (∀ secure s e, e ∈ evs → ¬ StartsServer secure s e) ∧ ∀ a b c d t r, .call (.listenRaw a b c d t) r ∉ evs := by
  have hn : ∀ q ∈ listenCalls f (metadataOf f), q ≠ .newVerifier := by
    intro q hq
    simp only [listenCalls, tlsCalls] at hq
    rintro rfl
    split at hq
    · simp at hq
    · split at hq <;> simp at hq
  rcases main_runs h with ⟨h1, h2⟩ | ⟨pre, ⟨v, rfl, hv⟩, ⟨-, rfl⟩ | ⟨-, a, q', b, r, h1, h2, rfl⟩⟩
  · refine ⟨h2, ?_, ?_⟩
    · intro secure s e he hs
      obtain ⟨r, h1⟩ := h1 _ he
      rcases hs with ⟨-, rfl⟩ | ⟨-, c, k, rfl⟩ <;> simp at h1
    · intro a b c d t r he
      obtain ⟨r, h1⟩ := h1 _ he
      simp at h1
  · exfalso
    rw [hv ht] at hm
    simp only [List.append_assoc, List.mem_append, List.mem_cons, List.mem_map, done, Event.call.injEq, reduceCtorEq, false_and, List.not_mem_nil, or_false,
      false_or, true_and] at hm
    rcases hm with hm | ⟨q, hq, h1, -⟩ | ⟨a, -, h⟩
    · simp at hm
    · exact hn _ hq h1
    · cases h
  · exfalso
    rw [hv ht] at hm
    simp only [List.append_assoc, List.mem_append, List.mem_cons, List.mem_map, done, Event.call.injEq, reduceCtorEq, false_and, List.not_mem_nil, or_false,
      false_or, true_and] at hm
    rcases hm with hm | ⟨q, hq, h3, -⟩ | ⟨h3, -⟩
    · simp at hm
    · exact hn q (by rw [h1]; simp [hq]) h3
    · exact hn q' (by rw [h1]; simp) h3.symm

/-- C61: when `main` returns, every HTTP server it started has been closed. -/
theorem C61_closed (h : Prog.Runs (main f ver) evs .ok) (secure : Bool) (s : HttpServer) (e : Event mainSig) (hm : e ∈ evs) (hs : StartsServer secure s e) :
    .emit (.close s.addr) ∈ evs := by
  have hw : .emit .wait ∈ evs := by
    rcases main_runs h with ⟨-, h2⟩ | ⟨pre, -, ⟨-, rfl⟩ | ⟨h2, -⟩⟩
    · exact absurd rfl h2
    · simp
    · exact absurd rfl h2
  apply (up h hw).2
  rcases starts_cases h hm hs with ⟨-, rfl | rfl | rfl⟩ | ⟨-, hc, rfl | rfl⟩ | ⟨-, hc, ha, rfl⟩
  · simp [closes, wsServer, httpServer]
  · simp [closes, cleartextServer, httpServer]
  · simp [closes, healthServer, httpServer]
  · simp only [closes, if_pos hc]; simp [wssServer, httpServer]
  · simp only [closes, if_pos hc]; simp [ndt7Server, httpServer]
  · simp only [closes, if_neg hc, if_pos ha]; simp [autoServer, ndt7Server, httpServer]

/-- C61, what holds of serving: if certificate and key are given both or neither, no server with TLS dies for lack of one. -/
theorem C61_tls_serves_partial (h : Prog.Runs (main f ver) evs x) (hc : f.certFile = [] ↔ f.keyFile = []) (s : HttpServer) (c k : Bytes)
    (hm : Event.call (MainCall.listenTLS s c k) (.ok none) ∈ evs) : ¬ serveTLSDies s c k := by
  have hs : StartsServer true s (.call (.listenTLS s c k) (.ok none)) := .inr ⟨rfl, c, k, rfl⟩
  have hck : .listenTLS s c k ∈ listenCalls f (metadataOf f) := by
    rcases main_runs h with ⟨h1, -⟩ | ⟨pre, ⟨v, rfl, -⟩, ⟨-, rfl⟩ | ⟨-, a, q', b, r, h1, h2, rfl⟩⟩
    · obtain ⟨r, h1⟩ := h1 _ hm
      simp at h1
    · simp only [List.append_assoc, List.mem_append, List.mem_cons, List.mem_map, done, Event.call.injEq, reduceCtorEq, false_and, List.not_mem_nil, or_false,
        false_or, and_false, exists_false] at hm
      obtain ⟨q, hq, rfl, -⟩ := hm
      exact hq
    · simp only [List.append_assoc, List.mem_append, List.mem_cons, List.mem_map, done, Event.call.injEq, reduceCtorEq, false_and, List.not_mem_nil, or_false,
        false_or] at hm
      rcases hm with ⟨q, hq, rfl, -⟩ | ⟨rfl, -⟩
      · rw [h1]; simp [hq]
      · rw [h1]; simp
  simp only [listenCalls, tlsCalls] at hck
  rintro ⟨h1, h2⟩
  split at hck
  · rename_i hne
    simp at hck
    rcases hck with ⟨-, rfl, rfl⟩ | ⟨-, rfl, rfl⟩ <;> exact h2.elim hne.1 hne.2
  · rename_i hne
    split at hck
    · simp at hck
      obtain ⟨rfl, rfl, rfl⟩ := hck
      have hc1 : f.certFile = [] := by
        by_cases hz : f.certFile = []
        · exact hz
        · exact absurd ⟨hz, fun hk => hz (hc.2 hk)⟩ hne
      rcases h1 with h1 | h1 | h1
      · simp [autoServer] at h1
      · exact h1 hc1
      · exact h1 (hc.1 hc1)
    · simp at hck

end

/-- Flags with autocert, a hostname, tokens required, and a certificate without a key. -/
private def oddFlags : Flags :=
  { ndt7Addr := str ":443", ndt7AddrCleartext := str ":80", ndt5Addr := str ":3001", ndt5WsAddr := str "127.0.0.1:3002", ndt5WssAddr := str ":3010",
    healthAddr := str "127.0.0.1:8000", certFile := str "/certs/cert.pem", keyFile := [], tlsVersion := str "1.2", autocertEnabled := true,
    autocertHostname := str "ndt.example.org", dataDir := str "/var/spool/ndt", htmlDir := str "html", compress := true, labels := [(str "machine-type", str "virtual")],
    tokenRequired5 := true, tokenRequired7 := true, tokenMachine := str "mlab1-lga0t", eventSocket := [] }

private def usualEvents (f : Flags) : List (Event mainSig) :=
  [done .argsFromEnv, done .newVerifier, done (.eventListen f.eventSocket)] ++ (listenCalls f (metadataOf f)).map done ++ .emit .wait ::
    (closes f).map fun a => .emit (.close a)

private theorem must_follows (q : MainCall) (k : Prog mainSig Exit) (evs : List (Event mainSig)) (x : Exit) (h : Prog.Runs k evs x) :
    Prog.Runs (must q k) (done q :: evs) x := by
  unfold must done
  refine @Prog.Runs.call mainSig Exit q _ (.ok none) _ _ ?_
  exact h

private theorem mustAll_follows (qs : List MainCall) (k : Prog mainSig Exit) (evs : List (Event mainSig)) (x : Exit) (h : Prog.Runs k evs x) :
    Prog.Runs (mustAll qs k) (qs.map done ++ evs) x := by
  induction qs with
  | nil => exact h
  | cons q qs ih => exact must_follows _ _ _ _ ih

private theorem closeAll_follows (l : List Bytes) : Prog.Runs (closeAll l) (l.map fun a => .emit (.close a)) .ok := by
  induction l with
  | nil => exact .ret _
  | cons a l ih => exact .emit _ _ _ _ ih

/-- C61: whatever the flags, the server may come up: nothing above holds merely because `main` never waits. -/
theorem C61_up (f : Flags) (ver : Bytes) : ∃ evs, Prog.Runs (main f ver) evs .ok ∧ .emit .wait ∈ evs := by
  refine ⟨usualEvents f, ?_, by simp [usualEvents]⟩
  unfold main
  refine must_follows _ _ _ _ ?_
  rw [parse_eq]
  dsimp only
  refine @Prog.Runs.call mainSig Exit .newVerifier _ (.ok none) _ _ ?_
  dsimp only
  rw [if_neg (by simp), mainTLS_eq]
  refine must_follows _ _ _ _ ?_
  exact mustAll_follows _ _ _ _ (.emit _ _ _ _ (closeAll_follows _))

/-- C61 as stated fails in one corner: with autocert and a hostname, and a certificate without a key, ndt7 over TLS starts to listen but ends the whole process. -/
theorem C61_tls_serves_false : ¬ ∀ (f : Flags) (ver : Bytes) (evs : List (Event mainSig)) (x : Exit), Prog.Runs (main f ver) evs x →
    f.autocertEnabled = true ∧ f.autocertHostname ≠ [] → ∀ s c k, Event.call (MainCall.listenTLS s c k) (.ok none) ∈ evs → ¬ serveTLSDies s c k := by
  intro h
  obtain ⟨evs, h1, h2⟩ := C61_up oddFlags []
  refine h oddFlags [] evs .ok h1 ⟨rfl, by decide⟩ (autoServer oddFlags (metadataOf oddFlags)) oddFlags.certFile oddFlags.keyFile ((up h1 h2).1 _ ?_) ?_
  · simp [listenCalls, tlsCalls, oddFlags, str]
  · exact ⟨.inr (.inl (by decide)), .inr rfl⟩

/-- C61, C62: with these flags ndt7 over TLS is offered, ndt5 over secure websockets is not, and tokens are enforced. -/
example : ∃ evs, Prog.Runs (main oddFlags (str "v0.22")) evs .ok ∧
    (∃ ac md, ac.tokenRequired = true ∧ Offers evs true (str ":443") (str "/ndt/v7/download") [ac] (.ndt7Download (str "/var/spool/ndt") (str ":443") (str ":80") md true)) ∧
    ¬ ∃ secure addr path passed d c k md, Offers evs secure addr path passed (.ndt5WSS d c k md) := by
  obtain ⟨evs, h1, h2⟩ := C61_up oddFlags (str "v0.22")
  refine ⟨evs, h1, ?_, ?_⟩
  · obtain ⟨ac, md, h3, -⟩ := (C61_ndt7_tls_iff _ _ _ _ h1 h2).2 (.inr ⟨rfl, by decide⟩)
    obtain ⟨ac', h4, h5, -⟩ := C61_ndt7_controlled _ _ _ _ h1 _ _ _ _ _ h3 trivial
    cases h4
    exact ⟨ac, md, h5, h3⟩
  · rw [(C61_wss_iff _ _ _ _ h1 h2).1]
    simp [oddFlags]

/-! ## The order of what main does -/

private theorem split_at {α : Type} {a : α} {l r Y Z : List α} (h : l ++ r = Y ++ a :: Z) (hl : a ∈ l) (hY : a ∉ Y) : ∃ t, l = Y ++ a :: t ∧ Z = t ++ r := by
  rcases List.append_eq_append_iff.1 h with ⟨t, rfl, ht⟩ | ⟨t, rfl, ht⟩
  · exact absurd (List.mem_append_left _ hl) hY
  · cases t with
    | nil => rw [List.append_nil] at hl; exact absurd hl hY
    | cons b t =>
      injection ht with h1 h2
      subst h1
      exact ⟨t, rfl, h2⟩

private theorem listenCalls_last (f : Flags) (md : List NameValue) : ∃ front, listenCalls f md = front ++ [.listen (healthServer f)] ∧ .listen (healthServer f) ∉ front := by
  refine ⟨_, rfl, fun h => ?_⟩
  have hw : healthServer f ≠ wsServer f md := fun h => by have := congrArg HttpServer.handler h; simp [healthServer, wsServer, httpServer] at this
  have hc : healthServer f ≠ cleartextServer f md := fun h => by have := congrArg HttpServer.handler h; simp [healthServer, cleartextServer, httpServer] at this
  simp only [tlsCalls] at h
  split at h
  · simp [hw, hc] at h
  · split at h <;> simp [hw, hc] at h

/-- `main` starts the health service last: what it does after that are notifications, the first of them that it waits. -/
theorem main_after_health {f : Flags} {ver : Bytes} {l r : List (Event mainSig)} {x : Exit} (h : Prog.Runs (main f ver) (l ++ r) x)
    (hm : .call (.listen (healthServer f)) (.ok none) ∈ l) : .emit .wait ∈ l ++ r ∧ ∀ e ∈ r, ∃ n, e = .emit n := by
  obtain ⟨front, hl, hn⟩ := listenCalls_last f (metadataOf f)
  have hpre : ∀ v : Option Err, done (.listen (healthServer f)) ∉ ([done .argsFromEnv, .call .newVerifier (.ok v), done (.eventListen f.eventSocket)] : List (Event mainSig)) := by
    intro v hv
    simp [done] at hv
  have hfront : ∀ {a : List MainCall}, MainCall.listen (healthServer f) ∉ a → done (.listen (healthServer f)) ∉ a.map done := by
    intro a ha hm
    obtain ⟨q, hq, h2⟩ := List.mem_map.1 hm
    simp only [done, Event.call.injEq] at h2
    exact ha (h2.1 ▸ hq)
  rcases main_runs h with ⟨h1, -⟩ | ⟨pre, ⟨v, rfl, -⟩, ⟨-, he⟩ | ⟨-, a, q', b, r', h1, h2, he⟩⟩
  · obtain ⟨r', h1⟩ := h1 _ (List.mem_append_left _ hm)
    simp at h1
  · refine ⟨by rw [he]; simp, ?_⟩
    rw [hl, List.map_append, List.map_singleton, ← List.append_assoc, List.append_assoc _ [_], List.singleton_append] at he
    obtain ⟨t, -, hz⟩ := split_at he hm (by
      rw [List.mem_append]
      exact fun h => h.elim (hpre v) (hfront hn))
    intro e her
    have : e ∈ Event.emit MainNote.wait :: (closes f).map (fun a => (Event.emit (MainNote.close a) : Event mainSig)) := by rw [hz]; exact List.mem_append_right _ her
    rcases List.mem_cons.1 this with rfl | h
    · exact ⟨_, rfl⟩
    · obtain ⟨a, -, rfl⟩ := List.mem_map.1 h
      exact ⟨_, rfl⟩
  · exfalso
    have hm' : done (.listen (healthServer f)) ∈ l ++ r := List.mem_append_left _ hm
    rw [he] at hm'
    rcases List.mem_append.1 hm' with hm' | hm'
    · rcases List.mem_append.1 hm' with hm' | hm'
      · exact hpre v hm'
      · refine hfront (a := a) (fun ha => hn ?_) hm'
        rw [hl] at h1
        rcases List.append_eq_append_iff.1 h1 with ⟨t, rfl, ht⟩ | ⟨t, rfl, ht⟩
        · have := congrArg List.length ht
          simp only [List.length_append, List.length_cons, List.length_nil] at this
          have : t = [] := List.eq_nil_of_length_eq_zero (by omega)
          subst this
          simpa using ha
        · exact List.mem_append_left _ ha
    · rw [List.mem_singleton] at hm'
      simp only [done, Event.call.injEq] at hm'
      obtain ⟨rfl, h3⟩ := hm'
      exact h2 (eq_of_heq h3).symm

/-- `main` closes servers only after it has waited. -/
theorem main_close_after_wait {f : Flags} {ver : Bytes} {l r : List (Event mainSig)} {x : Exit} {a : Bytes}
    (h : Prog.Runs (main f ver) (l ++ .emit (.close a) :: r) x) : .emit .wait ∈ l := by
  have hcalls : ∀ (qs : List MainCall) (v : Option Err), (Event.emit (MainNote.close a) : Event mainSig) ∉
      ([done .argsFromEnv, .call .newVerifier (.ok v), done (.eventListen f.eventSocket)] : List (Event mainSig)) ++ qs.map done := by
    intro qs v hm
    simp [done] at hm
  rcases main_runs h with ⟨h1, -⟩ | ⟨pre, ⟨v, rfl, -⟩, ⟨-, he⟩ | ⟨-, a', q', b, r', h1, h2, he⟩⟩
  · obtain ⟨r', h1⟩ := h1 (.emit (.close a)) (by simp)
    simp at h1
  · rcases List.append_eq_append_iff.1 he with ⟨t, ht, hc⟩ | ⟨t, rfl, hc⟩
    · exfalso
      cases t with
      | nil => injection hc with h1; simp at h1
      | cons b t =>
        injection hc with h1 _
        subst h1
        exact hcalls _ v (by rw [ht]; simp)
    · cases t with
      | nil => injection hc with h1; simp at h1
      | cons b t =>
        injection hc with h1 _
        subst h1
        simp
  · exfalso
    have hm : (Event.emit (MainNote.close a) : Event mainSig) ∈ l ++ .emit (.close a) :: r := by simp
    rw [he] at hm
    rcases List.mem_append.1 hm with hm | hm
    · exact hcalls _ v hm
    · simp at hm

/-- `main` returns only after it has waited; otherwise one of its calls has failed. -/
theorem main_exit {f : Flags} {ver : Bytes} {evs : List (Event mainSig)} {x : Exit} (h : Prog.Runs (main f ver) evs x) :
    (x = .ok ∧ .emit .wait ∈ evs) ∨ (x ≠ .ok ∧ ∃ q, ∃ r : Outcome (Option Err), .call q r ∈ evs ∧ r ≠ .ok none) := by
  unfold main at h
  replace h := runs_must h
  rcases h with ⟨e1, rfl, h⟩ | ⟨r, h1, rfl, h3⟩
  · rw [parse_eq] at h
    dsimp only at h
    cases h with
    | call q k r evs b h =>
      rcases r with v | m
      · dsimp only at h
        split at h
        · rename_i hv
          cases h
          refine .inr ⟨by simp, .newVerifier, .ok v, by simp, fun hv' => ?_⟩
          injection hv' with hv'
          subst hv'
          simp at hv
        · rw [mainTLS_eq] at h
          replace h := runs_mustAll (qs := .eventListen f.eventSocket :: listenCalls f (metadataOf f)) h
          rcases h with ⟨e3, rfl, h⟩ | ⟨a, q', b, r', h1, h2, rfl, h3⟩
          · cases h with
            | emit o k evs b h =>
              obtain ⟨rfl, rfl⟩ := runs_closeAll h
              exact .inl ⟨rfl, by simp⟩
          · exact .inr ⟨h3, q', r', by simp, h2⟩
      · cases h
        exact .inr ⟨by simp, .newVerifier, .panic m, by simp, by simp⟩
  · exact .inr ⟨h3, .argsFromEnv, r, by simp, h1⟩

/-- `/health` is answered by the health service only. -/
theorem health_only {f : Flags} {ver : Bytes} {evs : List (Event mainSig)} {x : Exit} (h : Prog.Runs (main f ver) evs x) {secure : Bool} {s : HttpServer}
    {e : Event mainSig} (hm : e ∈ evs) (hs : StartsServer secure s e) {path : Bytes} {passed : List Access} (hl : Serves path s.handler passed .health) :
    secure = false ∧ s = healthServer f := by
  rcases starts_cases h hm hs with ⟨h1, rfl | rfl | rfl⟩ | ⟨-, -, rfl | rfl⟩ | ⟨-, -, -, rfl⟩
  · rcases (serves_ws hl).2 with h | ⟨-, h⟩ <;> cases h
  · rcases (serves_ndt7 hl).2 with h | ⟨-, h⟩ | ⟨-, h⟩ <;> cases h
  · exact ⟨h1, rfl⟩
  · rcases (serves_wss hl).2 with h | ⟨-, h⟩ <;> cases h
  · rcases (serves_ndt7 hl).2 with h | ⟨-, h⟩ | ⟨-, h⟩ <;> cases h
  · rcases (serves_ndt7 (f := f) (md := metadataOf f) hl).2 with h | ⟨-, h⟩ | ⟨-, h⟩ <;> cases h

end Verif.Props
