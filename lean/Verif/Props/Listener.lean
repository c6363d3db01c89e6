import Verif.Main.Listener
import Verif.Props.Config

/-!
# A server that answers health checks serves

C94: what is up when the health service answers, which clients are accepted, and what can end the process.
-/

namespace Verif.Props
open Verif.Go Verif.Main

section
variable {f : Flags} {ver : Bytes} {as : List RunAct} {p : Running}

/-- The service is open and its goroutine runs or is about to. -/
def Service.Up (s : Service) : Prop := s.closed = false ∧ s.pc ≠ .ended

/-- In this state a request for `path` at the configured address, with or without TLS, reaches a service that is up, passes the access controllers and reaches the leaf. -/
def UpAt (p : Running) (secure : Bool) (addr path : Bytes) (passed : List Access) (leaf : Leaf) : Prop :=
  ∃ s ∈ p.services, Service.Up s ∧ s.addr = addr ∧ ∃ server cert key, s.kind = .http secure server cert key ∧ Serves path server.handler passed leaf

/-- Every service that the flags ask for is up. -/
structure AllUp (f : Flags) (p : Running) : Prop where
  raw : ∃ s ∈ p.services, Service.Up s ∧ s.kind = .raw ∧ s.addr = f.ndt5Addr
  ws : ∃ md, UpAt p false f.ndt5WsAddr (str "/ndt_protocol") [] (.ndt5WS (f.dataDir ++ str "/ndt5") md)
  download : ∃ ac md, UpAt p false f.ndt7AddrCleartext (str "/ndt/v7/download") [ac] (.ndt7Download f.dataDir f.ndt7Addr f.ndt7AddrCleartext md f.compress)
  upload : ∃ ac md, UpAt p false f.ndt7AddrCleartext (str "/ndt/v7/upload") [ac] (.ndt7Upload f.dataDir f.ndt7Addr f.ndt7AddrCleartext md f.compress)
  wss : f.certFile ≠ [] ∧ f.keyFile ≠ [] → ∃ ac md,
    UpAt p true f.ndt5WssAddr (str "/ndt_protocol") [ac] (.ndt5WSS (f.dataDir ++ str "/ndt5") f.certFile f.keyFile md)
  downloadTLS : (f.certFile ≠ [] ∧ f.keyFile ≠ []) ∨ (f.autocertEnabled = true ∧ f.autocertHostname ≠ []) → ∃ ac md,
    UpAt p true f.ndt7Addr (str "/ndt/v7/download") [ac] (.ndt7Download f.dataDir f.ndt7Addr f.ndt7AddrCleartext md f.compress)
  uploadTLS : (f.certFile ≠ [] ∧ f.keyFile ≠ []) ∨ (f.autocertEnabled = true ∧ f.autocertHostname ≠ []) → ∃ ac md,
    UpAt p true f.ndt7Addr (str "/ndt/v7/upload") [ac] (.ndt7Upload f.dataDir f.ndt7Addr f.ndt7AddrCleartext md f.compress)

/-- The kind and the address of the service that an event of `main` starts. -/
private def startOf : Event mainSig → Option (Kind × Bytes)
  | .call q (.ok none) => (startedBy [] q).map fun s => (s.kind, s.addr)
  | _ => none

private theorem startedBy_static (b : Bytes) (q : MainCall) :
    (startedBy b q).toList.map (fun s => (s.kind, s.addr)) = [startOf (.call q (.ok none))].filterMap id := by
  cases q <;> rfl

/-- The services are those `main` started; `main` is where its log says. -/
private structure Inv (f : Flags) (ver : Bytes) (p : Running) : Prop where
  runs : ∀ evs x, Prog.Runs p.main evs x → Prog.Runs (main f ver) (p.log ++ evs) x
  services : p.services.map (fun s => (s.kind, s.addr)) = p.log.filterMap startOf
  waits : .emit .wait ∈ p.log → p.cancelled = true
  up : p.cancelled = false → ∀ s ∈ p.services, Service.Up s
  exits : ∀ x, p.over = some (.main x) → p.main = .ret x

private theorem completes : ∀ p : Prog mainSig Exit, ∃ evs x, Prog.Runs p evs x
  | .ret b => ⟨_, _, .ret b⟩
  | .call q k => by
    obtain ⟨evs, x, h⟩ := completes (k (.panic []))
    exact ⟨_, _, .call _ _ _ _ _ h⟩
  | .emit o k => by
    obtain ⟨evs, x, h⟩ := completes k
    exact ⟨_, _, .emit _ _ _ _ h⟩
  | .clock k => by
    obtain ⟨evs, x, h⟩ := completes (k 0)
    exact ⟨_, _, .clock _ _ _ _ h⟩

private theorem closeLast_static (a : Bytes) (l : List Service) :
    (closeLast a l).map (fun s => (s.kind, s.addr)) = l.map (fun s => (s.kind, s.addr)) := by
  induction l with
  | nil => rfl
  | cons s ss ih =>
    unfold closeLast
    split
    · simp [ih]
    · split <;> rfl

private theorem set_static {l : List Service} {i : Nat} {s t : Service} (h : l[i]? = some s) (hk : t.kind = s.kind) (ha : t.addr = s.addr) :
    (l.set i t).map (fun s => (s.kind, s.addr)) = l.map (fun s => (s.kind, s.addr)) := by
  rw [List.map_set, hk, ha]
  apply List.ext_getElem?
  intro j
  rw [List.getElem?_set]
  split
  · rename_i hij
    subst hij
    obtain ⟨hi, -⟩ := List.getElem?_eq_some_iff.1 h
    obtain ⟨-, rfl⟩ := List.getElem?_eq_some_iff.1 h
    simp [hi]
  · rfl

private theorem set_inv {l : List Service} {i : Nat} {s t : Service} {x : List (Kind × Bytes)} (hx : l.map (fun s => (s.kind, s.addr)) = x) (h : l[i]? = some s)
    (hk : t.kind = s.kind) (ha : t.addr = s.addr) : (l.set i t).map (fun s => (s.kind, s.addr)) = x := (set_static h hk ha).trans hx

private theorem mem_set_up {l : List Service} {i : Nat} {t : Service} (h : ∀ s ∈ l, Service.Up s) (ht : Service.Up t) : ∀ s ∈ l.set i t, Service.Up s := by
  intro s hs
  rcases List.mem_or_eq_of_mem_set hs with h' | rfl
  · exact h s h'
  · exact ht

private theorem inv (h : (running f ver).Reaches as p) : Inv f ver p := by
  refine LTS.state_invariant (T := running f ver) (P := Inv f ver) ?_ ?_ h
  · exact ⟨fun evs x h => h, rfl, fun h => by simp [running] at h, fun _ s hs => by simp [running] at hs, fun x h => by simp [running] at h⟩
  · intro s a s' hi hst
    obtain ⟨h1, h2, h3, h4, h5⟩ := hi
    simp only [running, Running.step] at hst
    split at hst
    · cases hst
    rename_i hov
    have hov : s.over = none := by simpa using hov
    cases a with
    | returns r b =>
      simp only at hst
      split at hst
      · rename_i q k hm
        cases hst
        refine ⟨fun evs x h => ?_, ?_, fun hw => h3 (by simpa using hw), fun hc => ?_, fun x hx => ?_⟩
        · have := h1 (.call q r :: evs) x (by rw [hm]; exact .call _ _ _ _ _ h)
          simpa using this
        · simp only [List.filterMap_append]
          rcases r with (_ | e) | m
          · rw [List.map_append, h2, startedBy_static]
            rfl
          · rw [h2]; simp [startOf]
          · rw [h2]; simp [startOf]
        · intro sv hsv
          dsimp only at hsv
          split at hsv
          · rcases List.mem_append.1 hsv with hsv | hsv
            · exact h4 hc sv hsv
            · cases q <;> simp [startedBy] at hsv <;> subst hsv <;> exact ⟨rfl, by simp⟩
          · exact h4 hc sv hsv
        · dsimp only at hx; rw [hov] at hx; cases hx
      · cases hst
    | next =>
      simp only at hst
      split at hst
      · rename_i k hm
        split at hst
        · rename_i hc
          cases hst
          refine ⟨fun evs x h => ?_, ?_, fun _ => hc, h4, fun x hx => by dsimp only at hx; rw [hov] at hx; cases hx⟩
          · have := h1 (.emit .wait :: evs) x (by rw [hm]; exact .emit _ _ _ _ h)
            simpa using this
          · simp only [List.filterMap_append, h2]; simp [startOf]
        · cases hst
      · rename_i a k hm
        cases hst
        have hc : s.cancelled = true := by
          obtain ⟨evs, x, hx⟩ := completes k
          exact h3 (main_close_after_wait (h1 (.emit (.close a) :: evs) x (by rw [hm]; exact .emit _ _ _ _ hx)))
        refine ⟨fun evs x h => ?_, ?_, fun _ => hc, (fun h => by dsimp only at h; rw [hc] at h; cases h), fun x hx => by dsimp only at hx; rw [hov] at hx; cases hx⟩
        · have := h1 (.emit (.close a) :: evs) x (by rw [hm]; exact .emit _ _ _ _ h)
          simpa using this
        · simp only [List.filterMap_append, closeLast_static, h2]; simp [startOf]
      · cases hst
    | exit =>
      simp only at hst
      split at hst
      · rename_i x hm
        cases hst
        exact ⟨h1, h2, h3, h4, fun x' hx => by injection hx with hx; injection hx with hx; subst hx; exact hm⟩
      · cases hst
    | cancel =>
      cases hst
      exact ⟨h1, h2, fun _ => rfl, (by simp), h5⟩
    | connect i c =>
      simp only at hst
      split at hst
      · rename_i sv hsv
        split at hst
        · cases hst
        · cases hst
          exact ⟨h1, set_inv h2 hsv (by rfl) (by rfl), h3, fun hc => mem_set_up (h4 hc) (h4 hc sv (List.mem_of_getElem? hsv)), h5⟩
      · cases hst
    | refused b =>
      simp only at hst
      split at hst <;> cases hst
      exact ⟨h1, h2, h3, h4, h5⟩
    | serve i kp =>
      simp only at hst
      split at hst
      · rename_i sv hsv
        split at hst
        · cases hst
        · split at hst
          · cases hst
            exact ⟨h1, h2, h3, h4, fun x hx => by simp at hx⟩
          · split at hst
            · rename_i hcl
              cases hst
              refine ⟨h1, set_inv h2 hsv (by rfl) (by rfl), h3, fun hc => ?_, h5⟩
              have := (h4 hc sv (List.mem_of_getElem? hsv)).1
              rw [this] at hcl; cases hcl
            · rename_i hcl
              cases hst
              exact ⟨h1, set_inv h2 hsv (by rfl) (by rfl), h3, fun hc => mem_set_up (h4 hc) ⟨by simpa using hcl, by simp⟩, h5⟩
      · cases hst
    | accept i d =>
      simp only at hst
      split at hst
      · rename_i sv hsv
        split at hst
        · cases hst
        · split at hst
          · cases hst
            exact ⟨h1, set_inv h2 hsv (by rfl) (by rfl), h3, fun hc => mem_set_up (h4 hc) (h4 hc sv (List.mem_of_getElem? hsv)), h5⟩
          · cases hst
      · cases hst
    | acceptFails i t =>
      simp only at hst
      split at hst
      · rename_i sv hsv
        split at hst
        · cases hst
        · split at hst
          · split at hst
            · rename_i hc
              cases hst
              exact ⟨h1, set_inv h2 hsv (by rfl) (by rfl), h3, (fun h => by dsimp only at h; rw [hc] at h; cases h), h5⟩
            · cases hst
              exact ⟨h1, h2, h3, h4, h5⟩
          · split at hst
            · rename_i hcl
              cases hst
              refine ⟨h1, set_inv h2 hsv (by rfl) (by rfl), h3, fun hc => ?_, h5⟩
              have := (h4 hc sv (List.mem_of_getElem? hsv)).1
              rw [this] at hcl; cases hcl
            · split at hst <;> cases hst
              · exact ⟨h1, h2, h3, h4, h5⟩
              · exact ⟨h1, h2, h3, h4, fun x hx => by simp at hx⟩
      · cases hst
    | rawClose i =>
      simp only at hst
      split at hst
      · rename_i sv hsv
        split at hst
        · split at hst
          · rename_i hc
            cases hst
            exact ⟨h1, set_inv h2 hsv (by rfl) (by rfl), h3, (fun h => by dsimp only at h; rw [hc] at h; cases h), h5⟩
          · cases hst
        · cases hst
      · cases hst

private theorem service_of_log (hi : Inv f ver p) {e : Event mainSig} {k : Kind} {a : Bytes} (he : e ∈ p.log) (hk : startOf e = some (k, a)) :
    ∃ s ∈ p.services, s.kind = k ∧ s.addr = a := by
  have : (k, a) ∈ p.log.filterMap startOf := List.mem_filterMap.2 ⟨e, he, hk⟩
  rw [← hi.services] at this
  obtain ⟨s, hs, h⟩ := List.mem_map.1 this
  injection h with h1 h2
  exact ⟨s, hs, h1, h2⟩

private theorem log_of_service (hi : Inv f ver p) {s : Service} (hs : s ∈ p.services) : ∃ e ∈ p.log, startOf e = some (s.kind, s.addr) := by
  have : (s.kind, s.addr) ∈ p.log.filterMap startOf := by
    rw [← hi.services]; exact List.mem_map.2 ⟨s, hs, rfl⟩
  obtain ⟨e, he, h⟩ := List.mem_filterMap.1 this
  exact ⟨e, he, h⟩

private theorem startOf_http {e : Event mainSig} {secure : Bool} {server : HttpServer} {cert key a : Bytes} (h : startOf e = some (.http secure server cert key, a)) :
    StartsServer secure server e := by
  cases e with
  | clock t => cases h
  | emit o => cases h
  | call q r =>
    rcases r with (_ | er) | m
    · cases q with
      | listen s =>
        simp only [startOf, startedBy, Option.map_some, Option.some.injEq, Prod.mk.injEq, Kind.http.injEq] at h
        obtain ⟨⟨rfl, rfl, -⟩, -⟩ := h
        exact .inl ⟨rfl, rfl⟩
      | listenTLS s c k =>
        simp only [startOf, startedBy, Option.map_some, Option.some.injEq, Prod.mk.injEq, Kind.http.injEq] at h
        obtain ⟨⟨rfl, rfl, -⟩, -⟩ := h
        exact .inr ⟨rfl, _, _, rfl⟩
      | listenRaw => simp [startOf, startedBy] at h
      | argsFromEnv => simp [startOf, startedBy] at h
      | newVerifier => simp [startOf, startedBy] at h
      | eventListen => simp [startOf, startedBy] at h
    · cases h
    · cases h

/-- C94: as soon as a health check can be answered, and until the context of the program ends, every service that the flags ask for is up. -/
theorem C94_healthy_is_up (h : (running f ver).Reaches as p) (hc : p.cancelled = false) {s : Service} (hs : s ∈ p.services) {secure : Bool} {server : HttpServer}
    {cert key path : Bytes} {passed : List Access} (hk : s.kind = .http secure server cert key) (hh : Serves path server.handler passed .health) : AllUp f p := by
  have hi := inv h
  obtain ⟨evs, x, hx⟩ := completes p.main
  have hr := hi.runs evs x hx
  obtain ⟨e, he, hst⟩ := log_of_service hi hs
  rw [hk] at hst
  have hss := startOf_http hst
  obtain ⟨rfl, rfl⟩ := health_only hr (List.mem_append_left _ he) hss hh
  have hm : .call (.listen (healthServer f)) (.ok none) ∈ p.log := by
    rcases hss with ⟨-, rfl⟩ | ⟨hf, -⟩
    · exact he
    · cases hf
  obtain ⟨hw, hem⟩ := main_after_health hr hm
  have key : ∀ {secure : Bool} {addr path : Bytes} {passed : List Access} {leaf : Leaf}, Offers (p.log ++ evs) secure addr path passed leaf →
      UpAt p secure addr path passed leaf := by
    rintro secure addr path passed leaf ⟨s', e', he', hs', ha, hserve⟩
    have hel : e' ∈ p.log := by
      rcases List.mem_append.1 he' with h | h
      · exact h
      · obtain ⟨n, rfl⟩ := hem _ h
        rcases hs' with ⟨-, h⟩ | ⟨-, c, k, h⟩ <;> cases h
    rcases hs' with ⟨rfl, rfl⟩ | ⟨rfl, c, k, rfl⟩
    · obtain ⟨sv, hsv, h1, h2⟩ := service_of_log hi hel rfl
      exact ⟨sv, hsv, hi.up hc sv hsv, by rw [h2]; exact ha, _, _, _, h1, hserve⟩
    · obtain ⟨sv, hsv, h1, h2⟩ := service_of_log hi hel rfl
      exact ⟨sv, hsv, hi.up hc sv hsv, by rw [h2]; exact ha, _, _, _, h1, hserve⟩
  obtain ⟨⟨dir, md, ac, h1, -⟩, ⟨md2, h2⟩, ⟨ac3, md3, h3⟩, ⟨ac4, md4, h4⟩, -⟩ := C61_always _ _ _ _ hr hw
  refine ⟨?_, ⟨md2, key h2⟩, ⟨ac3, md3, key h3⟩, ⟨ac4, md4, key h4⟩, fun hf => ?_, fun hf => ?_, fun hf => ?_⟩
  · have hel := (List.mem_append.1 h1).resolve_right fun h => by obtain ⟨n, hn⟩ := hem _ h; cases hn
    obtain ⟨sv, hsv, h1, h2⟩ := service_of_log hi hel rfl
    exact ⟨sv, hsv, hi.up hc sv hsv, h1, h2⟩
  · obtain ⟨ac, md, h⟩ := (C61_wss_iff _ _ _ _ hr hw).2 hf
    exact ⟨ac, md, key h⟩
  · obtain ⟨ac, md, h, -⟩ := (C61_ndt7_tls_iff _ _ _ _ hr hw).2 hf
    exact ⟨ac, md, key h⟩
  · obtain ⟨ac, md, -, h⟩ := (C61_ndt7_tls_iff _ _ _ _ hr hw).2 hf
    exact ⟨ac, md, key h⟩

/-- C94: a service that has started to listen accepts connections from then on: until the context of the program ends no client is refused at its address. -/
theorem C94_no_refusal (h : (running f ver).Reaches as p) (hc : p.cancelled = false) {s : Service} (hs : s ∈ p.services) :
    (running f ver).step p (.refused s.bound) = none := by
  have hu := ((inv h).up hc s hs).1
  simp only [running, Running.step]
  split
  · rfl
  · rw [if_pos]
    exact List.any_eq_true.2 ⟨s, hs, by simp [hu]⟩

/-- The clients that connect to service `i`, in this order. -/
def arrivals (i : Nat) (as : List RunAct) : List Nat := as.filterMap fun
  | .connect j c => if j = i then some c else none
  | _ => none

private theorem arrivals_other {i : Nat} {as : List RunAct} {a : RunAct} (h : ∀ c, a ≠ .connect i c) : arrivals i (as ++ [a]) = arrivals i as := by
  unfold arrivals
  rw [List.filterMap_append]
  have : ([a].filterMap fun | .connect j c => if j = i then some c else none | _ => none) = [] := by
    cases a with
    | connect j c =>
      have : j ≠ i := fun hj => h c (by rw [hj])
      simp [this]
    | _ => rfl
  rw [this, List.append_nil]

private def seen (s : Service) : List Nat := s.taken.map Prod.fst ++ s.queue

private theorem closeLast_seen (a : Bytes) (l : List Service) : (closeLast a l).map seen = l.map seen := by
  induction l with
  | nil => rfl
  | cons s ss ih =>
    unfold closeLast
    split
    · simp [ih]
    · split <;> rfl

private theorem set_seen {l : List Service} {i : Nat} {s t : Service} (h : l[i]? = some s) (hk : seen t = seen s) : (l.set i t).map seen = l.map seen := by
  rw [List.map_set, hk]
  apply List.ext_getElem?
  intro j
  rw [List.getElem?_set]
  split
  · rename_i hij
    subst hij
    obtain ⟨hi, rfl⟩ := List.getElem?_eq_some_iff.1 h
    simp [hi]
  · rfl

private theorem seen_inv (h : (running f ver).Reaches as p) : ∀ i, arrivals i as = ((p.services.map seen)[i]?).getD [] := by
  refine LTS.invariant (T := running f ver) (P := fun as p => ∀ i, arrivals i as = ((p.services.map seen)[i]?).getD []) ?_ ?_ h
  · intro i; simp [arrivals, running]
  · intro as s a s' _ hi hst i
    by_cases hcon : ∃ j c, a = .connect j c
    · obtain ⟨j, c, rfl⟩ := hcon
      simp only [running, Running.step] at hst
      split at hst
      · cases hst
      split at hst
      · rename_i sv hsv
        split at hst
        · cases hst
        · cases hst
          obtain ⟨hlt, hg⟩ := List.getElem?_eq_some_iff.1 hsv
          by_cases hij : j = i
          · subst hij
            have := hi j
            simp only [List.getElem?_map, hsv, Option.map_some, Option.getD_some] at this
            simp only [arrivals, List.filterMap_append] at this ⊢
            simp [hlt, this, seen]
          · rw [arrivals_other (by intro c' h; injection h with h _; exact hij h), hi i]
            simp [List.getElem?_set, hij]
      · cases hst
    · rw [arrivals_other (fun c h => hcon ⟨i, c, h⟩), hi i]
      suffices hs : s'.services.map seen = s.services.map seen ∨ ∃ t, s'.services.map seen = s.services.map seen ++ [t] ∧ t = [] by
        rcases hs with hs | ⟨t, hs, rfl⟩
        · rw [hs]
        · rw [hs, List.getElem?_append]
          split
          · rfl
          · rename_i hlt
            rw [List.getElem?_eq_none (by simpa using hlt)]
            cases hz : i - (s.services.map seen).length with
            | zero => rfl
            | succ k => simp
      simp only [running, Running.step] at hst
      split at hst
      · cases hst
      cases a with
      | connect j c => exact absurd ⟨j, c, rfl⟩ hcon
      | returns r b =>
        simp only at hst
        split at hst
        · rename_i q k hm
          cases hst
          dsimp only
          split
          · cases q <;> first | (refine .inl ?_; simp [startedBy]; done) | (refine .inr ⟨[], ?_, rfl⟩; simp [startedBy, seen]; done)
          · exact .inl rfl
        · cases hst
      | next =>
        simp only at hst
        split at hst
        · split at hst <;> cases hst
          exact .inl rfl
        · cases hst
          exact .inl (closeLast_seen _ _)
        · cases hst
      | exit => simp only at hst; split at hst <;> cases hst; exact .inl rfl
      | cancel => cases hst; exact .inl rfl
      | refused b => simp only at hst; split at hst <;> cases hst; exact .inl rfl
      | serve i kp =>
        simp only at hst
        split at hst
        · rename_i sv hsv
          split at hst
          · cases hst
          · split at hst
            · cases hst; exact .inl rfl
            · split at hst <;> cases hst <;> exact .inl (set_seen hsv (by rfl))
        · cases hst
      | accept i d =>
        simp only at hst
        split at hst
        · rename_i sv hsv
          split at hst
          · cases hst
          · split at hst
            · rename_i c cs hq
              cases hst
              exact .inl (set_seen hsv (by simp [seen, hq]))
            · cases hst
        · cases hst
      | acceptFails i t =>
        simp only at hst
        split at hst
        · rename_i sv hsv
          split at hst
          · cases hst
          · split at hst
            · split at hst <;> cases hst
              · exact .inl (set_seen hsv (by rfl))
              · exact .inl rfl
            · split at hst
              · cases hst
                exact .inl (set_seen hsv (by rfl))
              · split at hst <;> cases hst <;> exact .inl rfl
        · cases hst
      | rawClose i =>
        simp only at hst
        split at hst
        · rename_i sv hsv
          split at hst
          · split at hst <;> cases hst
            exact .inl (set_seen hsv (by rfl))
          · cases hst
        · cases hst

/-- C94: the clients of a service are accepted in the order in which they connect, each once; those not yet accepted wait. -/
theorem C94_in_order (h : (running f ver).Reaches as p) {i : Nat} {s : Service} (hs : p.services[i]? = some s) :
    arrivals i as = s.taken.map Prod.fst ++ s.queue := by
  have := seen_inv h i
  simpa [hs, seen] using this

/-- C94: a waiting client can be accepted, whatever the state of the other services and of `main`, until the service is closed: its goroutine is not blocked. -/
theorem C94_next_client (h : (running f ver).Reaches as p) (ho : p.over = none) (hc : p.cancelled = false) {i : Nat} {s : Service} (hs : p.services[i]? = some s)
    {c : Nat} {cs : List Nat} (hq : s.queue = c :: cs) (hk : noCertificate true s.kind = false) :
    ∃ bs q t, bs.length ≤ 2 ∧ (running f ver).runFrom p bs = some q ∧ q.services[i]? = some t ∧ t.taken = s.taken ++ [(c, true)] ∧ t.queue = cs := by
  obtain ⟨hcl, hpc⟩ := (inv h).up hc s (List.mem_of_getElem? hs)
  obtain ⟨hlt, -⟩ := List.getElem?_eq_some_iff.1 hs
  have haccept : ∀ {p' : Running} {s' : Service}, p'.over = none → p'.services[i]? = some s' → s'.pc = .serving → s'.closed = false → s'.queue = c :: cs →
      ∃ q t, (running f ver).step p' (.accept i true) = some q ∧ q.services[i]? = some t ∧ t.taken = s'.taken ++ [(c, true)] ∧ t.queue = cs := by
    intro p' s' h1 h2 h3 h4 h5
    obtain ⟨hl, -⟩ := List.getElem?_eq_some_iff.1 h2
    refine ⟨{ p' with services := p'.services.set i { s' with queue := cs, taken := s'.taken ++ [(c, true)] } }, _, ?_, List.getElem?_set_self hl, rfl, rfl⟩
    simp [running, Running.step, h1, h2, h3, h4, h5]
  cases hp : s.pc with
  | ended => exact absurd hp hpc
  | serving =>
    obtain ⟨q, t, h1, h2, h3, h4⟩ := haccept ho hs hp hcl hq
    exact ⟨[.accept i true], q, t, by simp, by simp [LTS.runFrom, h1], h2, h3, h4⟩
  | spawned =>
    obtain ⟨q, t, h1, h2, h3, h4⟩ := haccept (p' := { p with services := p.services.set i { s with pc := .serving } }) (s' := { s with pc := .serving }) ho
      (by simp [hlt]) rfl hcl hq
    refine ⟨[.serve i true, .accept i true], q, t, by simp, ?_, h2, h3, h4⟩
    have : (running f ver).step p (.serve i true) = some { p with services := p.services.set i { s with pc := .serving } } := by
      simp [running, Running.step, ho, hs, hp, hk, hcl]
    simp [LTS.runFrom, this, h1]

/-- C94: what can end the process. `main` returns only after the end of the context, and ends the process otherwise only when one of its calls has failed; the goroutine of
a service ends it when an HTTP service that is open fails to accept for a reason that is not temporary, or when a TLS service has no certificate. -/
theorem C94_what_ends_it {a : RunAct} {p' : Running} {cause : Cause} (h : (running f ver).Reaches as p) (hst : (running f ver).step p a = some p')
    (hov : p'.over = some cause) :
    (cause = .main .ok ∧ p.cancelled = true) ∨
    (∃ x, cause = .main x ∧ x ≠ .ok ∧ ∃ q, ∃ r : Outcome (Option Err), .call q r ∈ p.log ∧ r ≠ .ok none) ∨
    (∃ i s, cause = .serve i ∧ p.services[i]? = some s ∧ ((a = .acceptFails i false ∧ s.closed = false ∧ s.kind ≠ .raw) ∨
      ∃ keyPair server cert key, a = .serve i keyPair ∧ s.kind = .http true server cert key ∧
        (keyPair = false ∨ serveTLSDies server cert key) ∧ ¬ (server.tls.autocertFor.isSome ∧ cert = [] ∧ key = []))) := by
  have hi := inv h
  simp only [running, Running.step] at hst
  split at hst
  · cases hst
  rename_i hn
  have hn : p.over = none := by simpa using hn
  have hno : ∀ {q : Running}, q = p' → q.over = p.over → False := by
    intro q h2 h1
    rw [← h2, h1, hn] at hov
    cases hov
  cases a with
  | returns r b =>
    simp only at hst
    split at hst
    · injection hst with hst; exact (hno hst rfl).elim
    · cases hst
  | next =>
    simp only at hst
    split at hst
    · split at hst
      · injection hst with hst; exact (hno hst rfl).elim
      · cases hst
    · injection hst with hst; exact (hno hst rfl).elim
    · cases hst
  | exit =>
    simp only at hst
    split at hst
    · rename_i x hm
      cases hst
      injection hov with hov
      subst hov
      have hr := hi.runs [] x (by rw [hm]; exact .ret x)
      rw [List.append_nil] at hr
      rcases main_exit hr with ⟨rfl, hw⟩ | ⟨hx, q, r, h1, h2⟩
      · exact .inl ⟨rfl, hi.waits hw⟩
      · exact .inr (.inl ⟨x, rfl, hx, q, r, h1, h2⟩)
    · cases hst
  | cancel => injection hst with hst; exact (hno hst rfl).elim
  | connect i c =>
    simp only at hst
    split at hst
    · split at hst
      · cases hst
      · injection hst with hst; exact (hno hst rfl).elim
    · cases hst
  | refused b =>
    simp only at hst
    split at hst
    · cases hst
    · injection hst with hst; exact (hno hst rfl).elim
  | serve i kp =>
    simp only at hst
    split at hst
    · rename_i s hs
      split at hst
      · cases hst
      · split at hst
        · rename_i hnc
          cases hst
          injection hov with hov
          subst hov
          refine .inr (.inr ⟨i, s, rfl, hs, .inr ?_⟩)
          unfold noCertificate at hnc
          split at hnc
          · rename_i server cert key hk
            split at hnc
            · cases hnc
            · rename_i hauto
              refine ⟨kp, server, cert, key, rfl, hk, ?_, hauto⟩
              cases kp with
              | false => exact .inl rfl
              | true =>
                simp at hnc
                refine .inr ⟨?_, hnc⟩
                cases hca : server.tls.autocertFor with
                | none => exact .inl rfl
                | some n =>
                  right
                  rw [hca] at hauto
                  simp at hauto
                  by_cases hce : cert = []
                  · exact .inr (hauto hce)
                  · exact .inl hce
          · cases hnc
        · split at hst
          · injection hst with hst; exact (hno hst rfl).elim
          · injection hst with hst; exact (hno hst rfl).elim
    · cases hst
  | accept i d =>
    simp only at hst
    split at hst
    · split at hst
      · cases hst
      · split at hst
        · injection hst with hst; exact (hno hst rfl).elim
        · cases hst
    · cases hst
  | acceptFails i t =>
    simp only at hst
    split at hst
    · rename_i s hs
      split at hst
      · cases hst
      · split at hst
        · split at hst
          · injection hst with hst; exact (hno hst rfl).elim
          · injection hst with hst; exact (hno hst rfl).elim
        · rename_i hk
          split at hst
          · injection hst with hst; exact (hno hst rfl).elim
          · rename_i hcl
            split at hst
            · injection hst with hst; exact (hno hst rfl).elim
            · rename_i ht
              cases hst
              injection hov with hov
              subst hov
              refine .inr (.inr ⟨i, s, rfl, hs, .inl ⟨?_, by simpa using hcl, ?_⟩⟩)
              · cases t <;> simp_all
              · rw [hk]; simp
    · cases hst
  | rawClose i =>
    simp only at hst
    split at hst
    · split at hst
      · split at hst
        · injection hst with hst; exact (hno hst rfl).elim
        · cases hst
      · cases hst
    · cases hst

/-- C94: these failures do end the process: a service that is open and cannot accept, and a TLS service whose files cannot be loaded or are not both given (unless both names are empty
and the certificates come from autocert). Temporary failures, and failures of a service that has been closed, do not. -/
theorem C94_ends_it (ho : p.over = none) {i : Nat} {s : Service} (hs : p.services[i]? = some s) :
    (s.pc = .serving → s.closed = false → s.kind ≠ .raw → ∃ q, (running f ver).step p (.acceptFails i false) = some q ∧ q.over = some (.serve i)) ∧
    (s.pc = .serving → ∀ temporary, (temporary = true ∨ s.closed = true ∨ s.kind = .raw) →
      ∃ q, (running f ver).step p (.acceptFails i temporary) = some q ∧ q.over = none) ∧
    (∀ server cert key keyPair, s.pc = .spawned → s.kind = .http true server cert key → (keyPair = false ∨ serveTLSDies server cert key) →
      ¬ (server.tls.autocertFor.isSome ∧ cert = [] ∧ key = []) → ∃ q, (running f ver).step p (.serve i keyPair) = some q ∧ q.over = some (.serve i)) := by
  refine ⟨fun h1 h2 h3 => ?_, fun h1 t h2 => ?_, fun server cert key kp h1 h2 h3 h4 => ?_⟩
  · cases hk : s.kind with
    | raw => exact absurd hk h3
    | http => simp [running, Running.step, ho, hs, h1, h2, hk]
  · cases hk : s.kind with
    | raw => cases hc : p.cancelled <;> simp [running, Running.step, ho, hs, h1, hk, hc]
    | http =>
      rcases h2 with rfl | h2 | h2
      · cases hc : s.closed <;> simp [running, Running.step, ho, hs, h1, hk, hc]
      · simp [running, Running.step, ho, hs, h1, hk, h2]
      · rw [hk] at h2; cases h2
  · have : noCertificate kp s.kind = true := by
      rw [h2]
      simp only [noCertificate]
      rw [if_neg h4]
      rcases h3 with rfl | ⟨-, h3⟩
      · rfl
      · rcases h3 with rfl | rfl <;> simp
    simp [running, Running.step, ho, hs, h1, this]

private def static (s : Service) : Kind × Bytes × Bytes × Bytes := (s.kind, s.addr, s.shown, s.bound)

private theorem closeLast_same (a : Bytes) (l : List Service) : (closeLast a l).map static = l.map static := by
  induction l with
  | nil => rfl
  | cons s ss ih =>
    unfold closeLast
    split
    · simp [ih]
    · split <;> rfl

private theorem set_same {l : List Service} {i : Nat} {s t : Service} (h : l[i]? = some s) (hk : static t = static s) : (l.set i t).map static = l.map static := by
  rw [List.map_set, hk]
  apply List.ext_getElem?
  intro j
  rw [List.getElem?_set]
  split
  · rename_i hij
    subst hij
    obtain ⟨hi, rfl⟩ := List.getElem?_eq_some_iff.1 h
    simp [hi]
  · rfl

/-- Services are only added, by the calls of `main`. -/
private theorem step_same {s s' : Running} {a : RunAct} (hst : (running f ver).step s a = some s') :
    s'.services.map static = s.services.map static ∨ ∃ b q t, startedBy b q = some t ∧ s'.services.map static = s.services.map static ++ [static t] := by
  simp only [running, Running.step] at hst
  split at hst
  · cases hst
  cases a with
  | connect j c =>
    simp only at hst
    split at hst
    · rename_i sv hsv
      split at hst <;> cases hst
      exact .inl (set_same hsv (by rfl))
    · cases hst
  | returns r b =>
    simp only at hst
    split at hst
    · rename_i q k hm
      cases hst
      dsimp only
      split
      · cases hq : startedBy b q with
        | none => left; simp
        | some t => right; exact ⟨b, q, t, hq, by simp⟩
      · exact .inl rfl
    · cases hst
  | next =>
    simp only at hst
    split at hst
    · split at hst <;> cases hst
      exact .inl rfl
    · cases hst
      exact .inl (closeLast_same _ _)
    · cases hst
  | exit => simp only at hst; split at hst <;> cases hst; exact .inl rfl
  | cancel => cases hst; exact .inl rfl
  | refused b => simp only at hst; split at hst <;> cases hst; exact .inl rfl
  | serve i kp =>
    simp only at hst
    split at hst
    · rename_i sv hsv
      split at hst
      · cases hst
      · split at hst
        · cases hst; exact .inl rfl
        · split at hst <;> cases hst <;> exact .inl (set_same hsv (by rfl))
    · cases hst
  | accept i d =>
    simp only at hst
    split at hst
    · rename_i sv hsv
      split at hst
      · cases hst
      · split at hst <;> cases hst
        exact .inl (set_same hsv (by rfl))
    · cases hst
  | acceptFails i t =>
    simp only at hst
    split at hst
    · rename_i sv hsv
      split at hst
      · cases hst
      · split at hst
        · split at hst <;> cases hst
          · exact .inl (set_same hsv (by rfl))
          · exact .inl rfl
        · split at hst
          · cases hst
            exact .inl (set_same hsv (by rfl))
          · split at hst <;> cases hst <;> exact .inl rfl
    · cases hst
  | rawClose i =>
    simp only at hst
    split at hst
    · rename_i sv hsv
      split at hst
      · split at hst <;> cases hst
        exact .inl (set_same hsv (by rfl))
      · cases hst
    · cases hst

/-- C94: a service stays where it is: in every later state there is a service of the same kind at the same address. -/
theorem C94_stays {bs : List RunAct} {q : Running} (hr : (running f ver).runFrom p bs = some q) {i : Nat} {s : Service} (hs : p.services[i]? = some s) :
    ∃ t, q.services[i]? = some t ∧ t.kind = s.kind ∧ t.addr = s.addr ∧ t.bound = s.bound ∧ t.shown = s.shown := by
  suffices h : ∃ rest, q.services.map static = p.services.map static ++ rest by
    obtain ⟨rest, h⟩ := h
    have h1 := congrArg (·[i]?) h
    obtain ⟨hlt, -⟩ := List.getElem?_eq_some_iff.1 hs
    rw [List.getElem?_append_left (by simpa using hlt), List.getElem?_map, List.getElem?_map, hs] at h1
    cases ht : q.services[i]? with
    | none => rw [ht] at h1; cases h1
    | some t =>
      rw [ht] at h1
      simp only [Option.map_some, Option.some.injEq, static, Prod.mk.injEq] at h1
      exact ⟨t, rfl, h1.1, h1.2.1, h1.2.2.2, h1.2.2.1⟩
  refine LTS.runFrom_invariant (T := running f ver) (P := fun q => ∃ rest, q.services.map static = p.services.map static ++ rest) ?_ ⟨[], by simp⟩ hr
  rintro s a s' ⟨rest, h⟩ hst
  rcases step_same hst with h1 | ⟨b, q, t, -, h1⟩
  · exact ⟨rest, h1.trans h⟩
  · exact ⟨rest ++ [static t], by rw [h1, h, List.append_assoc]⟩

/-- C94: the address of a server that its caller sees is the configured one, except for a server without TLS whose port was left open (the address ends with `:0`): that one shows
where it listens. -/
theorem C94_address (h : (running f ver).Reaches as p) {s : Service} (hs : s ∈ p.services) :
    ((∃ server cert key, s.kind = .http false server cert key) ∧ (∃ host, s.addr = host ++ str ":0") → s.shown = s.bound) ∧
    (¬ ((∃ server cert key, s.kind = .http false server cert key) ∧ (∃ host, s.addr = host ++ str ":0")) → s.shown = s.addr) := by
  have key : ∀ x ∈ p.services.map static, ∃ b q t, startedBy b q = some t ∧ static t = x := by
    refine LTS.state_invariant (T := running f ver) (P := fun p => ∀ x ∈ p.services.map static, ∃ b q t, startedBy b q = some t ∧ static t = x) (by simp [running]) ?_ h
    intro s a s' hi hst x hx
    rcases step_same hst with h1 | ⟨b, q, t, ht, h1⟩
    · rw [h1] at hx; exact hi x hx
    · rw [h1] at hx
      rcases List.mem_append.1 hx with hx | hx
      · exact hi x hx
      · rw [List.mem_singleton] at hx
        exact ⟨b, q, t, ht, hx.symm⟩
  obtain ⟨b, q, t, ht, hx⟩ := key _ (List.mem_map_of_mem hs)
  simp only [static, Prod.mk.injEq] at hx
  obtain ⟨hk, ha, hsh, hb⟩ := hx
  rw [← hk, ← ha, ← hsh, ← hb]
  have hany : ∀ a, anyPort a = true ↔ ∃ host, a = host ++ str ":0" := by
    intro a
    unfold anyPort
    rw [List.isSuffixOf_iff_suffix]
    exact ⟨fun ⟨t, h⟩ => ⟨t, h.symm⟩, fun ⟨t, h⟩ => ⟨t, h.symm⟩⟩
  cases q with
  | listenRaw => cases ht; simp
  | listen s =>
    cases ht
    dsimp only
    constructor
    · rintro ⟨-, h⟩; rw [if_pos ((hany _).2 h)]
    · intro h
      rw [if_neg]
      intro h'
      exact h ⟨⟨_, _, _, rfl⟩, (hany _).1 h'⟩
  | listenTLS s c k => cases ht; simp
  | argsFromEnv => cases ht
  | newVerifier => cases ht
  | eventListen => cases ht

end

/-- A server without TLS; the health service may take any port. -/
private def plainFlags : Flags :=
  { ndt7Addr := str ":443", ndt7AddrCleartext := str ":80", ndt5Addr := str ":3001", ndt5WsAddr := str ":3002", ndt5WssAddr := str ":3010",
    healthAddr := str ":0", certFile := [], keyFile := [], tlsVersion := [], autocertEnabled := false,
    autocertHostname := [], dataDir := str "/var/spool/ndt", htmlDir := str "html", compress := true, labels := [(str "machine-type", str "virtual")],
    tokenRequired5 := false, tokenRequired7 := false, tokenMachine := [], eventSocket := [] }

/-- It comes up, a client waits at ndt7 before that service runs, health checks are answered, and the accepting of the next connection fails for lack of descriptors. -/
private def startup : List RunAct :=
  [.returns (.ok none) [], .returns (.ok none) [], .returns (.ok none) [], .returns (.ok none) (str ":3001"), .returns (.ok none) (str ":3002"),
   .returns (.ok none) (str ":80"), .connect 2 7, .returns (.ok none) (str ":40123"), .serve 3 true, .connect 3 1, .connect 3 2, .accept 3 true, .acceptFails 3 true,
   .accept 3 false]

/-- The hypotheses hold in this execution: the health service has answered the first and lost the second client, shows its address, and the client at ndt7 still waits. -/
example : ∃ p, (running plainFlags (str "v0.22")).Reaches startup p ∧ p.over = none ∧ p.cancelled = false ∧ p.services.length = 4 ∧
    (∃ s, p.services[3]? = some s ∧ s.kind = .http false (healthServer plainFlags) [] [] ∧ s.taken = [(1, true), (2, false)] ∧ s.shown = str ":40123") ∧
    (∃ s, p.services[2]? = some s ∧ s.queue = [7] ∧ s.pc = .spawned ∧ noCertificate true s.kind = false) :=
  ⟨_, rfl, rfl, rfl, rfl, ⟨_, rfl, rfl, rfl, rfl⟩, ⟨_, rfl, rfl, rfl, rfl⟩⟩

/-- The process ends when the health service fails to accept for another reason, and when the context has ended. -/
example : (∃ p, (running plainFlags (str "v0.22")).Reaches (startup ++ [.acceptFails 3 false]) p ∧ ∃ c, p.over = some c ∧ c = .serve 3) ∧
    (∃ p, (running plainFlags (str "v0.22")).Reaches (startup ++ [.cancel, .next, .next, .next, .next, .exit]) p ∧ ∃ c, p.over = some c ∧ c = .main .ok) :=
  ⟨⟨_, rfl, _, rfl, rfl⟩, ⟨_, rfl, _, rfl, rfl⟩⟩

end Verif.Props
