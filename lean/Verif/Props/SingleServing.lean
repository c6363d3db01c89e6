import Verif.Ndt5.SingleServing

/-!
# C30, C31, C32, C74, C75, C78: single-serving servers
-/

namespace Verif.Props
open Verif.Go Verif.Ndt5

/-! ## C30 -/

private structure WsOk (as : List WsAct) (s : WsServer) : Prop where
  clients : ∀ i, s.clients[i]? = some .upgraded ∨ s.clients[i]? = some .assigned ∨ s.clients[i]? = some .done → .upgradeOk i ∈ as
  conn : ∀ i, s.newConn = some i → .upgradeOk i ∈ as
  load : s.pc = .load → s.newConn ≠ none ∨ s.newConnErr ≠ none
  load2 : ∀ c, s.pc = .load2 c → (c ≠ none ∨ s.newConnErr ≠ none) ∧ ∀ i, c = some i → .upgradeOk i ∈ as
  result : ∀ c e, s.pc = .closing c e ∨ s.pc = .returned c e → (c ≠ none ∨ e ≠ none) ∧ ∀ i, c = some i → .upgradeOk i ∈ as

private theorem ws_ok {as : List WsAct} {s : WsServer} (h : wsServer.Reaches as s) : WsOk as s := by
  refine LTS.invariant (T := wsServer) (P := WsOk) ?_ ?_ h
  · constructor <;> simp [wsServer]
  · rintro as s a s' - ⟨h1, h2, h3, h4, h5⟩ hst
    cases a with
    | main =>
      simp only [wsServer, WsServer.step, WsServer.main, WsServer.callClose] at hst
      split at hst
      all_goals (repeat' split at hst)
      all_goals first | (cases hst; done) | cases hst
      all_goals constructor <;> grind [Option.map_eq_none_iff]
    | _ =>
      simp only [wsServer, WsServer.step, WsServer.callClose] at hst
      repeat' split at hst
      all_goals first | (cases hst; done) | cases hst
      all_goals constructor <;> grind

/-- C30 for the websocket servers: under every schedule of requests, failed and completed handshakes, closes, timeouts and the end of
the http server, when `ServeOnce` returns it returns a connection whose handshake was completed, or no connection and an error. -/
theorem C30_websocket {as : List WsAct} {s : WsServer} {c : Option Nat} {e : Option ServeErr} (h : wsServer.Reaches as s)
    (hr : s.pc = .returned c e) : (∃ i, c = some i ∧ .upgradeOk i ∈ as) ∨ (c = none ∧ e ≠ none) := by
  obtain ⟨h1, h2⟩ := (ws_ok h).result c e (.inr hr)
  cases c with
  | none => right; simpa using h1
  | some i => left; exact ⟨i, rfl, h2 i rfl⟩

/-- A client whose handshake succeeds, and the return. -/
private def oneClient : List WsAct := [.request, .upgradeOk 0, .assign 0, .spawn 0, .closeCall, .onceStep, .onceStep, .onceStep, .serveReturns true,
  .serveAssigns, .serveCancels, .main, .main, .main, .main, .main, .main, .main]

example : ∃ s, wsServer.Reaches oneClient s ∧ s.pc = .returned (some 0) none := ⟨_, rfl, rfl⟩

/-- No client before the timeout. -/
example : ∃ s, wsServer.Reaches [.parentDone, .main, .main, .main, .main, .main, .main, .onceStep, .onceStep, .onceStep, .main] s ∧
    s.pc = .returned none (some .noConn) := ⟨_, rfl, rfl⟩

/-- C30 for the plain server. -/
theorem C30_plain {as : List PlainAct} {s : PlainServer} {c : Option Nat} {e : Option ServeErr} (h : plainServer.Reaches as s)
    (hr : s.pc = .returned c e) : (c ≠ none ∧ e = none ∧ .acceptOk ∈ as) ∨ (c = none ∧ e ≠ none) := by
  have := LTS.invariant (T := plainServer) (P := fun as s => (s.conn ≠ none ∨ s.acc = .returned true → .acceptOk ∈ as) ∧
    ∀ c e, s.pc = .counting c e ∨ s.pc = .closing c e ∨ s.pc = .returned c e →
      (c ≠ none ∧ e = none ∧ .acceptOk ∈ as) ∨ (c = none ∧ e ≠ none)) (by simp [plainServer]) ?_ h
  · exact this.2 c e (.inr (.inr hr))
  · rintro as s a s' - ⟨h1, h2⟩ hst
    cases a <;> simp only [plainServer, PlainServer.step] at hst
    all_goals (repeat' split at hst)
    all_goals first | (cases hst; done) | cases hst
    all_goals constructor <;> grind

example : ∃ s, plainServer.Reaches [.acceptOk, .assign, .cancel, .main, .main, .main, .main, .main] s ∧
    s.pc = .returned (some 0) none := ⟨_, rfl, rfl⟩

/-! ## C31 -/

private theorem ws_once {as : List WsAct} {s : WsServer} (h : wsServer.Reaches as s) :
    s.stops = (if s.once = .idle ∨ s.once = .counting then 0 else 1) ∧
    s.listenerCloses = (if s.once = .closingServer ∨ s.once = .done then 1 else 0) ∧
    s.srvCloses = (if s.once = .done then 1 else 0) ∧
    (∀ c e, s.pc = .returned c e → s.once = .done) := by
  refine LTS.state_invariant (T := wsServer) (P := fun s =>
    s.stops = (if s.once = .idle ∨ s.once = .counting then 0 else 1) ∧
    s.listenerCloses = (if s.once = .closingServer ∨ s.once = .done then 1 else 0) ∧
    s.srvCloses = (if s.once = .done then 1 else 0) ∧
    (∀ c e, s.pc = .returned c e → s.once = .done)) (by simp [wsServer]) ?_ h
  rintro s a s' ⟨h1, h2, h3, h4⟩ hst
  cases a <;> simp only [wsServer, WsServer.step, WsServer.main, WsServer.callClose] at hst
  all_goals (repeat' split at hst)
  all_goals first | (cases hst; done) | cases hst
  all_goals refine ⟨?_, ?_, ?_, ?_⟩ <;> grind

/-- C31: at every moment of every schedule, however often and from wherever the server is closed, its stop has been counted at most
once and its listener and http server have been closed at most once; once `ServeOnce` has returned, exactly once each. -/
theorem C31_closed_once {as : List WsAct} {s : WsServer} (h : wsServer.Reaches as s) :
    (s.stops ≤ 1 ∧ s.listenerCloses ≤ 1 ∧ s.srvCloses ≤ 1) ∧
    (∀ c e, s.pc = .returned c e → s.stops = 1 ∧ s.listenerCloses = 1 ∧ s.srvCloses = 1) := by
  have := ws_once h
  grind

/-- `ServeOnce` is never stuck in its deferred close: it can return, or the close it waits for can go on. -/
theorem C31_close_returns {as : List WsAct} {s : WsServer} {c : Option Nat} {e : Option ServeErr} (_ : wsServer.Reaches as s)
    (hc : s.pc = .closing c e) : (∃ s', wsServer.step s .main = some s') ∨ ∃ s', wsServer.step s .onceStep = some s' := by
  cases ho : s.once
  all_goals first
    | (left; exact ⟨_, by simp only [wsServer, WsServer.step, WsServer.main, hc, ho]; rfl⟩)
    | (right; exact ⟨_, by simp only [wsServer, WsServer.step, ho]; rfl⟩)

/-- The close by the handler of the client, a close from elsewhere in the middle of it, and the deferred one. -/
example : ∃ s, wsServer.Reaches [.request, .upgradeOk 0, .assign 0, .spawn 0, .closeCall, .onceStep, .closeElsewhere, .onceStep,
    .onceStep, .closeElsewhere, .serveReturns true, .serveAssigns, .serveCancels, .main, .main, .main, .main, .main, .main, .main] s ∧
    s.pc = .returned (some 0) none ∧ s.stops = 1 ∧ s.listenerCloses = 1 := ⟨_, rfl, rfl, rfl, rfl⟩

/-! ## C32 -/

/-- The full statement of C32 for the websocket servers: when `ServeOnce` has returned, every client with a completed handshake is the
one returned, and it is returned without an error. -/
def C32_websocket_statement : Prop := ∀ as s c e, wsServer.Reaches as s → s.pc = .returned c e →
  (∀ i, .upgradeOk i ∈ as → c = some i) ∧ (c ≠ none → e = none)

/-- C32 fails: two clients complete the handshake before the server is closed. The second one replaces the first one, whose
connection nobody ever sees again. -/
theorem C32_client_lost_false : ¬ ∀ as s c e, wsServer.Reaches as s → s.pc = .returned c e → ∀ i, .upgradeOk i ∈ as → c = some i := by
  intro h
  have := h [.request, .request, .upgradeOk 0, .upgradeOk 1, .assign 0, .assign 1, .spawn 0, .spawn 1, .closeCall, .onceStep, .onceStep,
    .onceStep, .serveReturns true, .serveAssigns, .serveCancels, .main, .main, .main, .main, .main, .main, .main] _ (some 1) none rfl rfl 0
    (by simp)
  cases this

/-- C32 fails: the handshake completes when the wait has just timed out. `ServeOnce` returns an error, the connection stays open. -/
theorem C32_timeout_false : ¬ ∀ as s c e, wsServer.Reaches as s → s.pc = .returned c e → ∀ i, .upgradeOk i ∈ as → c = some i := by
  intro h
  have := h [.request, .parentDone, .main, .main, .main, .main, .main, .upgradeOk 0, .assign 0, .spawn 0, .main, .onceStep, .onceStep,
    .onceStep, .main] _ none (some .noConn) rfl rfl 0 (by simp)
  cases this

/-- C32 fails: after a failed handshake of one client, the connection of the next client is returned together with the error of the
first one. (The tests then give up and do not close the connection.) -/
theorem C32_conn_with_error_false : ¬ ∀ as s c e, wsServer.Reaches as s → s.pc = .returned c e → c ≠ none → e = none := by
  intro h
  have := h [.request, .upgradeFails 0, .request, .upgradeOk 1, .assign 1, .spawn 1, .closeCall, .onceStep, .onceStep, .onceStep,
    .serveReturns true, .serveAssigns, .serveCancels, .main, .main, .main, .main, .main, .main, .main] _ (some 1) (some (.handshake 0))
    rfl rfl (by simp)
  cases this

theorem C32_websocket_false : ¬ C32_websocket_statement := fun h =>
  C32_conn_with_error_false fun as s c e h1 h2 => (h as s c e h1 h2).2

/-- C32 as far as it holds for the websocket servers: if a single client contacts the server, the parent context does not end, nobody
else closes the server and the http server ends only after it was closed, then `ServeOnce` returns exactly the client whose handshake
was completed, without an error. (The full statement is `C32_websocket_statement`.) -/
theorem C32_websocket_partial {as : List WsAct} {s : WsServer} {c : Option Nat} {e : Option ServeErr} (h : wsServer.Reaches as s)
    (hr : s.pc = .returned c e) (hone : as.count .request ≤ 1) (hparent : .parentDone ∉ as) (helse : .closeElsewhere ∉ as)
    (hserve : ∀ pre b post, as = pre ++ .serveReturns b :: post → .closeCall ∈ pre) :
    c = some 0 ∧ e = none ∧ .upgradeOk 0 ∈ as := by
  have key := LTS.invariant (T := wsServer) (P := fun as s =>
    as.count .request ≤ 1 → .parentDone ∉ as → .closeElsewhere ∉ as →
      (∀ pre b post, as = pre ++ .serveReturns b :: post → .closeCall ∈ pre) →
    s.clients.length = as.count .request ∧
    (.closeCall ∈ as ∨ s.closers ≠ 0 → s.clients = [.done]) ∧
    (s.clients = [.assigned] ∨ s.clients = [.done] → s.newConn = some 0) ∧
    (∀ i, s.newConn = some i → i = 0 ∧ (s.clients = [.assigned] ∨ s.clients = [.done])) ∧
    (s.newConnErr ≠ none → s.clients = [.failed]) ∧
    (s.ctxDone = true ∨ s.serve ≠ .serving → .closeCall ∈ as) ∧
    (s.pc ≠ .wait → .closeCall ∈ as) ∧
    (∀ c, s.pc = .load2 c → c = some 0) ∧
    (s.pc ≠ .check3) ∧
    (∀ c e, s.pc = .closing c e ∨ s.pc = .returned c e → c = some 0 ∧ e = none)) ?_ ?_ h hone hparent helse hserve
  · have h1 := key.2.2.2.2.2.2.2.2.2 c e (.inr hr)
    have h2 : s.clients = [.done] := key.2.1 (.inl (key.2.2.2.2.2.2.1 (by rw [hr]; simp)))
    exact ⟨h1.1, h1.2, (ws_ok h).clients 0 (by simp [h2])⟩
  · simp [wsServer]
  · rintro as s a s' - ih hst h1 h2 h3 h4
    have ih := ih (by rw [List.count_append] at h1; omega) (by simp at h2; exact h2.1) (by simp at h3; exact h3.1)
      (fun pre b post e => h4 pre b (post ++ [a]) (by simp [e]))
    obtain ⟨g1, g2, g3, g4, g5, g6, g7, g8, g9, g10⟩ := ih
    have hlen : s.clients.length ≤ 1 := by rw [List.count_append] at h1; omega
    have hret : ∀ b, a = .serveReturns b → .closeCall ∈ as := fun b e => h4 as b [] (by rw [e])
    have hcount : List.count WsAct.request (as ++ [a]) = List.count WsAct.request as + if a = .request then 1 else 0 := by
      simp [List.count_append, List.count_singleton]
    rw [hcount] at h1 ⊢
    have hmem : (.closeCall ∈ as ++ [a]) ↔ (.closeCall ∈ as ∨ a = .closeCall) := by simp [eq_comm]
    simp only [hmem]
    have h2 : a ≠ .parentDone := by rintro rfl; simp at h2
    have h3 : a ≠ .closeElsewhere := by rintro rfl; simp at h3
    clear hmem hcount h4
    obtain ⟨clients, newConn, newConnErr, closers, once, stops, lc, sc, serve, closeErr, ctxDone, pc⟩ := s
    simp only at g1 g2 g3 g4 g5 g6 g7 g8 g9 g10 hlen
    rcases clients with _ | ⟨x, _ | ⟨y, l⟩⟩
    · cases a <;> simp only [wsServer, WsServer.step, WsServer.main, WsServer.callClose] at hst
      all_goals (repeat' split at hst)
      all_goals first | (cases hst; done) | cases hst
      all_goals simp at g1 g2 g3 g4 g5 g6 g7 g8 g9 g10 hret h1 h2 h3 ⊢
      all_goals grind
    · cases a <;> simp only [wsServer, WsServer.step, WsServer.main, WsServer.callClose] at hst
      all_goals (repeat' split at hst)
      all_goals first | (cases hst; done) | cases hst
      all_goals simp at g1 g2 g3 g4 g5 g6 g7 g8 g9 g10 hret h1 h2 h3 ⊢
      all_goals grind
    · simp at hlen

/-- The schedule `oneClient` meets the hypotheses. -/
example : ∃ s, wsServer.Reaches oneClient s ∧ s.pc = .returned (some 0) none ∧ oneClient.count .request ≤ 1 ∧ .parentDone ∉ oneClient ∧
    .closeElsewhere ∉ oneClient ∧ ∀ pre b post, oneClient = pre ++ .serveReturns b :: post → .closeCall ∈ pre := by
  refine ⟨_, rfl, rfl, by decide, by decide, by decide, fun pre b post h => ?_⟩
  rcases pre with _ | ⟨_, _ | ⟨_, _ | ⟨_, _ | ⟨_, _ | ⟨_, pre⟩⟩⟩⟩⟩ <;> simp_all [oneClient]

/-- The full statement of C32 for the plain server. -/
def C32_plain_statement : Prop := ∀ as s c e, plainServer.Reaches as s → s.pc = .returned c e →
  (.acceptOk ∈ as → c = some 0) ∧ (c ≠ none → e = none)

/-- C32 fails for the plain server as well: a connection accepted just after the timeout is dropped without being closed. -/
theorem C32_plain_false : ¬ C32_plain_statement := by
  intro h
  have := (h [.timeout, .main, .main, .main, .acceptOk, .assign, .main, .main] _ none (some .noConn) rfl rfl).1 (by simp)
  cases this

/-- C32 as far as it holds for the plain server: without a timeout the connection that was accepted is returned; and a returned
connection always comes without an error. -/
theorem C32_plain_partial {as : List PlainAct} {s : PlainServer} {c : Option Nat} {e : Option ServeErr} (h : plainServer.Reaches as s)
    (hr : s.pc = .returned c e) : (.timeout ∉ as → .acceptOk ∈ as → c = some 0) ∧ (c ≠ none → e = none) := by
  refine ⟨fun ht ha => ?_, fun hc => ?_⟩
  · have := LTS.invariant (T := plainServer) (P := fun as s => .timeout ∉ as →
      (s.ctxDone = true → s.acc = .ended) ∧ (s.pc ≠ .wait → s.acc = .ended) ∧ (s.acc = .accepting → s.conn = none ∧ s.err = none) ∧
      (.acceptOk ∈ as → (s.acc = .returned true ∧ s.conn = none ∨ (s.acc = .assigned ∨ s.acc = .ended) ∧ s.conn = some 0) ∧ s.err = none ∧
        ∀ c e, s.pc = .counting c e ∨ s.pc = .closing c e ∨ s.pc = .returned c e → c = some 0)) (by simp [plainServer]) ?_ h
    · exact ((this ht).2.2.2 ha).2.2 c e (.inr (.inr hr))
    · rintro as s a s' - ih hst ht
      obtain ⟨h1, h2, h3, h4⟩ := ih (by simp at ht; exact ht.1)
      have ht : a ≠ .timeout := by rintro rfl; simp at ht
      have hm : (.acceptOk ∈ as ++ [a]) ↔ (.acceptOk ∈ as ∨ a = .acceptOk) := by simp [eq_comm]
      rw [hm]
      cases a <;> simp only [plainServer, PlainServer.step] at hst
      all_goals (repeat' split at hst)
      all_goals first | (cases hst; done) | cases hst
      all_goals refine ⟨?_, ?_, ?_, ?_⟩ <;> grind
  · rcases C30_plain h hr with h1 | h1
    · exact h1.2.1
    · exact absurd h1.1 hc

/-! ## C74 -/

/-- C74: a raw single-serving server: at every moment of every schedule its stop has been counted at most once and its listener closed
at most once; once `ServeOnce` has returned, exactly once each. -/
theorem C74_plain_closed_once {as : List PlainAct} {s : PlainServer} (h : plainServer.Reaches as s) :
    (s.stops ≤ 1 ∧ s.listenerCloses ≤ 1) ∧ (∀ c e, s.pc = .returned c e → s.stops = 1 ∧ s.listenerCloses = 1) := by
  have := LTS.state_invariant (T := plainServer) (P := fun s =>
    s.stops = (match s.pc with | .closing _ _ | .returned _ _ => 1 | _ => 0) ∧
    s.listenerCloses = (match s.pc with | .returned _ _ => 1 | _ => 0)) (by simp [plainServer]) ?_ h
  · refine ⟨⟨?_, ?_⟩, fun c e hr => ?_⟩
    · rw [this.1]; split <;> omega
    · rw [this.2]; split <;> omega
    · rw [this.1, this.2, hr]; simp
  · rintro s a s' ⟨h1, h2⟩ hst
    cases a <;> simp only [plainServer, PlainServer.step] at hst
    all_goals (repeat' split at hst)
    all_goals first | (cases hst; done) | cases hst
    all_goals constructor <;> grind

/-- The return after a client and after a timeout. -/
example : (∃ s, plainServer.Reaches [.acceptOk, .assign, .cancel, .main, .main, .main, .main, .main] s ∧ s.pc = .returned (some 0) none) ∧
    ∃ s, plainServer.Reaches [.timeout, .main, .main, .main, .main, .main] s ∧ s.pc = .returned none (some .noConn) := ⟨⟨_, rfl, rfl⟩, _, rfl, rfl⟩

/-! ## C75 -/

/-- Steps that the goroutines of the websocket server make on their own: no new client, no end of a handshake, no timeout, no close
from elsewhere. -/
def WsOwn : WsAct → Prop
  | .assign _ | .spawn _ | .closeCall | .onceStep | .serveReturns true | .serveAssigns | .serveCancels | .main => True
  | _ => False

/-- The same for the raw server: no accepted client, no timeout. -/
def PlainOwn : PlainAct → Prop
  | .assign | .cancel | .main => True
  | _ => False

private def clientRank : HandlerPc → Nat
  | .upgraded => 3
  | .assigned => 2
  | _ => 0

private def onceRank : Once → Nat
  | .idle => 4 | .counting => 3 | .closingListener => 2 | .closingServer => 1 | .done => 0

private def serveRank : ServeGo → Nat
  | .serving => 3 | .returned _ => 2 | .assigned => 1 | .ended => 0

private def pcRank : OncePc → Nat
  | .wait => 8 | .loadErr => 7 | .check1 _ => 6 | .check2 => 5 | .check3 => 4 | .load => 3 | .load2 _ => 2 | .closing _ _ => 1 | .returned _ _ => 0

private def wsRank (s : WsServer) : Nat :=
  (s.clients.map clientRank).sum + s.closers + onceRank s.once + serveRank s.serve + pcRank s.pc

private theorem sum_set (l : List HandlerPc) (i : Nat) (x y : HandlerPc) (h : l[i]? = some x) :
    ((l.set i y).map clientRank).sum + clientRank x = (l.map clientRank).sum + clientRank y := by
  induction l generalizing i with
  | nil => simp at h
  | cons a l ih =>
    cases i with
    | zero => simp at h; subst h; simp; omega
    | succ i =>
      simp only [List.getElem?_cons_succ] at h
      have := ih i h
      simp only [List.set_cons_succ, List.map_cons, List.sum_cons]; omega

private theorem wsRank_step {s s' : WsServer} {a : WsAct} (ha : WsOwn a) (h : wsServer.step s a = some s') : wsRank s' < wsRank s := by
  cases a with
  | assign i =>
    simp only [wsServer, WsServer.step] at h
    split at h <;> cases h
    rename_i hi
    have := sum_set _ _ _ .assigned hi
    simp only [wsRank, clientRank] at *; omega
  | spawn i =>
    simp only [wsServer, WsServer.step] at h
    split at h <;> cases h
    rename_i hi
    have := sum_set _ _ _ .done hi
    simp only [wsRank, clientRank] at *; omega
  | main =>
    simp only [wsServer, WsServer.step, WsServer.main, WsServer.callClose] at h
    repeat' split at h
    all_goals first | (cases h; done) | cases h
    all_goals simp only [wsRank, pcRank, onceRank, *] <;> first | omega | (simp_all; done)
  | closeCall =>
    simp only [wsServer, WsServer.step, WsServer.callClose] at h
    repeat' split at h
    all_goals first | (cases h; done) | cases h
    all_goals simp only [wsRank, onceRank, *] <;> omega
  | onceStep =>
    simp only [wsServer, WsServer.step] at h
    repeat' split at h
    all_goals first | (cases h; done) | cases h
    all_goals simp only [wsRank, onceRank, *] <;> omega
  | serveReturns b =>
    simp only [wsServer, WsServer.step] at h
    repeat' split at h
    all_goals first | (cases h; done) | cases h
    all_goals simp only [wsRank, serveRank, *] <;> omega
  | serveAssigns =>
    simp only [wsServer, WsServer.step] at h
    repeat' split at h
    all_goals first | (cases h; done) | cases h
    all_goals simp only [wsRank, serveRank, *] <;> omega
  | serveCancels =>
    simp only [wsServer, WsServer.step] at h
    repeat' split at h
    all_goals first | (cases h; done) | cases h
    all_goals simp only [wsRank, serveRank, *] <;> omega
  | _ => cases ha

/-- A completed handshake is on its way to closing the server. -/
private theorem ws_progress {as : List WsAct} {s : WsServer} (h : wsServer.Reaches as s) :
    (∀ i, .upgradeOk i ∈ as → s.clients[i]? = some .upgraded ∨ s.clients[i]? = some .assigned ∨ s.clients[i]? = some .done) ∧
    (∀ i : Nat, s.clients[i]? = some .done → s.closers ≠ 0 ∨ s.once ≠ .idle) ∧
    (s.serve = .ended → s.ctxDone = true) ∧ (s.once = .done → 0 < s.srvCloses) := by
  refine LTS.invariant (T := wsServer) (P := fun as s =>
    (∀ i, .upgradeOk i ∈ as → s.clients[i]? = some .upgraded ∨ s.clients[i]? = some .assigned ∨ s.clients[i]? = some .done) ∧
    (∀ i : Nat, s.clients[i]? = some .done → s.closers ≠ 0 ∨ s.once ≠ .idle) ∧
    (s.serve = .ended → s.ctxDone = true) ∧ (s.once = .done → 0 < s.srvCloses)) (by simp [wsServer]) ?_ h
  rintro as s a s' - ⟨h1, h2, h3, h4⟩ hst
  cases a <;> simp only [wsServer, WsServer.step, WsServer.main, WsServer.callClose] at hst
  all_goals (repeat' split at hst)
  all_goals first | (cases hst; done) | cases hst
  all_goals refine ⟨?_, ?_, ?_, ?_⟩ <;> grind

/-- C75 for the websocket servers: once a client has completed its handshake, `ServeOnce` returns without any timeout: whatever the
order in which the goroutines run, after a bounded number of their own steps none is left to be made only if `ServeOnce` has returned.
(The http server ends when it is closed; that it can do so earlier is not needed.) -/
theorem C75_websocket {as bs : List WsAct} {s s' : WsServer} {i : Nat} (h : wsServer.Reaches as s) (hi : .upgradeOk i ∈ as)
    (hr : wsServer.runFrom s bs = some s') (hb : ∀ a ∈ bs, WsOwn a) :
    bs.length ≤ 3 * s.clients.length + s.closers + 15 ∧
    ((∃ c e, s'.pc = .returned c e) ∨
      ∃ a s'', WsOwn a ∧ wsServer.step s' a = some s'' ∧ (a = .serveReturns true → 0 < s'.srvCloses)) := by
  constructor
  · have hlen : bs.length + wsRank s' ≤ wsRank s := by
      clear h hi
      induction bs generalizing s with
      | nil => cases hr; simp
      | cons a bs ih =>
        obtain ⟨t, h1, h2⟩ := LTS.runFrom_cons_eq.1 hr
        have := wsRank_step (hb a (by simp)) h1
        have := ih h2 (fun x hx => hb x (by simp [hx]))
        simp only [List.length_cons]; omega
    have hc : ∀ l : List HandlerPc, (l.map clientRank).sum ≤ 3 * l.length := by
      intro l
      induction l with
      | nil => simp
      | cons x l ih => cases x <;> simp [clientRank] <;> omega
    have := hc s.clients
    have h1 : onceRank s.once ≤ 4 := by cases s.once <;> simp [onceRank]
    have h2 : serveRank s.serve ≤ 3 := by cases s.serve <;> simp [serveRank]
    have h3 : pcRank s.pc ≤ 8 := by cases s.pc <;> simp [pcRank]
    unfold wsRank at hlen; omega
  · have h' : wsServer.Reaches (as ++ bs) s' := LTS.runFrom_append_eq.2 ⟨s, h, hr⟩
    obtain ⟨p1, p2, p3, p4⟩ := ws_progress h'
    rcases p1 i (by simp [hi]) with hc | hc | hc
    · exact .inr ⟨.assign i, _, trivial, by simp only [wsServer, WsServer.step, hc, if_true]; rfl, by simp⟩
    · exact .inr ⟨.spawn i, _, trivial, by simp only [wsServer, WsServer.step, hc, if_true]; rfl, by simp⟩
    · by_cases hcl : s'.closers = 0
      · have ho := (p2 i hc).resolve_left (by simp [hcl])
        cases hon : s'.once with
        | idle => exact absurd hon ho
        | counting => exact .inr ⟨.onceStep, _, trivial, by simp only [wsServer, WsServer.step, hon]; rfl, by simp⟩
        | closingListener => exact .inr ⟨.onceStep, _, trivial, by simp only [wsServer, WsServer.step, hon]; rfl, by simp⟩
        | closingServer => exact .inr ⟨.onceStep, _, trivial, by simp only [wsServer, WsServer.step, hon]; rfl, by simp⟩
        | done =>
          cases hs : s'.serve with
          | serving => exact .inr ⟨.serveReturns true, _, trivial, by simp only [wsServer, WsServer.step, hs, if_true]; rfl, fun _ => p4 hon⟩
          | returned b => exact .inr ⟨.serveAssigns, _, trivial, by simp only [wsServer, WsServer.step, hs]; rfl, by simp⟩
          | assigned => exact .inr ⟨.serveCancels, _, trivial, by simp only [wsServer, WsServer.step, hs, if_true]; rfl, by simp⟩
          | ended =>
            have hx := p3 hs
            cases hp : s'.pc with
            | returned c e => exact .inl ⟨c, e, rfl⟩
            | wait => exact .inr ⟨.main, _, trivial, by simp only [wsServer, WsServer.step, WsServer.main, hp, hx, if_true]; rfl, by simp⟩
            | loadErr => exact .inr ⟨.main, _, trivial, by simp only [wsServer, WsServer.step, WsServer.main, hp]; rfl, by simp⟩
            | check1 err =>
              by_cases hn : s'.newConn = none ∧ err = some false
              · exact .inr ⟨.main, _, trivial, by simp only [wsServer, WsServer.step, WsServer.main, hp]; rw [if_pos hn], by simp⟩
              · exact .inr ⟨.main, _, trivial, by simp only [wsServer, WsServer.step, WsServer.main, hp]; rw [if_neg hn], by simp⟩
            | check2 =>
              by_cases hn : s'.newConn = none
              · exact .inr ⟨.main, _, trivial, by simp only [wsServer, WsServer.step, WsServer.main, hp]; rw [if_pos hn], by simp⟩
              · exact .inr ⟨.main, _, trivial, by simp only [wsServer, WsServer.step, WsServer.main, hp]; rw [if_neg hn], by simp⟩
            | check3 =>
              by_cases hn : s'.newConnErr = none
              · exact .inr ⟨.main, _, trivial, by simp only [wsServer, WsServer.step, WsServer.main, hp]; rw [if_pos hn], by simp⟩
              · exact .inr ⟨.main, _, trivial, by simp only [wsServer, WsServer.step, WsServer.main, hp]; rw [if_neg hn], by simp⟩
            | load => exact .inr ⟨.main, _, trivial, by simp only [wsServer, WsServer.step, WsServer.main, hp]; rfl, by simp⟩
            | load2 c => exact .inr ⟨.main, _, trivial, by simp only [wsServer, WsServer.step, WsServer.main, hp]; rfl, by simp⟩
            | closing c e => exact .inr ⟨.main, _, trivial, by simp only [wsServer, WsServer.step, WsServer.main, hp, hon]; rfl, by simp⟩
      · exact .inr ⟨.closeCall, _, trivial, by simp only [wsServer, WsServer.step, hcl, if_false]; rfl, by simp⟩

/-- The schedule `oneClient` after the handshake. -/
example : ∃ s s', wsServer.Reaches (oneClient.take 2) s ∧ .upgradeOk 0 ∈ oneClient.take 2 ∧ wsServer.runFrom s (oneClient.drop 2) = some s' ∧
    (∀ a ∈ oneClient.drop 2, WsOwn a) ∧ s'.pc = .returned (some 0) none :=
  ⟨_, _, rfl, by simp [oneClient], rfl, by simp [oneClient, WsOwn], rfl⟩

private def accRank : AcceptGo → Nat
  | .accepting => 0 | .returned _ => 2 | .assigned => 1 | .ended => 0

private def plainRank : PlainPc → Nat
  | .wait => 5 | .checkErr => 4 | .checkConn => 3 | .counting _ _ => 2 | .closing _ _ => 1 | .returned _ _ => 0

private theorem plainRank_step {s s' : PlainServer} {a : PlainAct} (ha : PlainOwn a) (h : plainServer.step s a = some s') :
    accRank s'.acc + plainRank s'.pc < accRank s.acc + plainRank s.pc := by
  cases a <;> simp only [plainServer, PlainServer.step] at h
  all_goals try (cases ha; done)
  all_goals (repeat' split at h)
  all_goals first | (cases h; done) | cases h
  all_goals simp only [accRank, plainRank, *] <;> omega

/-- C75 for the raw server: once a client is accepted, or accepting failed, `ServeOnce` returns after at most seven steps of its two
goroutines, without any timeout. -/
theorem C75_plain {as bs : List PlainAct} {s s' : PlainServer} (h : plainServer.Reaches as s) (hi : .acceptOk ∈ as ∨ .acceptFails ∈ as)
    (hr : plainServer.runFrom s bs = some s') (hb : ∀ a ∈ bs, PlainOwn a) :
    bs.length ≤ 7 ∧ ((∃ c e, s'.pc = .returned c e) ∨ ∃ a s'', PlainOwn a ∧ plainServer.step s' a = some s'') := by
  constructor
  · have hlen : bs.length + (accRank s'.acc + plainRank s'.pc) ≤ accRank s.acc + plainRank s.pc := by
      clear h hi
      induction bs generalizing s with
      | nil => cases hr; simp
      | cons a bs ih =>
        obtain ⟨t, h1, h2⟩ := LTS.runFrom_cons_eq.1 hr
        have := plainRank_step (hb a (by simp)) h1
        have := ih h2 (fun x hx => hb x (by simp [hx]))
        simp only [List.length_cons]; omega
    have h1 : accRank s.acc ≤ 2 := by cases s.acc <;> simp [accRank]
    have h2 : plainRank s.pc ≤ 5 := by cases s.pc <;> simp [plainRank]
    omega
  · have h' : plainServer.Reaches (as ++ bs) s' := LTS.runFrom_append_eq.2 ⟨s, h, hr⟩
    have inv := LTS.invariant (T := plainServer) (P := fun as s =>
      (.acceptOk ∈ as ∨ .acceptFails ∈ as → s.acc ≠ .accepting) ∧ (s.acc = .ended → s.ctxDone = true)) (by simp [plainServer]) ?_ h'
    · have ha := inv.1 (by rcases hi with hi | hi <;> simp [hi])
      cases hacc : s'.acc with
      | accepting => exact absurd hacc ha
      | returned b => cases b <;> exact .inr ⟨.assign, _, trivial, by simp only [plainServer, PlainServer.step, hacc]; rfl⟩
      | assigned => exact .inr ⟨.cancel, _, trivial, by simp only [plainServer, PlainServer.step, hacc, if_true]; rfl⟩
      | ended =>
        have hx := inv.2 hacc
        cases hp : s'.pc with
        | returned c e => exact .inl ⟨c, e, rfl⟩
        | wait => exact .inr ⟨.main, _, trivial, by simp only [plainServer, PlainServer.step, hp, hx, if_true]; rfl⟩
        | checkErr => cases he : s'.err <;> exact .inr ⟨.main, _, trivial, by simp only [plainServer, PlainServer.step, hp, he]; rfl⟩
        | checkConn => cases he : s'.conn <;> exact .inr ⟨.main, _, trivial, by simp only [plainServer, PlainServer.step, hp, he]; rfl⟩
        | counting c e => exact .inr ⟨.main, _, trivial, by simp only [plainServer, PlainServer.step, hp]; rfl⟩
        | closing c e => exact .inr ⟨.main, _, trivial, by simp only [plainServer, PlainServer.step, hp]; rfl⟩
    · rintro as s a s' - ⟨h1, h2⟩ hst
      cases a <;> simp only [plainServer, PlainServer.step] at hst
      all_goals (repeat' split at hst)
      all_goals first | (cases hst; done) | cases hst
      all_goals refine ⟨?_, ?_⟩ <;> grind

/-- An accepted client and the steps of the goroutines up to the return. -/
example : ∃ s s', plainServer.Reaches [.acceptOk] s ∧ plainServer.runFrom s [.assign, .cancel, .main, .main, .main, .main, .main] = some s' ∧
    s'.pc = .returned (some 0) none := ⟨_, _, rfl, rfl, rfl⟩

/-! ## C78 -/

/-- C78 as far as it holds: no test client is ever counted twice, and none is counted without having been handed out. The full statement
also says that each one handed out is counted, see `C78_counted_false`. -/
theorem C78_counted_partial :
    (∀ as s, wsServer.Reaches as s → s.accepts ≤ 1 ∧ (∀ c e, s.pc = .returned c e → c = none → s.accepts = 0)) ∧
    (∀ as s, plainServer.Reaches as s → s.accepts ≤ 1 ∧ (∀ c e, s.pc = .returned c e → c = none → s.accepts = 0)) := by
  have h1 : ∀ as s, wsServer.Reaches as s → s.accepts = 0 := by
    intro as s h
    refine LTS.state_invariant (T := wsServer) (P := fun s => s.accepts = 0) rfl ?_ h
    intro s a s' ih hst
    cases a <;> simp only [wsServer, WsServer.step, WsServer.main, WsServer.callClose] at hst
    all_goals (repeat' split at hst)
    all_goals first | (cases hst; done) | cases hst
    all_goals simpa using ih
  have h2 : ∀ as s, plainServer.Reaches as s → s.accepts = 0 := by
    intro as s h
    refine LTS.state_invariant (T := plainServer) (P := fun s => s.accepts = 0) rfl ?_ h
    intro s a s' ih hst
    cases a <;> simp only [plainServer, PlainServer.step] at hst
    all_goals (repeat' split at hst)
    all_goals first | (cases hst; done) | cases hst
    all_goals simpa using ih
  exact ⟨fun as s h => ⟨by rw [h1 as s h]; omega, fun _ _ _ _ => h1 as s h⟩, fun as s h => ⟨by rw [h2 as s h]; omega, fun _ _ _ _ => h2 as s h⟩⟩

/-- C78 fails: a client handed out is not counted, by neither server. -/
theorem C78_counted_false :
    (¬ ∀ as s c, wsServer.Reaches as s → s.pc = .returned (some c) none → s.accepts = 1) ∧
    (¬ ∀ as s c, plainServer.Reaches as s → s.pc = .returned (some c) none → s.accepts = 1) :=
  ⟨fun h => absurd (h oneClient _ 0 rfl rfl) (by decide),
    fun h => absurd (h [.acceptOk, .assign, .cancel, .main, .main, .main, .main, .main] _ 0 rfl rfl) (by decide)⟩

end Verif.Props
