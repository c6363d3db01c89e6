import Verif.Ndt5.RawPort

/-!
# C68, C69, C76: forwarded connections and the accept loop of the raw port
-/

namespace Verif.Props
open Verif.Go Verif.Ndt5

/-! ## C68 -/

/-- Steps of the copy from the client to upstream. -/
def inSteps (as : List FwdAct) : Nat := as.countP fun
  | .inData _ | .inEnd | .inWrite | .inWriteFails _ => true
  | _ => false

/-- Steps of the copy from upstream to the client. -/
def outSteps (as : List FwdAct) : Nat := as.countP fun
  | .outData _ | .outEnd | .outWrite | .outWriteFails _ => true
  | _ => false

private def FwdOk (s : Forward) : Prop :=
  match s.pc with
  | .wait => s.fwdOpen = true ∧ s.connOpen = true ∧ s.fwdCloses = 0 ∧ s.connCloses = 0 ∧ s.timeouts = 0
  | .report => s.fwdOpen = true ∧ s.connOpen = true ∧ s.fwdCloses = 0 ∧ s.connCloses = 0 ∧ s.timeouts = 0 ∧ s.ctx ≠ none
  | .closeFwd => s.fwdOpen = true ∧ s.connOpen = true ∧ s.fwdCloses = 0 ∧ s.connCloses = 0 ∧
      s.timeouts = (if s.ctx = some .deadline then 1 else 0) ∧ s.ctx ≠ none
  | .cancel => s.fwdOpen = false ∧ s.connOpen = true ∧ s.fwdCloses = 1 ∧ s.connCloses = 0 ∧
      s.timeouts = (if s.ctx = some .deadline then 1 else 0) ∧ s.ctx ≠ none
  | .closeConn => s.fwdOpen = false ∧ s.connOpen = true ∧ s.fwdCloses = 1 ∧ s.connCloses = 0 ∧
      s.timeouts = (if s.ctx = some .deadline then 1 else 0) ∧ s.ctx ≠ none
  | .returned => s.fwdOpen = false ∧ s.connOpen = false ∧ s.fwdCloses = 1 ∧ s.connCloses = 1 ∧
      s.timeouts = (if s.ctx = some .deadline then 1 else 0) ∧ s.ctx ≠ none

private theorem fwd_ok {as : List FwdAct} {s : Forward} (h : forwarding.Reaches as s) :
    FwdOk s ∧ (s.waited = true → s.ctx ≠ none) := by
  refine LTS.state_invariant (T := forwarding) (P := fun s => FwdOk s ∧ (s.waited = true → s.ctx ≠ none)) (by simp [forwarding, FwdOk]) ?_ h
  rintro ⟨i, o, w, ctx, pc, co, fo, cc, fc, t, up, down⟩ a s' ⟨h1, h2⟩ hst
  cases pc <;> cases ctx <;> cases a <;> simp only [forwarding, Forward.step, Forward.endCtx] at hst
  all_goals (repeat' split at hst)
  all_goals first | (cases hst; done) | cases hst
  all_goals simp_all [FwdOk]

/-- C68: when the handling of a forwarded connection returns, for whatever reason, the upstream connection and the client connection are
both closed, each exactly once, and a timeout was counted exactly if it was the reason. -/
theorem C68_both_closed {as : List FwdAct} {s : Forward} (h : forwarding.Reaches as s) (hr : s.pc = .returned) :
    s.fwdOpen = false ∧ s.connOpen = false ∧ s.fwdCloses = 1 ∧ s.connCloses = 1 ∧
    s.timeouts = if s.ctx = some .deadline then 1 else 0 := by
  have := (fwd_ok h).1
  unfold FwdOk at this
  rw [hr] at this
  grind

private def mainRank : FwdPc → Nat
  | .wait => 5 | .report => 4 | .closeFwd => 3 | .cancel => 2 | .closeConn => 1 | .returned => 0

/-- C68: once the context has ended - by the timeout, by shutdown, or because both copies ended - the handling returns: until it has,
its next step is possible, and there are at most five of them, whatever the other goroutines do. -/
theorem C68_returns {as : List FwdAct} {s : Forward} (_ : forwarding.Reaches as s) (hc : s.ctx ≠ none) :
    (s.pc ≠ .returned → ∃ s', forwarding.step s .main = some s') ∧
    ∀ bs s', forwarding.runFrom s bs = some s' → bs.count .main ≤ 5 := by
  constructor
  · intro hp
    have : s.ctx.isSome = true := Option.isSome_iff_ne_none.2 hc
    cases h : s.pc <;> simp_all [forwarding, Forward.step]
  · have key : ∀ bs (s s' : Forward), forwarding.runFrom s bs = some s' → bs.count .main ≤ mainRank s.pc := by
      intro bs
      induction bs with
      | nil => simp
      | cons a bs ih =>
        intro s s' h
        obtain ⟨t, h1, h2⟩ := LTS.runFrom_cons_eq.1 h
        have ih := ih _ _ h2
        rw [List.count_cons]
        have : mainRank t.pc + (if a == .main then 1 else 0) ≤ mainRank s.pc := by
          cases a <;> simp only [forwarding, Forward.step, Forward.endCtx] at h1
          all_goals (repeat' split at h1)
          all_goals first | (cases h1; done) | cases h1
          all_goals simp_all [mainRank]
        omega
    intro bs s' h
    have := key bs s s' h
    have : mainRank s.pc ≤ 5 := by cases s.pc <;> simp [mainRank]
    omega

/-- C68: as soon as both copies have ended, the context ends: it has ended already, or the goroutine waiting for the copies can end it. -/
theorem C68_both_ended {as : List FwdAct} {s : Forward} (h : forwarding.Reaches as s) (hi : s.inbound = .ended) (ho : s.outbound = .ended) :
    s.ctx ≠ none ∨ ∃ s', forwarding.step s .waiter = some s' ∧ s'.ctx ≠ none := by
  cases hw : s.waited with
  | true => exact .inl ((fwd_ok h).2 hw)
  | false => right; exact ⟨_, by simp only [forwarding, Forward.step, hi, ho, hw]; rfl, by simp [Forward.endCtx]⟩

private def copyRank : CopyPc → Nat | .read => 2 | .write _ => 1 | .ended => 0

/-- C68: after the handling has returned both copies end: until they have, they can go on, and each takes at most two more steps. -/
theorem C68_copies_end {as : List FwdAct} {s : Forward} (h : forwarding.Reaches as s) (hr : s.pc = .returned) :
    (s.inbound ≠ .ended → ∃ a s', inSteps [a] = 1 ∧ forwarding.step s a = some s') ∧
    (s.outbound ≠ .ended → ∃ a s', outSteps [a] = 1 ∧ forwarding.step s a = some s') ∧
    ∀ bs s', forwarding.runFrom s bs = some s' → inSteps bs ≤ 2 ∧ outSteps bs ≤ 2 := by
  obtain ⟨h1, h2, -⟩ := C68_both_closed h hr
  refine ⟨fun hi => ?_, fun ho => ?_, ?_⟩
  · cases hp : s.inbound with
    | read => exact ⟨.inEnd, _, by decide, by simp only [forwarding, Forward.step, hp]; rfl⟩
    | write d => exact ⟨.inWriteFails 0, _, by decide, by simp only [forwarding, Forward.step, hp]; rfl⟩
    | ended => exact absurd hp hi
  · cases hp : s.outbound with
    | read => exact ⟨.outEnd, _, by decide, by simp only [forwarding, Forward.step, hp]; rfl⟩
    | write d => exact ⟨.outWriteFails 0, _, by decide, by simp only [forwarding, Forward.step, hp]; rfl⟩
    | ended => exact absurd hp ho
  · have key : ∀ bs (s s' : Forward), s.fwdOpen = false → s.connOpen = false → forwarding.runFrom s bs = some s' →
        inSteps bs ≤ copyRank s.inbound ∧ outSteps bs ≤ copyRank s.outbound := by
      intro bs
      induction bs with
      | nil => simp [inSteps, outSteps]
      | cons a bs ih =>
        intro s s' hf hc h
        obtain ⟨t, h1, h2⟩ := LTS.runFrom_cons_eq.1 h
        have hstep : t.fwdOpen = false ∧ t.connOpen = false ∧ copyRank t.inbound + inSteps [a] ≤ copyRank s.inbound ∧
            copyRank t.outbound + outSteps [a] ≤ copyRank s.outbound := by
          cases a <;> simp only [forwarding, Forward.step, Forward.endCtx] at h1
          all_goals (repeat' split at h1)
          all_goals first | (cases h1; done) | cases h1
          all_goals simp_all [copyRank, inSteps, outSteps]
        obtain ⟨g1, g2, g3, g4⟩ := hstep
        have := ih _ _ g1 g2 h2
        have e1 : inSteps (a :: bs) = inSteps bs + inSteps [a] := by simp only [inSteps, List.countP_cons]; simp
        have e2 : outSteps (a :: bs) = outSteps bs + outSteps [a] := by simp only [outSteps, List.countP_cons]; simp
        omega
    intro bs s' hrun
    have := key bs s s' h1 h2 hrun
    have e : ∀ p, copyRank p ≤ 2 := by intro p; cases p <;> simp [copyRank]
    have := e s.inbound
    have := e s.outbound
    omega

/-- A client that sends a message, gets an answer and closes; then upstream closes. -/
example : ∃ s, forwarding.Reaches [.inData (str "GET"), .inWrite, .outData (str "HTTP"), .outWrite, .inEnd, .outEnd, .waiter, .main, .main, .main, .main, .main] s ∧
    s.pc = .returned ∧ s.timeouts = 0 := ⟨_, rfl, rfl, rfl⟩

/-- A client that is stopped by the timeout in the middle of a copy: the copies go on and end afterwards. -/
example : ∃ s, forwarding.Reaches [.inData (str "GET"), .inWrite, .outData (str "HTTP"), .deadline, .main, .main, .main, .main, .main] s ∧
    s.pc = .returned ∧ s.timeouts = 1 ∧ s.inbound = .read ∧ s.outbound = .write (str "HTTP") := ⟨_, rfl, rfl, rfl, rfl, rfl⟩

/-- What C68 does not say: the end need not be prompt. When the client has closed its side and upstream says nothing, both connections
stay open until upstream closes or the context ends: no step of the server's own goroutines is possible. -/
theorem C68_waits_for_upstream : ∃ as s, forwarding.Reaches as s ∧ .inEnd ∈ as ∧ s.fwdOpen = true ∧ s.connOpen = true ∧
    ∀ a, forwarding.step s a ≠ none → (∃ d, a = .outData d) ∨ a = .outEnd ∨ a = .deadline ∨ a = .shutdown :=
  ⟨[.inEnd], _, rfl, by simp, rfl, rfl, by intro a; cases a <;> simp [forwarding, Forward.step]⟩

/-! ## C77 -/

/-- What was read from the client, in order. -/
def readIn (as : List FwdAct) : Bytes := as.flatMap fun | .inData d => d | _ => []

/-- What was read from upstream, in order. -/
def readOut (as : List FwdAct) : Bytes := as.flatMap fun | .outData d => d | _ => []

private def CopyOk (pc : CopyPc) (written read : Bytes) (failed : Prop) : Prop :=
  match pc with
  | .read => written = read
  | .write d => written ++ d = read
  | .ended => written <+: read ∧ (¬ failed → written = read)

/-- C77: forwarding is transparent, in both directions and under every schedule: what was written is always a beginning of what was read,
and all of it when nothing is on its way and no write has failed - also after timeout or shutdown. -/
theorem C77_transparent {as : List FwdAct} {s : Forward} (h : forwarding.Reaches as s) :
    (s.up <+: readIn as ∧ ((∀ n, .inWriteFails n ∉ as) → (∀ d, s.inbound ≠ .write d) → s.up = readIn as)) ∧
    (s.down <+: readOut as ∧ ((∀ n, .outWriteFails n ∉ as) → (∀ d, s.outbound ≠ .write d) → s.down = readOut as)) := by
  have inv := LTS.invariant (T := forwarding) (P := fun as s =>
    CopyOk s.inbound s.up (readIn as) (∃ n, .inWriteFails n ∈ as) ∧
    CopyOk s.outbound s.down (readOut as) (∃ n, .outWriteFails n ∈ as)) (by simp [forwarding, CopyOk, readIn, readOut]) ?_ h
  · obtain ⟨h1, h2⟩ := inv
    constructor
    · cases hp : s.inbound <;> simp only [CopyOk, hp] at h1
      · exact ⟨h1 ▸ List.prefix_refl _, fun _ _ => h1⟩
      · exact ⟨h1 ▸ List.prefix_append _ _, fun _ h => absurd rfl (h _)⟩
      · exact ⟨h1.1, fun h _ => h1.2 (fun ⟨n, hn⟩ => h n hn)⟩
    · cases hp : s.outbound <;> simp only [CopyOk, hp] at h2
      · exact ⟨h2 ▸ List.prefix_refl _, fun _ _ => h2⟩
      · exact ⟨h2 ▸ List.prefix_append _ _, fun _ h => absurd rfl (h _)⟩
      · exact ⟨h2.1, fun h _ => h2.2 (fun ⟨n, hn⟩ => h n hn)⟩
  · rintro as s a s' - ⟨h1, h2⟩ hst
    have ei : readIn (as ++ [a]) = readIn as ++ readIn [a] := by simp [readIn]
    have eo : readOut (as ++ [a]) = readOut as ++ readOut [a] := by simp [readOut]
    rw [ei, eo]
    have take_ok : ∀ (w d r : Bytes) (n : Nat), w ++ d = r → w ++ d.take n <+: r := by
      intro w d r n e; rw [← e]; exact (List.prefix_append_right_inj w).2 (List.take_prefix n d)
    cases a <;> simp only [forwarding, Forward.step, Forward.endCtx] at hst
    case main =>
      repeat' split at hst
      all_goals first | (cases hst; done) | cases hst
      all_goals exact ⟨by simpa [readIn] using h1, by simpa [readOut] using h2⟩
    all_goals (repeat' split at hst)
    all_goals first | (cases hst; done) | cases hst
    all_goals simp_all [CopyOk, readIn, readOut]
    all_goals first | exact h1 ▸ List.prefix_append _ _ | exact h2 ▸ List.prefix_append _ _

/-- Both directions, and a write to upstream that fails after one byte. -/
example : ∃ s, forwarding.Reaches [.inData (str "GET"), .inWrite, .outData (str "HTTP"), .outWrite, .inData (str " /"), .inWriteFails 1] s ∧
    s.up = str "GET " ∧ s.down = str "HTTP" := ⟨_, rfl, by decide, by decide⟩

/-! ## C69 -/

private structure RawOk (s : RawPort) : Prop where
  ended : s.pc = .ended → s.ctxDone = true
  crashed : s.crashed = false
  accepted : s.accepted = s.conns.length + if s.pc = .spawn then 1 else 0
  conns : ∀ c ∈ s.conns, match c.pc with
    | .handling => c.closes = 0
    | .closing _ => c.closes ≤ 1
    | .recovering _ => c.closes = 1 ∨ c.closes = 2
    | .ended => c.closes = 1 ∨ c.closes = 2

private theorem raw_ok {as : List RawAct} {s : RawPort} (h : rawPort.Reaches as s) : RawOk s := by
  refine LTS.state_invariant (T := rawPort) (P := RawOk) ?_ ?_ h
  · constructor <;> simp [rawPort]
  · rintro s a s' ⟨h1, h2, h3, h4⟩ hst
    cases a with
    | handled i self crash =>
      simp only [rawPort, RawPort.step] at hst
      split at hst
      · rename_i c hc
        split at hst <;> cases hst
        rename_i hp
        refine ⟨h1, h2, by simpa using h3, fun x hx => ?_⟩
        rcases List.mem_or_eq_of_mem_set hx with hx | rfl
        · exact h4 x hx
        · have := h4 c (List.mem_of_getElem? hc)
          rw [hp] at this
          simp only at this ⊢
          split <;> omega
      · cases hst
    | deferred i =>
      simp only [rawPort, RawPort.step] at hst
      split at hst
      · rename_i c hc
        have hc4 := h4 c (List.mem_of_getElem? hc)
        split at hst
        all_goals first | (cases hst; done) | cases hst
        · rename_i crash hp
          refine ⟨h1, h2, by simpa using h3, fun x hx => ?_⟩
          rcases List.mem_or_eq_of_mem_set hx with hx | rfl
          · exact h4 x hx
          · rw [hp] at hc4
            simp only at hc4 ⊢
            omega
        · rename_i crash hp
          refine ⟨h1, by simp [h2], by simpa using h3, fun x hx => ?_⟩
          rcases List.mem_or_eq_of_mem_set hx with hx | rfl
          · exact h4 x hx
          · rw [hp] at hc4
            exact hc4
      · cases hst
    | spawn =>
      simp only [rawPort, RawPort.step] at hst
      split at hst <;> cases hst
      rename_i hp
      refine ⟨by simp, h2, by simp [h3, hp], fun x hx => ?_⟩
      simp only [List.mem_append, List.mem_singleton] at hx
      rcases hx with hx | rfl
      · exact h4 x hx
      · rfl
    | _ =>
      simp only [rawPort, RawPort.step] at hst
      repeat' split at hst
      all_goals first | (cases hst; done) | cases hst
      all_goals constructor <;> grind

/-- C69: accept failures and crashes of connections never end the accept loop. It ends only after shutdown, until then it can always go
on, and no crash of a connection ends the process. -/
theorem C69_loop_survives {as : List RawAct} {s : RawPort} (h : rawPort.Reaches as s) :
    (s.pc = .ended → .shutdown ∈ as) ∧ s.crashed = false ∧
    (s.pc ≠ .ended → ∃ a s', (a = .check ∨ a = .acceptFails ∨ a = .spawn) ∧ rawPort.step s a = some s') := by
  refine ⟨fun he => ?_, (raw_ok h).crashed, fun hp => ?_⟩
  · have hd := (raw_ok h).ended he
    refine LTS.invariant (T := rawPort) (P := fun as s => s.ctxDone = true → .shutdown ∈ as) (by simp [rawPort]) ?_ h hd
    intro as s a s' _ ih hst
    cases a <;> simp only [rawPort, RawPort.step] at hst
    all_goals (repeat' split at hst)
    all_goals first | (cases hst; done) | cases hst
    all_goals simp_all
  · cases hc : s.pc with
    | check => exact ⟨.check, _, by simp, by simp only [rawPort, RawPort.step, hc]; rfl⟩
    | accept => exact ⟨.acceptFails, _, by simp, by simp only [rawPort, RawPort.step, hc]; rfl⟩
    | spawn => exact ⟨.spawn, _, by simp, by simp only [rawPort, RawPort.step, hc]; rfl⟩
    | ended => exact absurd hc hp

/-- C69 as far as it holds: every accepted connection is handled exactly once (the one just accepted is about to be), and a connection
whose handling has ended was closed, once or twice. The full statement says once, see `C69_closed_once_false`. -/
theorem C69_handled_and_closed_partial {as : List RawAct} {s : RawPort} (h : rawPort.Reaches as s) :
    as.count .acceptOk = s.conns.length + (if s.pc = .spawn then 1 else 0) ∧
    ∀ c ∈ s.conns, (c.pc = .handling → c.closes = 0) ∧ (c.pc = .ended → c.closes = 1 ∨ c.closes = 2) := by
  have ha : as.count .acceptOk = s.accepted := by
    refine LTS.invariant (T := rawPort) (P := fun as s => as.count .acceptOk = s.accepted) (by simp [rawPort]) ?_ h
    intro as s a s' _ ih hst
    rw [List.count_append, ih]
    cases a <;> simp only [rawPort, RawPort.step] at hst
    all_goals (repeat' split at hst)
    all_goals first | (cases hst; done) | cases hst
    all_goals simp
  refine ⟨by rw [ha]; exact (raw_ok h).accepted, fun c hc => ?_⟩
  have := (raw_ok h).conns c hc
  constructor
  · intro hp; rw [hp] at this; exact this
  · intro hp; rw [hp] at this; exact this

/-- C69: a connection that does not close itself (a forwarded one, or one that sends nothing useful) is closed exactly once. -/
theorem C69_closed_once_partial {as : List RawAct} {s : RawPort} (h : rawPort.Reaches as s) (i : Nat) (c : RawConn) (hc : s.conns[i]? = some c)
    (hn : ∀ crash, .handled i true crash ∉ as) (he : c.pc = .ended) : c.closes = 1 := by
  have := LTS.invariant (T := rawPort) (P := fun as s => (∀ crash, .handled i true crash ∉ as) → ∀ c, s.conns[i]? = some c → match c.pc with
    | .handling => c.closes = 0
    | .closing _ => c.closes = 0
    | .recovering _ => c.closes = 1
    | .ended => c.closes = 1) (by simp [rawPort]) ?_ h hn c hc
  · rw [he] at this; exact this
  clear hc hn he h
  · intro as s a s' _ ih hst hn c hc
    have ih := ih (fun crash hm => hn crash (List.mem_append_left _ hm))
    cases a with
    | handled j self crash =>
      simp only [rawPort, RawPort.step] at hst
      split at hst
      · rename_i d hd
        split at hst <;> cases hst
        rename_i hp
        simp only [List.getElem?_set] at hc
        split at hc
        · rename_i e
          subst e
          split at hc <;> cases hc
          have := ih d hd
          rw [hp] at this
          simp only at this ⊢
          have hs : self = false := by
            cases self with
            | false => rfl
            | true => exact absurd (List.mem_append_right _ (by simp)) (hn crash)
          simp [hs, this]
        · exact ih c hc
      · cases hst
    | deferred j =>
      simp only [rawPort, RawPort.step] at hst
      split at hst
      · rename_i d hd
        split at hst
        all_goals first | (cases hst; done) | cases hst
        all_goals
          rename_i crash hp
          simp only [List.getElem?_set] at hc
          split at hc
          · rename_i e
            subst e
            split at hc <;> cases hc
            have := ih d hd
            rw [hp] at this
            simp only at this ⊢
            omega
          · exact ih c hc
      · cases hst
    | spawn =>
      simp only [rawPort, RawPort.step] at hst
      split at hst <;> cases hst
      simp only [List.getElem?_append] at hc
      split at hc
      · exact ih c hc
      · have := List.mem_of_getElem? hc
        simp at this
        subst this
        rfl
    | _ =>
      simp only [rawPort, RawPort.step] at hst
      repeat' split at hst
      all_goals first | (cases hst; done) | cases hst
      all_goals exact ih c hc

/-- A failed accept, a crashing connection, another connection and the shutdown. -/
private def rawSession : List RawAct := [.check, .acceptFails, .check, .acceptOk, .spawn, .handled 0 false true, .deferred 0, .deferred 0,
  .check, .acceptOk, .spawn, .handled 1 true false, .deferred 1, .deferred 1, .check, .shutdown, .closeListener, .acceptFails, .check]

example : ∃ s, rawPort.Reaches rawSession s ∧ s.pc = .ended ∧ s.conns.map (·.closes) = [1, 2] ∧ s.conns.map (·.recovered) = [true, false] :=
  ⟨_, rfl, rfl, rfl, rfl⟩

/-- C69 fails in one respect: a connection with a control session is closed twice, by the session and by the raw port. (The second
close has no effect, see C33.) -/
theorem C69_closed_once_false : ¬ ∀ as s, rawPort.Reaches as s → ∀ c ∈ s.conns, c.pc = .ended → c.closes = 1 := by
  intro h
  have := h rawSession _ rfl { pc := .ended, closes := 2, recovered := false } (by decide) rfl
  cases this

/-! ## C76 -/

/-- Steps of the accept loop. -/
def loopSteps (as : List RawAct) : Nat := as.countP fun a => a = .check ∨ a = .acceptOk ∨ a = .acceptFails ∨ a = .spawn

private def loopRank : LoopPc → Nat | .check => 1 | .accept => 3 | .spawn => 2 | .ended => 0

private def acceptRank : LoopPc → Nat | .accept => 1 | _ => 0

private theorem loop_rank {s s' : RawPort} {a : RawAct} (hd : s.ctxDone = true) (h : rawPort.step s a = some s') :
    s'.ctxDone = true ∧ loopRank s'.pc + loopSteps [a] ≤ loopRank s.pc ∧ acceptRank s'.pc + [a].count .acceptOk ≤ acceptRank s.pc ∧
    (s.listenerOpen = false → s'.listenerOpen = false ∧ a ≠ .acceptOk) := by
  cases a <;> simp only [rawPort, RawPort.step] at h
  all_goals (repeat' split at h)
  all_goals first | (cases h; done) | cases h
  all_goals simp_all [loopSteps, loopRank, acceptRank]

/-- C76: after shutdown the accept loop of the raw port ends after at most three of its steps, whatever else happens, with at most one
more client accepted, and none once the listener is closed; the listener can be closed at any time from the shutdown on, and the
loop is never stuck before its end: an `Accept` on a closed listener fails. -/
theorem C76_shutdown_ends_loop {as bs : List RawAct} {s s' : RawPort} (h : rawPort.Reaches as s) (hd : .shutdown ∈ as)
    (hr : rawPort.runFrom s bs = some s') :
    loopSteps bs ≤ 3 ∧ bs.count .acceptOk ≤ 1 ∧ (s.listenerOpen = false → .acceptOk ∉ bs) ∧
    (s'.pc = .ended ∨ ∃ a s'', loopSteps [a] = 1 ∧ a ≠ .acceptOk ∧ rawPort.step s' a = some s'') ∧
    ∃ s'', rawPort.step s' .closeListener = some s'' ∧ s''.listenerOpen = false := by
  have hctx : s.ctxDone = true := by
    refine LTS.invariant (T := rawPort) (P := fun as s => .shutdown ∈ as → s.ctxDone = true) (by simp [rawPort]) ?_ h hd
    intro as s a s' _ ih hst
    cases a <;> simp only [rawPort, RawPort.step] at hst
    all_goals (repeat' split at hst)
    all_goals first | (cases hst; done) | cases hst
    all_goals simp_all
  have key : ∀ bs (s : RawPort), s.ctxDone = true → rawPort.runFrom s bs = some s' →
      s'.ctxDone = true ∧ loopSteps bs ≤ loopRank s.pc ∧ bs.count .acceptOk ≤ acceptRank s.pc ∧ (s.listenerOpen = false → .acceptOk ∉ bs) := by
    intro bs
    induction bs with
    | nil => intro s hc hr; cases hr; simp [loopSteps, hc]
    | cons a bs ih =>
      intro s hc hr
      obtain ⟨t, h1, h2⟩ := LTS.runFrom_cons_eq.1 hr
      obtain ⟨g1, g2, g3, g4⟩ := loop_rank hc h1
      obtain ⟨i1, i2, i3, i4⟩ := ih t g1 h2
      have e1 : loopSteps (a :: bs) = loopSteps bs + loopSteps [a] := by simp only [loopSteps, List.countP_cons]; simp
      have e2 : (a :: bs).count .acceptOk = bs.count .acceptOk + [a].count .acceptOk := by simp only [List.count_cons]; simp
      refine ⟨i1, by omega, by omega, fun hl hm => ?_⟩
      obtain ⟨l1, l2⟩ := g4 hl
      rcases List.mem_cons.1 hm with e | e
      · exact l2 e.symm
      · exact i4 l1 e
  obtain ⟨k1, k2, k3, k4⟩ := key bs s hctx hr
  have r1 : loopRank s.pc ≤ 3 := by cases s.pc <;> simp [loopRank]
  have r2 : acceptRank s.pc ≤ 1 := by cases s.pc <;> simp [acceptRank]
  refine ⟨by omega, by omega, k4, ?_, _, by simp only [rawPort, RawPort.step, k1, if_true]; rfl, rfl⟩
  cases hc : s'.pc with
  | check => exact .inr ⟨.check, _, by decide, by simp, by simp only [rawPort, RawPort.step, hc]; rfl⟩
  | accept => exact .inr ⟨.acceptFails, _, by decide, by simp, by simp only [rawPort, RawPort.step, hc]; rfl⟩
  | spawn => exact .inr ⟨.spawn, _, by decide, by simp, by simp only [rawPort, RawPort.step, hc]; rfl⟩
  | ended => exact .inl rfl

/-- A shutdown while the loop waits in `Accept`, with one more client before the listener is closed. -/
example : ∃ s s', rawPort.Reaches [.check, .shutdown] s ∧ rawPort.runFrom s [.acceptOk, .closeListener, .spawn, .check] = some s' ∧
    s'.pc = .ended ∧ s'.conns.length = 1 := ⟨_, _, rfl, rfl, rfl, rfl⟩

end Verif.Props
