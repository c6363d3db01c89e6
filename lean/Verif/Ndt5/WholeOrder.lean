import Verif.Ndt5.WholeScript

/-! # Order of the tests, counters of requests, and executions put together -/

namespace Verif.Go
variable {S : Sig} {σ α β : Type}

theorem Prog.Runs.bind {p : Prog S α} {f : α → Prog S β} {e e' : List (Event S)} {a : α} {b : β} (h : Prog.Runs p e a)
    (h' : Prog.Runs (f a) e' b) : Prog.Runs (p.bind f) (e ++ e') b := by
  induction h with
  | ret a => exact h'
  | call q k r evs b _ ih => exact .call _ _ _ _ _ (ih h')
  | emit o k evs b _ ih => exact .emit _ _ _ _ (ih h')
  | clock k t evs b _ ih => exact .clock _ _ _ _ (ih h')

theorem Exec.bind {x : M S σ α} {f : α → M S σ β} {s s1 s' : σ} {e e' : List (Event S)} {a : α} {o : Outcome β}
    (h : Exec x s e (.ok a) s1) (h' : Exec (f a) s1 e' o s') : Exec (x >>= f) s (e ++ e') o s' := Prog.Runs.bind h h'

theorem Exec.defer {c : M S σ Unit} {x : M S σ α} {s s1 s' : σ} {e e' : List (Event S)} {o : Outcome α} {o' : Outcome Unit}
    (h : Exec x s e o s1) (h' : Exec c s1 e' o' s') : Exec (M.defer c x) s (e ++ e') (Ndt5.after o o') s' := by
  refine Prog.Runs.bind h ?_
  have := Prog.Runs.bind (f := fun c => match c.1 with
    | .ok _ => .ret (o, c.2)
    | .panic msg => .ret (.panic msg, c.2)) h' (e' := []) (b := (Ndt5.after o o', s')) (by cases o' <;> exact .ret _)
  rw [List.append_nil] at this
  exact this

theorem Exec.recovering {f : Option Bytes → M S σ Unit} {x : M S σ Unit} {s s1 s' : σ} {e e' : List (Event S)} {o o' : Outcome Unit}
    (h : Exec x s e o s1) (h' : Exec (f (match o with
      | .ok _ => none
      | .panic msg => some msg)) s1 e' o' s') : Exec (M.recovering f x) s (e ++ e') o' s' := by
  refine Prog.Runs.bind h ?_
  cases o <;> exact h'

theorem Exec.withState {τ : Type} {init t : τ} {x : M S τ α} {s : σ} {e : List (Event S)} {o : Outcome α} (h : Exec x init e o t) :
    Exec (M.withState init x) s e o s := by
  have := Prog.Runs.bind h (f := fun r => .ret (r.1, s)) (.ret (o, s))
  rw [List.append_nil] at this
  exact this

end Verif.Go

namespace Verif.Ndt5
open Verif.Go Verif.Spec

set_option maxRecDepth 20000
set_option linter.unusedSimpArgs false

/-! ## Order -/

/-- Events of no test. -/
theorem testOf_none {x : Ev} (h : match x with
    | .call .recv _ => True
    | .call (.send _) _ => True
    | .clock _ => True
    | .emit (.requested _ _) => True
    | .emit (.suite _ _) => True
    | _ => outer x = true) : testOf x = none := by
  cases x with
  | clock t => rfl
  | call q r =>
    cases q <;> first
      | rfl
      | (rename_i c; cases c <;> first | rfl | (simp [outer, ofDisk] at h; done))
      | (simp [outer, ofDisk] at h; done)
  | emit o => cases o <;> first | rfl | (simp [outer, accounting] at h; done)

theorem testOf_outer {x : Ev} (h : outer x = true) : testOf x = none := by
  refine testOf_none ?_
  split <;> trivial

theorem testOf_isSend {x : Ev} (h : isSend x = true) : testOf x = none := by
  unfold isSend at h
  split at h
  · rfl
  · cases h

theorem testOf_inTest {cfg : Cfg} {d : Dir} {x : Ev} (h : inTest cfg d x = true) :
    testOf x = none ∨ testOf x = some (if d = .c2s then 0 else 1) := by
  cases x with
  | clock t => exact .inl rfl
  | call q r =>
    cases q <;> first
      | exact .inl rfl
      | (simp [inTest, ofTest] at h; subst h; rename_i d0; cases d0 <;> exact .inr rfl)
      | (simp [inTest, ofTest] at h; subst h; exact .inr rfl)
      | (simp [inTest, ofTest] at h; done)
      | (rename_i c; cases c <;> first
          | (simp [inTest, ofTest] at h; subst h; rename_i d0; cases d0 <;> exact .inr rfl)
          | (simp [inTest, ofTest] at h; done)
          | exact .inl rfl)
  | emit o =>
    cases o <;> first
      | exact .inl rfl
      | (simp [inTest, ofTest] at h; subst h; rename_i d0; cases d0 <;> exact .inr rfl)
      | (simp [inTest, ofTest] at h; done)
      | (simp only [inTest, Bool.and_eq_true, decide_eq_true_eq] at h
         have hw := h.2
         subst hw
         cases d <;> exact .inr rfl)
      | (simp only [inTest, Bool.and_eq_true, decide_eq_true_eq] at h
         have hw := h.1.2
         subst hw
         cases d <;> exact .inr rfl)

theorem testOf_inMeta {cfg : Cfg} {x : Ev} (h : inMeta cfg x = true) : testOf x = none ∨ testOf x = some 2 := by
  cases x with
  | clock t => exact .inl rfl
  | call q r =>
    cases q <;> first
      | exact .inl rfl
      | exact .inr rfl
      | (simp [inMeta] at h; done)
  | emit o =>
    cases o <;> first
      | exact .inl rfl
      | exact .inr rfl
      | (simp [inMeta] at h; done)
      | (simp only [inMeta, decide_eq_true_eq] at h
         have hw := h.2
         subst hw
         exact .inr rfl)

theorem testsSeen_append (a b : List Ev) : testsSeen (a ++ b) = testsSeen a ++ testsSeen b := List.filterMap_append

theorem testsSeen_of {k : Nat} {e : List Ev} (h : ∀ x ∈ e, testOf x = none ∨ testOf x = some k) : ∀ j ∈ testsSeen e, j = k := by
  intro j hj
  obtain ⟨x, hx, he⟩ := List.mem_filterMap.1 hj
  rcases h x hx with h | h <;> rw [h] at he <;> simp at he
  exact he.symm

theorem testsSeen_nil {e : List Ev} (h : ∀ x ∈ e, testOf x = none) : testsSeen e = [] := List.filterMap_eq_nil_iff.2 h

theorem pairwise_const {k : Nat} {l : List Nat} (h : ∀ j ∈ l, j = k) : l.Pairwise (· ≤ ·) := by
  rw [List.pairwise_iff_forall_sublist]
  intro a b hab
  have ha := h a (hab.subset (by simp))
  have hb := h b (hab.subset (by simp))
  omega

theorem testOf_requestNotes {cfg : Cfg} {n : Int} : ∀ x ∈ requestNotes cfg n, testOf x = none := by
  unfold requestNotes
  intro x hx
  simp only [List.mem_append] at hx
  rcases hx with h | h | h | h | h | h <;> (try split at h) <;> simp at h <;> subst h <;> rfl

theorem meta_asks (cfg : Cfg) (m : Messager) (s : Ctl) : wp (metaManage cfg m) s (fun e o _ => ∀ r, o = .ok (r, none) → 2 ∈ testsSeen e) := by
  refine wp_opaque fun Q hQ => ?_
  wp_paths [metaManage, wp_metaLoop]
  all_goals refine hQ _ _ _ ?_
  all_goals clear hQ
  all_goals intro r h
  all_goals first
    | (injection h with h; injection h with h1 h2; cases h2; done)
    | (injection h; done)
    | skip
  all_goals
    refine List.mem_filterMap.2 ⟨.call .ctxErr (.ok none), by simp, rfl⟩

section
variable {cfg : Cfg} {n : Int} {m : Messager} {s s' sU sD : Ctl} {e0 eU eD eM eF : List Ev} {o0 oM o : Outcome Unit} {oU oD : Outcome F64}
variable (hp : Parts cfg n m s e0 eU eD eM eF o0 oU oD oM o sU sD s')
include hp

theorem Parts.seen : (testsSeen (e0 ++ (eU ++ (eD ++ (eM ++ eF))))) = testsSeen eU ++ (testsSeen eD ++ testsSeen eM) := by
  rw [testsSeen_append, testsSeen_append, testsSeen_append, testsSeen_append, testsSeen_nil fun x hx => testOf_isSend (hp.foot0 x hx),
    testsSeen_nil fun x hx => testOf_isSend (hp.footF x hx), List.append_nil, List.nil_append]

theorem Parts.seenU : ∀ j ∈ testsSeen eU, j = 0 := testsSeen_of fun x hx => testOf_inTest (hp.footU x hx)
theorem Parts.seenD : ∀ j ∈ testsSeen eD, j = 1 := testsSeen_of fun x hx => testOf_inTest (hp.footD x hx)
theorem Parts.seenM : ∀ j ∈ testsSeen eM, j = 2 := testsSeen_of fun x hx => testOf_inMeta (hp.footM x hx)

theorem Parts.order : (testsSeen (e0 ++ (eU ++ (eD ++ (eM ++ eF))))).Pairwise (· ≤ ·) := by
  rw [hp.seen]
  refine List.pairwise_append.2 ⟨pairwise_const hp.seenU, List.pairwise_append.2 ⟨pairwise_const hp.seenD, pairwise_const hp.seenM, ?_⟩, ?_⟩
  · intro a ha b hb; rw [hp.seenD a ha, hp.seenM b hb]; omega
  · intro a ha b hb; rw [hp.seenU a ha]; omega

theorem Parts.onlyRequested : ∀ k ∈ testsSeen (e0 ++ (eU ++ (eD ++ (eM ++ eF)))), k < 3 ∧ requested n (bitOf k) = true := by
  rw [hp.seen]
  intro k hk
  simp only [List.mem_append] at hk
  rcases hk with hk | hk | hk
  · have := hp.seenU k hk; subst this
    cases hp.ranU with
    | notReached => simp [testsSeen] at hk
    | skipped => simp [testsSeen] at hk
    | run _ _ _ _ h _ => exact ⟨by omega, h⟩
  · have := hp.seenD k hk; subst this
    cases hp.ranD with
    | notReached => simp [testsSeen] at hk
    | skipped => simp [testsSeen] at hk
    | run _ _ _ _ h _ => exact ⟨by omega, h⟩
  · have := hp.seenM k hk; subst this
    cases hp.ranM with
    | notReached => simp [testsSeen] at hk
    | skipped => simp [testsSeen] at hk
    | run _ _ _ _ h _ => exact ⟨by omega, h⟩

theorem Parts.allRequested (hok : ∃ v, o = .ok v) : ∀ k < 3, requested n (bitOf k) = true → k ∈ testsSeen (e0 ++ (eU ++ (eD ++ (eM ++ eF)))) := by
  have hone : ∀ {d : Dir} {e : List Ev} {ok : Prop}, TestPart cfg m d e ok → ok → (if d = .c2s then 0 else 1) ∈ testsSeen e := by
    intro d e ok ht hk
    have h1 := ht.okResult hk
    have h2 : ∃ x ∈ e, countsResult cfg.label d.name x = true := by
      refine Classical.byContradiction fun hn => ?_
      rw [count_eq_zero fun x hx => ?_] at h1
      · cases h1
      · cases hc : countsResult cfg.label d.name x with
        | false => rfl
        | true => exact absurd ⟨x, hx, hc⟩ hn
    obtain ⟨x, hx, hc⟩ := h2
    refine List.mem_filterMap.2 ⟨x, hx, ?_⟩
    unfold countsResult at hc
    split at hc
    · simp at hc
      obtain ⟨-, rfl⟩ := hc
      cases d <;> rfl
    · cases hc
  rw [hp.seen]
  intro k hk hr
  simp only [List.mem_append]
  match k, hk with
  | 0, _ =>
    left
    cases hp.ranU with
    | notReached _ h => exact absurd (hp.ok0 hok) h
    | skipped _ h => rw [show bitOf 0 = 1 from rfl, h] at hr; cases hr
    | run _ _ _ _ _ h => exact hone (wp_iff.1 (upload_part cfg m _) _ _ _ h) (hp.okU hok)
  | 1, _ =>
    right; left
    cases hp.ranD with
    | notReached _ h => exact absurd (hp.okU hok) h
    | skipped _ h => rw [show bitOf 1 = 2 from rfl, h] at hr; cases hr
    | run _ _ _ _ _ h => exact hone (wp_iff.1 (download_part cfg m _) _ _ _ h) (hp.okD hok)
  | 2, _ =>
    right; right
    obtain ⟨v, hv⟩ := hp.okM hok
    cases hp.ranM with
    | notReached _ h => exact absurd (hp.okD hok) h
    | skipped _ h => rw [show bitOf 2 = 5 from rfl, h] at hr; cases hr
    | run _ _ _ _ _ h =>
      rcases wp_iff.1 (runMeta_exec cfg m _) _ _ _ h with ⟨msg, h', ho, -⟩ | ⟨r, er, h', hx⟩
      · rw [hv] at ho; cases ho
      · cases er with
        | none => exact wp_iff.1 (meta_asks cfg m _) _ _ _ h' r rfl
        | some x => rw [hv] at hx; simp [verdict] at hx

end

/-! ## Counters of requests -/

/-- The counters of requests, in order. -/
def asked (e : List Ev) : List Note := (notes e).filter requestNote

theorem asked_append (a b : List Ev) : asked (a ++ b) = asked a ++ asked b := by simp [asked, notes_append]

/-- No counter of requests. -/
def notAsked : Ev → Bool
  | .emit o => !requestNote o
  | _ => true

theorem asked_nil {e : List Ev} (h : ∀ x ∈ e, notAsked x = true) : asked e = [] := by
  unfold asked notes
  rw [List.filter_eq_nil_iff]
  intro o ho
  obtain ⟨x, hx, hn⟩ := List.mem_filterMap.1 ho
  have := h x hx
  cases x <;> simp [noteOf] at hn
  subst hn
  simpa [notAsked] using this

theorem notAsked_outer {x : Ev} (h : outer x = true) : notAsked x = true := by
  cases x with
  | emit o => cases o <;> first | rfl | (simp [outer, accounting] at h; done)
  | _ => rfl

theorem notAsked_isSend {x : Ev} (h : isSend x = true) : notAsked x = true := by
  unfold isSend at h
  split at h
  · rfl
  · cases h

theorem notAsked_inTest {cfg : Cfg} {d : Dir} {x : Ev} (h : inTest cfg d x = true) : notAsked x = true := by
  cases x with
  | emit o => cases o <;> first | rfl | (simp [inTest, ofTest] at h; done)
  | _ => rfl

theorem notAsked_inMeta {cfg : Cfg} {x : Ev} (h : inMeta cfg x = true) : notAsked x = true := by
  cases x with
  | emit o => cases o <;> first | rfl | (simp [inMeta] at h; done)
  | _ => rfl

theorem Parts.notAsked {cfg : Cfg} {n : Int} {m : Messager} {s s' sU sD : Ctl} {e0 eU eD eM eF : List Ev} {o0 oM o : Outcome Unit}
    {oU oD : Outcome F64} (hp : Parts cfg n m s e0 eU eD eM eF o0 oU oD oM o sU sD s') :
    ∀ x ∈ e0 ++ (eU ++ (eD ++ (eM ++ eF))), notAsked x = true := by
  intro x hx
  simp only [List.mem_append] at hx
  rcases hx with h | h | h | h | h
  · exact notAsked_isSend (hp.foot0 x h)
  · exact notAsked_inTest (hp.footU x h)
  · exact notAsked_inTest (hp.footD x h)
  · exact notAsked_inMeta (hp.footM x h)
  · exact notAsked_isSend (hp.footF x h)

theorem asked_requestNotes (cfg : Cfg) (n : Int) : asked (requestNotes cfg n) = requestCounts cfg.label n := by
  unfold requestNotes requestCounts requestedNames suites
  simp only [hasBit_mid, hasBit_c2s, hasBit_s2c, hasBit_sfw, hasBit_meta, List.filterMap_cons, List.filterMap_nil]
  cases requested n 0 <;> cases requested n 1 <;> cases requested n 2 <;> cases requested n 3 <;> cases requested n 5 <;> rfl

/-! ## Tests of a control connection -/

/-- Which tests run on a control connection, and how the request is counted. -/
inductive Tests (cfg : Cfg) (evs : List Ev) : Prop
  | none : (¬ ∃ m n, Served cfg.kind evs m n) → testsSeen evs = [] → asked evs = [] → Tests cfg evs
  | served (m : Messager) (n : Int) : Served cfg.kind evs m n → (testsSeen evs).Pairwise (· ≤ ·) →
      (∀ k ∈ testsSeen evs, k < 3 ∧ requested n (bitOf k) = true) →
      (countedOkay cfg.label evs → ∀ k < 3, requested n (bitOf k) = true → k ∈ testsSeen evs) →
      asked evs = requestCounts cfg.label n → Tests cfg evs

theorem Whole.tests {cfg : Cfg} {evs : List Ev} (h : Whole cfg evs) : Tests cfg evs := by
  have htalk := h.talk
  cases h with
  | early mid t0 t1 o h1 h2 h3 h4 h5 _ =>
    have hout : ∀ x ∈ ([.emit (.activeTests cfg.label 1), .clock t0] : List Ev) ++ (mid ++ (endNotes cfg o ++
        [.clock t1, .emit (.duration cfg.label (t1 - t0)), .emit (.activeTests cfg.label (-1))])), outer x = true := by
      intro x hx
      simp only [List.mem_append] at hx
      rcases hx with hx | hx | hx | hx
      · simp at hx; rcases hx with rfl | rfl <;> rfl
      · exact (h1 x hx).1
      · exact outer_end x hx
      · simp at hx; rcases hx with rfl | rfl | rfl <;> rfl
    refine .none ?_ (testsSeen_nil fun x hx => testOf_outer (hout x hx)) (asked_nil fun x hx => notAsked_outer (hout x hx))
    rintro ⟨m, n, f, hf, -⟩
    rw [firstRead, outer_recv hout] at hf; cases hf
  | run t0 t t1 a u eS eF oS oF r s h1 h2 =>
    have hok := okay_iff (accounts_run (t0 := t0) (t := t) (t1 := t1) (a := a) (u := u) (r := r) (o := after (after oS oF) r) h1 h2)
    have hpre := outer_pre (cfg := cfg) (t0 := t0) (t := t) (a := a) (u := u)
    have hpost := outer_post (r := r) (o := after (after oS oF) r) (t0 := t0) (t1 := t1) h2
    have hfr := firstRead_run (t0 := t0) (t := t) (t1 := t1) (a := a) (u := u) (eS := eS) (r := r) (o := after (after oS oF) r) h2
    rw [after_ok, after_ok] at hok
    have hseen : testsSeen (preEvents cfg t0 a t u ++ (eS ++ postEvents cfg eF r (after (after oS oF) r) t0 t1)) = testsSeen eS := by
      rw [testsSeen_append, testsSeen_append, testsSeen_nil fun x hx => testOf_outer (hpre x hx),
        testsSeen_nil fun x hx => testOf_outer (hpost x hx), List.append_nil, List.nil_append]
    have hasked : asked (preEvents cfg t0 a t u ++ (eS ++ postEvents cfg eF r (after (after oS oF) r) t0 t1)) = asked eS := by
      rw [asked_append, asked_append, asked_nil fun x hx => notAsked_outer (hpre x hx),
        asked_nil fun x hx => notAsked_outer (hpost x hx), List.append_nil, List.nil_append]
    cases h1 with
    | crashed msg =>
      refine .none ?_ hseen hasked
      rintro ⟨m, n, f, hf, -⟩
      rw [hfr] at hf; cases hf
    | nilLogin r' enc hnl _ _ =>
      refine .none ?_ hseen hasked
      rintro ⟨m, n, f, hf, hl, -⟩
      rw [hfr] at hf
      injection hf with hf
      exact hnl f m n hf hl
    | refused r' x enc hnl =>
      refine .none ?_ hseen hasked
      rintro ⟨m, n, f, hf, hl, -⟩
      rw [hfr] at hf
      injection hf with hf
      exact hnl f m n hf hl
    | noStatus frame m n hl hn =>
      refine .none ?_ hseen hasked
      rintro ⟨m', n', f, hf, hl', hs⟩
      rw [hfr] at hf
      injection hf with hf
      injection hf with hf
      subst hf
      rw [← (loggedIn_unique hl hl').2, hn] at hs
      cases hs
    | run frame m n e _ _ hl hst hex =>
      obtain ⟨e0, eU, eD, eM, eL, o0, oU, oD, oM, sU, sD, rfl, hp⟩ := suite_parts hex
      have hs1 : testsSeen (.call .recv (.ok (.ok frame)) :: (requestNotes cfg n ++ (e0 ++ (eU ++ (eD ++ (eM ++ eL)))))) =
          testsSeen (e0 ++ (eU ++ (eD ++ (eM ++ eL)))) := by
        rw [← List.singleton_append, testsSeen_append, testsSeen_append, testsSeen_nil testOf_requestNotes]
        rfl
      refine .served m n ⟨frame, by rw [hfr]; rfl, hl, hst⟩ ?_ ?_ ?_ ?_
      · rw [hseen, hs1]; exact hp.order
      · rw [hseen, hs1]; exact hp.onlyRequested
      · rw [hseen, hs1]; intro h; exact hp.allRequested (hok.1 h).1.1
      · rw [hasked, ← List.singleton_append, asked_append, asked_append, asked_requestNotes, asked_nil hp.notAsked, List.append_nil]
        rfl

/-! ## The same session with other counters -/

theorem runSuite_congr {cfg : Cfg} {n n' : Int} {m : Messager} (h1 : requested n 1 = requested n' 1) (h2 : requested n 2 = requested n' 2)
    (h5 : requested n 5 = requested n' 5) : runSuite cfg n m = runSuite cfg n' m := by
  unfold runSuite greet testsToRun
  simp only [hasBit_c2s, hasBit_s2c, hasBit_meta, h1, h2, h5]

theorem login_exec {cfg : Cfg} {frame : Bytes} {m : Messager} {n : Int} (hl : LoggedIn cfg.kind frame m n) (s : Ctl) :
    Exec (login cfg) s [.call .recv (.ok (.ok frame))] (.ok (.ok n)) { s with encoding := m.encoding } := by
  cases hk : cfg.kind with
  | plain =>
    rw [hk] at hl
    have hn : (plainLogin (.ok frame)).2 = .ok n := by
      rcases hl with ⟨-, h, -⟩ | ⟨h, -⟩
      · exact (Props.C09_plain_login_iff frame n).2 (.inl h)
      · exact (Props.C09_plain_login_iff frame n).2 (.inr h)
    obtain ⟨f, m', hf, hl', he⟩ := plainLogin_ok hn
    injection hf with hf
    subst hf
    rw [← (loggedIn_unique hl hl').1] at he
    unfold login
    rw [hk]
    refine .call _ _ _ _ _ ?_
    have : (Outcome.ok (Except.ok n), ({ s with encoding := m.encoding } : Ctl)) =
        (Outcome.ok (plainLogin (.ok frame)).2, { s with encoding := (plainLogin (.ok frame)).1 }) := by rw [hn, he]
    rw [this]
    exact .ret _
  | ws =>
    have : wsLogin (.ok frame) = .ok (.ok n) ∧ m = .json := by
      rcases hl with ⟨h, -⟩ | ⟨h, h'⟩
      · rw [hk] at h; cases h
      · exact ⟨(Props.C10_ws_login_iff frame n).2 h, h'⟩
    obtain ⟨hw, rfl⟩ := this
    unfold login
    rw [hk]
    refine .call _ _ _ _ _ ?_
    simp only [bind, M.bind, pure, M.pure, M.modify, Prog.bind, hw]
    exact .ret _
  | wss =>
    have : wsLogin (.ok frame) = .ok (.ok n) ∧ m = .json := by
      rcases hl with ⟨h, -⟩ | ⟨h, h'⟩
      · rw [hk] at h; cases h
      · exact ⟨(Props.C10_ws_login_iff frame n).2 h, h'⟩
    obtain ⟨hw, rfl⟩ := this
    unfold login
    rw [hk]
    refine .call _ _ _ _ _ ?_
    simp only [bind, M.bind, pure, M.pure, M.modify, Prog.bind, hw]
    exact .ret _

theorem countRequests_exec (cfg : Cfg) (n : Int) (s : Ctl) : Exec (countRequests cfg n) s (requestNotes cfg n) (.ok ()) s := by
  unfold countRequests countRequested requestNotes
  simp only [hasBit_mid, hasBit_c2s, hasBit_s2c, hasBit_sfw, hasBit_meta]
  cases requested n 0 <;> cases requested n 1 <;> cases requested n 2 <;> cases requested n 3 <;> cases requested n 5 <;> follow

theorem session_run {cfg : Cfg} {frame : Bytes} {m : Messager} {n : Int} (hl : LoggedIn cfg.kind frame m n) (hst : requested n 4 = true)
    {s s' : Ctl} {e : List Ev} {o : Outcome Unit} (h : Exec (runSuite cfg n m) { s with encoding := m.encoding } e o s') :
    Exec (session cfg) s (.call .recv (.ok (.ok frame)) :: (requestNotes cfg n ++ e)) o s' := by
  refine Exec.bind (login_exec hl s) ?_
  simp only [hasBit_status, hst, if_true]
  refine Exec.bind (countRequests_exec cfg n _) ?_
  refine Exec.bind (e := []) (.ret _) ?_
  rw [messager_encoding]
  exact h

theorem session_noStatus {cfg : Cfg} {frame : Bytes} {m : Messager} {n : Int} (hl : LoggedIn cfg.kind frame m n) (hst : requested n 4 = false)
    {s : Ctl} : Exec (session cfg) s [.call .recv (.ok (.ok frame)), .emit (.testError cfg.label (str "control") (str "TestStatus"))]
        (.ok ()) { s with encoding := m.encoding } := by
  refine Exec.bind (login_exec hl s) ?_
  simp only [hasBit_status, hst]
  follow

theorem channel_run {cfg : Cfg} {a : Addrs} {t : Int} {u : Bytes} {eS eF : List Ev} {oS oF r : Outcome Unit} {s s' : Ctl}
    (h1 : Exec (session cfg) { record := firstRecord cfg a t u } eS oS s) (h2 : Exec (finishRecord cfg) s eF oF s') :
    Exec (handleControlChannel cfg) {} ([.call (.addrs .control) (.ok a), .clock t, .call (.uuid .control) (.ok u)] ++
      (eS ++ (eF ++ [.call (.close .control) r]))) (after (after oS oF) r) s' := by
  have he : ([.call (.addrs .control) (.ok a), .clock t, .call (.uuid .control) (.ok u)] : List Ev) ++ (eS ++ (eF ++ [.call (.close .control) r])) =
      (.call (.addrs .control) (.ok a) :: .clock t :: .call (.uuid .control) (.ok u) :: (eS ++ eF)) ++ [.call (.close .control) r] := by simp
  rw [he]
  unfold handleControlChannel
  refine Exec.defer (s1 := s') (o := after oS oF) ?_ (Prog.Runs.call (S := sig) (.close .control) _ r _ _ (.ret _))
  refine Prog.Runs.call (S := sig) (.addrs .control) _ (.ok a) _ _ (.clock _ t _ _ (Prog.Runs.call (S := sig) (.uuid .control) _ (.ok u) _ _ ?_))
  exact Exec.defer h1 h2

theorem control_run {cfg : Cfg} {e : List Ev} {o : Outcome Unit} {s : Ctl} (h : Exec (handleControlChannel cfg) {} e o s) (t0 t1 : Int) :
    Exec (HandleControlChannel cfg) () ([.emit (.activeTests cfg.label 1), .clock t0] ++ (e ++ (endNotes cfg o ++
        [.clock t1, .emit (.duration cfg.label (t1 - t0)), .emit (.activeTests cfg.label (-1))]))) (.ok ()) () := by
  have h1 : Exec (M.recovering (countControl cfg) (M.withState {} (handleControlChannel cfg))) () (e ++ endNotes cfg o) (.ok ()) () := by
    refine Exec.recovering (Exec.withState h) ?_
    cases o with
    | ok a => follow
    | panic msg => follow
  have h2 := Exec.defer h1 (c := do
        let t ← M.now
        note (.duration cfg.label (t - t0))) (e' := [.clock t1, .emit (.duration cfg.label (t1 - t0))]) (o' := .ok ()) (s' := ()) (by follow)
  have he : ([.emit (.activeTests cfg.label 1), .clock t0] : List Ev) ++ (e ++ (endNotes cfg o ++
        [.clock t1, .emit (.duration cfg.label (t1 - t0)), .emit (.activeTests cfg.label (-1))])) =
      .emit (.activeTests cfg.label 1) :: ((.clock t0 :: ((e ++ endNotes cfg o) ++ [.clock t1, .emit (.duration cfg.label (t1 - t0))])) ++
        [.emit (.activeTests cfg.label (-1))]) := by simp
  rw [he]
  unfold HandleControlChannel
  refine Prog.Runs.emit (S := sig) _ _ _ _ ?_
  refine Exec.defer (o := .ok ()) (o' := .ok ()) (s1 := ()) ?_ (by follow)
  exact Prog.Runs.clock (S := sig) _ t0 _ _ h2

/-- A login that differs only in bits the server does not act upon gives the same session with other counters. -/
theorem other_login {cfg : Cfg} {evs : List Ev} (h : Exec (HandleControlChannel cfg) () evs (.ok ()) ()) {frame frame' : Bytes} {m : Messager}
    {n n' : Int} (hf : firstRead evs = some (.ok frame)) (hl : LoggedIn cfg.kind frame m n) (hl' : LoggedIn cfg.kind frame' m n')
    (hb : ∀ k ∈ [1, 2, 4, 5], requested n k = requested n' k) :
    ∃ A C C' B, evs = A ++ (.call .recv (.ok (.ok frame)) :: (C ++ B)) ∧
      Exec (HandleControlChannel cfg) () (A ++ (.call .recv (.ok (.ok frame')) :: (C' ++ B))) (.ok ()) () ∧
      (∀ x ∈ C ++ C', ∃ o, x = .emit o ∧ requestNote o = true) ∧ asked A = [] ∧ asked B = [] := by
  obtain ⟨-, t0, t1, e, o, hc, rfl⟩ := control_parts h
  have hreq : ∀ n, ∀ x ∈ requestNotes cfg n, ∃ o, x = .emit o ∧ requestNote o = true := by
    intro n x hx
    unfold requestNotes at hx
    simp only [List.mem_append] at hx
    rcases hx with h | h | h | h | h | h <;> (try split at h) <;> simp at h <;> subst h <;> exact ⟨_, rfl, rfl⟩
  have hend : ∀ o : Outcome Unit, asked (endNotes cfg o ++ [.clock t1, .emit (.duration cfg.label (t1 - t0)), .emit (.activeTests cfg.label (-1))]) = [] := by
    intro o; cases o <;> rfl
  cases hc with
  | addrs msg r => cases r <;> cases hf
  | uuid a t msg r => cases r <;> cases hf
  | run a t u eS eF oS oF r s s' hS hF =>
    have hfin := wp_iff.1 (finish_spec cfg _) _ _ _ hF
    have hfinA : asked eF = [] := asked_nil fun x hx => notAsked_outer (hfin.outer x hx).1
    have hsess := wp_iff.1 (session_parts cfg _) _ _ _ hS
    have hfr := firstRead_run (cfg := cfg) (t0 := t0) (t := t) (t1 := t1) (a := a) (u := u) (eS := eS) (r := r) (o := after (after oS oF) r) hfin
    have heq : ∀ e, ([.emit (.activeTests cfg.label 1), .clock t0] : List Ev) ++ (([.call (.addrs .control) (.ok a), .clock t, .call (.uuid .control) (.ok u)] ++
        (e ++ (eF ++ [.call (.close .control) r]))) ++ (endNotes cfg (after (after oS oF) r) ++
        [.clock t1, .emit (.duration cfg.label (t1 - t0)), .emit (.activeTests cfg.label (-1))])) =
        preEvents cfg t0 a t u ++ (e ++ postEvents cfg eF r (after (after oS oF) r) t0 t1) := by
      intro e; simp [preEvents, postEvents]
    rw [heq, hfr] at hf
    have hpre : asked (preEvents cfg t0 a t u) = [] := rfl
    have hpost : asked (postEvents cfg eF r (after (after oS oF) r) t0 t1) = [] :=
      asked_nil fun x hx => notAsked_outer (outer_post hfin x hx)
    have hmk : ∀ e', Exec (session cfg) { record := firstRecord cfg a t u } e' oS s →
        Exec (HandleControlChannel cfg) () (preEvents cfg t0 a t u ++ (e' ++ postEvents cfg eF r (after (after oS oF) r) t0 t1)) (.ok ()) () := by
      intro e' he'
      rw [← heq]
      exact control_run (channel_run he' hF) t0 t1
    rw [heq]
    cases hsess with
    | crashed msg => cases hf
    | nilLogin r' enc hnl _ _ => injection hf with hf; exact absurd hl (hnl _ _ _ hf)
    | refused r' x enc hnl => injection hf with hf; exact absurd hl (hnl _ _ _ hf)
    | noStatus f m1 n1 hl1 hn =>
      injection hf with hf
      injection hf with hf
      subst hf
      obtain ⟨rfl, rfl⟩ := loggedIn_unique hl hl1
      rw [hb 4 (by simp)] at hn
      refine ⟨preEvents cfg t0 a t u, [], [], .emit (.testError cfg.label (str "control") (str "TestStatus")) ::
        postEvents cfg eF r (after (after (.ok ()) oF) r) t0 t1, by simp, ?_, by simp, hpre, ?_⟩
      · have := hmk _ (session_noStatus hl' hn)
        simpa using this
      · rw [← List.singleton_append, asked_append, hpost]; rfl
    | run f m1 n1 e _ _ hl1 hst hex =>
      injection hf with hf
      injection hf with hf
      subst hf
      obtain ⟨rfl, rfl⟩ := loggedIn_unique hl hl1
      obtain ⟨e0, eU, eD, eM, eL, o0, oU, oD, oM, sU, sD, he, hp⟩ := suite_parts hex
      have hst' := hst
      rw [hb 4 (by simp)] at hst'
      refine ⟨preEvents cfg t0 a t u, requestNotes cfg n, requestNotes cfg n', e ++
        postEvents cfg eF r (after (after oS oF) r) t0 t1, by simp, ?_, ?_, hpre, ?_⟩
      · rw [runSuite_congr (hb 1 (by simp)) (hb 2 (by simp)) (hb 5 (by simp))] at hex
        have := hmk _ (session_run hl' hst' hex)
        simpa using this
      · intro x hx
        rcases List.mem_append.1 hx with hx | hx
        · exact hreq _ x hx
        · exact hreq _ x hx
      · rw [asked_append, hpost, he, asked_nil hp.notAsked]; rfl

end Verif.Ndt5
