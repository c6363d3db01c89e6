import Verif.Ndt5.WholeLemmas

/-! # The messages of whole control connections -/

namespace Verif.Ndt5
open Verif.Go Verif.Spec

set_option maxRecDepth 20000

/-- A login frame has one meaning. -/
theorem loggedIn_unique {k : Kind} {frame : Bytes} {m m' : Messager} {n n' : Int} (h : LoggedIn k frame m n) (h' : LoggedIn k frame m' n') :
    m = m' ∧ n = n' := by
  rcases h with ⟨-, ⟨b, ⟨hi, lo, hf, -⟩, hn⟩, rfl⟩ | ⟨he, rfl⟩ <;> rcases h' with ⟨-, ⟨b', ⟨hi', lo', hf', -⟩, hn'⟩, rfl⟩ | ⟨he', rfl⟩
  · rw [hf] at hf'
    simp only [List.cons.injEq, and_true, true_and] at hf'
    exact ⟨rfl, by rw [hn, hn', hf'.2.2]⟩
  · obtain ⟨doc, kvs, tests, ⟨hi', lo', hf', -⟩, -⟩ := he'
    rw [hf] at hf'; simp at hf'
  · obtain ⟨doc, kvs, tests, ⟨hi, lo, hf, -⟩, -⟩ := he
    rw [hf] at hf'; simp at hf'
  · have h1 := (Props.C10_ws_login_iff frame n).2 he
    have h2 := (Props.C10_ws_login_iff frame n').2 he'
    rw [h1] at h2
    simp at h2
    exact ⟨rfl, h2⟩

theorem firstRead_run {cfg : Cfg} {t0 t t1 : Int} {a : Addrs} {u : Bytes} {eS eF : List Ev} {oF r o : Outcome Unit} {s : Ctl}
    (h2 : Finish cfg s eF oF) : firstRead (preEvents cfg t0 a t u ++ (eS ++ postEvents cfg eF r o t0 t1)) = firstRead eS := by
  unfold firstRead
  rw [List.findSome?_append, List.findSome?_append, outer_recv outer_pre, outer_recv (outer_post h2)]
  cases List.findSome? recvAnswer eS <;> rfl

theorem after_ok {α β : Type} {o : Outcome α} {r : Outcome β} : (∃ v, after o r = .ok v) ↔ (∃ v, o = .ok v) ∧ ∃ w, r = .ok w := by
  cases r <;> simp [after]

/-- What can be said about the messages of a control connection. -/
inductive Talk (cfg : Cfg) (evs : List Ev) : Prop
  /-- no login, hence nothing is sent -/
  | none : (¬ ∃ frame m n, firstRead evs = some (.ok frame) ∧ LoggedIn cfg.kind frame m n) → attempts evs = [] →
      (∀ d, Silent d evs) → ¬ countedOkay cfg.label evs → Talk cfg evs
  /-- a login without the status bit -/
  | noStatus (frame : Bytes) (m : Messager) (n : Int) : firstRead evs = some (.ok frame) → LoggedIn cfg.kind frame m n →
      requested n 4 = false → attempts evs = [] → (∀ d, Silent d evs) → (NoCrash evs → countedOkay cfg.label evs) → Talk cfg evs
  /-- the session is served -/
  | served (frame : Bytes) (m : Messager) (n : Int) : firstRead evs = some (.ok frame) → LoggedIn cfg.kind frame m n →
      requested n 4 = true → OnScript (sessionScript cfg.lib m n evs) evs (countedOkay cfg.label evs) →
      DirRun cfg m .c2s (requested n 1) (countedOkay cfg.label evs) evs → DirRun cfg m .s2c (requested n 2) (countedOkay cfg.label evs) evs →
      Talk cfg evs

theorem Whole.talk {cfg : Cfg} {evs : List Ev} (h : Whole cfg evs) : Talk cfg evs := by
  cases h with
  | early mid t0 t1 o h1 h2 h3 h4 h5 _ =>
    have hout : ∀ x ∈ ([.emit (.activeTests cfg.label 1), .clock t0] : List Ev) ++ (mid ++ (endNotes cfg o ++
        [.clock t1, .emit (.duration cfg.label (t1 - t0)), .emit (.activeTests cfg.label (-1))])), outer x = true := by
      intro x hx
      simp only [List.mem_append] at hx
      rcases hx with hx | hx | hx | hx
      · simp at hx; rcases hx with rfl | rfl <;> rfl
      · exact (h1 x hx).1
      · exact outer_end x hx
      · simp at hx; rcases hx with rfl | rfl | rfl <;> rfl
    refine .none ?_ (outer_attempts hout) (fun d => outer_silent hout) ?_
    · rintro ⟨f, m, n, hf, -⟩
      rw [firstRead, outer_recv hout] at hf; cases hf
    · rw [okay_iff (accounts_early h1)]; exact h5
  | run t0 t t1 a u eS eF oS oF r s h1 h2 =>
    have hok := okay_iff (accounts_run (t0 := t0) (t := t) (t1 := t1) (a := a) (u := u) (r := r) (o := after (after oS oF) r) h1 h2)
    have hpre := outer_pre (cfg := cfg) (t0 := t0) (t := t) (a := a) (u := u)
    have hpost := outer_post (r := r) (o := after (after oS oF) r) (t0 := t0) (t1 := t1) h2
    have hfr := firstRead_run (t0 := t0) (t := t) (t1 := t1) (a := a) (u := u) (eS := eS) (r := r) (o := after (after oS oF) r) h2
    rw [after_ok, after_ok] at hok
    have hsil : ∀ {e : List Ev}, (∀ d, Silent d e) → ∀ d, Silent d (preEvents cfg t0 a t u ++ (e ++ postEvents cfg eF r (after (after oS oF) r) t0 t1)) :=
      fun he d => silent_append.2 ⟨outer_silent hpre, silent_append.2 ⟨he d, outer_silent hpost⟩⟩
    have hatt : ∀ {e : List Ev}, attempts (preEvents cfg t0 a t u ++ (e ++ postEvents cfg eF r (after (after oS oF) r) t0 t1)) = attempts e := by
      intro e
      rw [attempts_append, attempts_append, outer_attempts hpre, outer_attempts hpost, List.append_nil, List.nil_append]
    have hclean : NoCrash (preEvents cfg t0 a t u ++ (eS ++ postEvents cfg eF r (after (after oS oF) r) t0 t1)) →
        (∃ v, oS = .ok v) → (((∃ v, oS = .ok v) ∧ ∃ v, oF = .ok v) ∧ ∃ v, r = .ok v) := by
      intro hn hv
      have hn' := (noCrash_append.1 (noCrash_append.1 hn).2).2
      unfold postEvents at hn'
      have hF := (noCrash_append.1 hn').1
      have hR := ((noCrash_cons _ _).1 (noCrash_append.1 hn').2).1
      refine ⟨⟨hv, h2.clean hF⟩, ?_⟩
      cases r with
      | ok v => exact ⟨v, rfl⟩
      | panic msg => simp [crashed] at hR
    cases h1 with
    | crashed msg =>
      refine .none ?_ hatt (hsil fun d => ?_) ?_
      · rintro ⟨f, m, n, hf, -⟩
        rw [hfr] at hf; cases hf
      · simp [silent_cons, silent_nil, ofTest, countsResult]
      · rw [hok]; simp
    | nilLogin r' enc hnl _ _ =>
      refine .none ?_ hatt (hsil fun d => ?_) ?_
      · rintro ⟨f, m, n, hf, hl⟩
        rw [hfr] at hf
        injection hf with hf
        exact hnl f m n hf hl
      · simp [silent_cons, silent_nil, ofTest, countsResult]
      · rw [hok]; simp
    | refused r' x enc hnl =>
      refine .none ?_ hatt (hsil fun d => ?_) ?_
      · rintro ⟨f, m, n, hf, hl⟩
        rw [hfr] at hf
        injection hf with hf
        exact hnl f m n hf hl
      · have : ¬ str "control" = d.name := by cases d <;> decide
        simp [silent_cons, silent_nil, ofTest, countsResult, test_eq, this]
      · rw [hok]; simp
    | noStatus frame m n hl hn =>
      refine .noStatus frame m n ?_ hl hn hatt (hsil fun d => ?_) ?_
      · rw [hfr]; rfl
      · have : ¬ str "control" = d.name := by cases d <;> decide
        simp [silent_cons, silent_nil, ofTest, countsResult, test_eq, this]
      · intro hnc; rw [hok]; exact hclean hnc ⟨_, rfl⟩
    | run frame m n e _ _ hl hst hex =>
      obtain ⟨e0, eU, eD, eM, eL, o0, oU, oD, oM, sU, sD, rfl, hp⟩ := suite_parts hex
      have hpreS : ∀ d, Silent d (preEvents cfg t0 a t u ++ (.call .recv (.ok (.ok frame)) :: requestNotes cfg n)) := fun d =>
        silent_append.2 ⟨outer_silent hpre, silent_cons.2 ⟨⟨rfl, fun _ => rfl⟩, requestNotes_silent⟩⟩
      have hpostS : ∀ d, Silent d (postEvents cfg eF r (after (after oS oF) r) t0 t1) := fun d => outer_silent hpost
      have hall : preEvents cfg t0 a t u ++ ((.call .recv (.ok (.ok frame)) :: (requestNotes cfg n ++ (e0 ++ (eU ++ (eD ++ (eM ++ eL)))))) ++
          postEvents cfg eF r (after (after oS oF) r) t0 t1) = (preEvents cfg t0 a t u ++ (.call .recv (.ok (.ok frame)) :: requestNotes cfg n)) ++
          ((e0 ++ (eU ++ (eD ++ (eM ++ eL)))) ++ postEvents cfg eF r (after (after oS oF) r) t0 t1) := by simp
      have hs := hp.script (pre := preEvents cfg t0 a t u ++ (.call .recv (.ok (.ok frame)) :: requestNotes cfg n))
        (post := postEvents cfg eF r (after (after oS oF) r) t0 t1) (fun d x hx => (hpreS d x hx).1) (fun d x hx => (hpostS d x hx).1)
      have hq := hs.quiet (outer_attempts hpost) (outer_sent hpost)
      have ha : attempts (preEvents cfg t0 a t u ++ (.call .recv (.ok (.ok frame)) :: requestNotes cfg n)) = [] := by
        rw [attempts_append, outer_attempts hpre, attempts_cons, requestNotes_attempts.1]; rfl
      have hb : sent (preEvents cfg t0 a t u ++ (.call .recv (.ok (.ok frame)) :: requestNotes cfg n)) = [] := by
        rw [sent_append, outer_sent hpre, sent_cons, requestNotes_attempts.2.1]; rfl
      have hw := hq.after ha hb
      rw [← hall] at hw hs
      refine .served frame m n ?_ hl hst ?_ ?_ ?_
      · rw [hfr]; rfl
      · refine ⟨hw.isPrefix, hw.failStop, fun h => hw.complete (hok.1 h).1.1, fun hn hc => hok.2 (hclean hn (hw.converse hn hc))⟩
      · rw [hall]
        exact hp.runU.widen (hpreS _) (hpostS _) (outer_attempts hpost) fun h => (hok.1 (by rw [← hall] at h; exact h)).1.1
      · rw [hall]
        exact hp.runD.widen (hpreS _) (hpostS _) (outer_attempts hpost) fun h => (hok.1 (by rw [← hall] at h; exact h)).1.1

end Verif.Ndt5
