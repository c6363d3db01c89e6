import Verif.Ndt5.FootLemmas
import Verif.Spec.SessionScript

/-! # The parts of a session -/

namespace Verif.Ndt5
open Verif.Go Verif.Spec

set_option maxRecDepth 20000
set_option linter.unusedSimpArgs false

/-- What follows a part of a program: nothing if the part panicked. -/
def Next {σ α β : Type} (o : Outcome α) (f : α → P σ β) (s : σ) (e : List Ev) (o' : Outcome β) (s' : σ) : Prop :=
  match o with
  | .ok a => Exec (f a) s e o' s'
  | .panic msg => e = [] ∧ o' = .panic msg ∧ s' = s

theorem exec_bind {σ α β : Type} {x : P σ α} {f : α → P σ β} {s s' : σ} {e : List Ev} {o : Outcome β} (h : Exec (x >>= f) s e o s') :
    ∃ e1 o1 s1 e2, e = e1 ++ e2 ∧ Exec x s e1 o1 s1 ∧ Next o1 f s1 e2 o s' := by
  refine (wp_iff (P := fun e o s' => ∃ e1 o1 s1 e2, e = e1 ++ e2 ∧ Exec x s e1 o1 s1 ∧ Next o1 f s1 e2 o s')).1 ?_ _ _ _ h
  rw [wp_bind, wp_iff]
  intro e1 o1 s1 h1
  cases o1 with
  | ok a =>
    simp only
    rw [wp_iff]
    intro e2 o2 s2 h2
    exact ⟨e1, _, s1, e2, rfl, h1, h2⟩
  | panic msg => exact ⟨e1, _, s1, [], (List.append_nil _).symm, h1, rfl, rfl, rfl⟩

/-- The update of the record by the upload test. -/
def Ctl.setC2S (s : Ctl) (r : C2SRecord) : Ctl := { s with record := { s.record with c2s := some r } }
/-- The update of the record by the download test. -/
def Ctl.setS2C (s : Ctl) (r : S2CRecord) : Ctl := { s with record := { s.record with s2c := some r } }
/-- The update of the record by the meta test. -/
def Ctl.setMeta (s : Ctl) (r : List NameValue) : Ctl := { s with record := { s.record with clientMetadata := r } }

/-- The events that count the result of a test. -/
def resultNotes (cfg : Cfg) (d : Dir) (er : Option Err) (mean : F64) : List Ev :=
  (if mean.isZero then [] else [.emit (.testRate cfg.label d.name cfg.isMon mean)]) ++
    [.emit (.testResult cfg.label d.name (resultLabel er mean))]

/-- The outcome of a test within the session. -/
def verdict {α : Type} (text : Bytes) (s : Ctl) (v : α) : Option Err → Outcome α
  | none => .ok v
  | some x => .panic (panicText text s.record.uuid x)

theorem eq_zero {x : F64} (h : x.isZero = true) : F64.fin 0 = x := by
  cases x <;> simp_all [F64.isZero]

theorem wp_uploadManage (cfg : Cfg) (m : Messager) (s : Ctl) (P : List Ev → Outcome (C2SRecord × Option Err) → Ctl → Prop) :
    wp (uploadManage cfg m) s P ↔ ∀ e o s', Exec (uploadManage cfg m) s e o s' → P e o s' := wp_iff

theorem wp_downloadManage (cfg : Cfg) (m : Messager) (s : Ctl) (P : List Ev → Outcome (S2CRecord × Option Err) → Ctl → Prop) :
    wp (downloadManage cfg m) s P ↔ ∀ e o s', Exec (downloadManage cfg m) s e o s' → P e o s' := wp_iff

theorem wp_metaManage (cfg : Cfg) (m : Messager) (s : Ctl) (P : List Ev → Outcome (List NameValue × Option Err) → Ctl → Prop) :
    wp (metaManage cfg m) s P ↔ ∀ e o s', Exec (metaManage cfg m) s e o s' → P e o s' := wp_iff

theorem runUpload_exec (cfg : Cfg) (m : Messager) (s : Ctl) : wp (runUpload cfg m) s (fun e o s' =>
    (∃ msg, Exec (uploadManage cfg m) s e (.panic msg) s ∧ o = .panic msg ∧ s' = s) ∨
    ∃ e1 r er, Exec (uploadManage cfg m) s e1 (.ok (r, er)) s ∧ e = e1 ++ resultNotes cfg .c2s er r.mean ∧ s' = s.setC2S r ∧
      o = verdict (str "C2S - Could not run c2s test") s r.mean er) := by
  refine wp_opaque fun Q hQ => ?_
  wp_paths [runUpload, wp_uploadManage, panicOnError]
  all_goals refine hQ _ _ _ ?_
  all_goals clear hQ
  all_goals
    have hs := (wp_iff.1 (upload_onScript cfg m s) _ _ _ ‹Exec _ _ _ _ _›).1
    subst hs
  all_goals first
    | exact .inl ⟨_, ‹Exec _ _ _ _ _›, rfl, rfl⟩
    | (refine .inr ⟨_, _, _, ‹Exec _ _ _ _ _›, ?_⟩
       simp_all [resultNotes, verdict, Ctl.setC2S, Dir.name])
  all_goals exact eq_zero ‹_›

theorem runDownload_exec (cfg : Cfg) (m : Messager) (s : Ctl) : wp (runDownload cfg m) s (fun e o s' =>
    (∃ msg, Exec (downloadManage cfg m) s e (.panic msg) s ∧ o = .panic msg ∧ s' = s) ∨
    ∃ e1 r er, Exec (downloadManage cfg m) s e1 (.ok (r, er)) s ∧ e = e1 ++ resultNotes cfg .s2c er r.mean ∧ s' = s.setS2C r ∧
      o = verdict (str "S2C - Could not run s2c test") s r.mean er) := by
  refine wp_opaque fun Q hQ => ?_
  wp_paths [runDownload, wp_downloadManage, panicOnError]
  all_goals refine hQ _ _ _ ?_
  all_goals clear hQ
  all_goals
    have hs := (wp_iff.1 (download_onScript cfg m s) _ _ _ ‹Exec _ _ _ _ _›).1
    subst hs
  all_goals first
    | exact .inl ⟨_, ‹Exec _ _ _ _ _›, rfl, rfl⟩
    | (refine .inr ⟨_, _, _, ‹Exec _ _ _ _ _›, ?_⟩
       simp_all [resultNotes, verdict, Ctl.setS2C, Dir.name])
  all_goals exact eq_zero ‹_›

theorem runMeta_exec (cfg : Cfg) (m : Messager) (s : Ctl) : wp (runMeta cfg m) s (fun e o s' =>
    (∃ msg, Exec (metaManage cfg m) s e (.panic msg) s ∧ o = .panic msg ∧ s' = s) ∨
    ∃ r er, Exec (metaManage cfg m) s e (.ok (r, er)) s ∧ s' = s.setMeta r ∧
      o = verdict (str "META - Could not run meta test") s () er) := by
  refine wp_opaque fun Q hQ => ?_
  wp_paths [runMeta, wp_metaManage, panicOnError]
  all_goals refine hQ _ _ _ ?_
  all_goals clear hQ
  all_goals
    have hs := (wp_iff.1 (meta_onScript m cfg s) _ _ _ ‹Exec _ _ _ _ _›).1
    subst hs
  all_goals first
    | exact .inl ⟨_, ‹Exec _ _ _ _ _›, rfl, rfl⟩
    | (refine .inr ⟨_, _, ‹Exec _ _ _ _ _›, ?_⟩
       simp_all [verdict, Ctl.setMeta])

/-- What is known about the events of a throughput test within a session that ended well or not. -/
structure TestPart (cfg : Cfg) (m : Messager) (d : Dir) (e : List Ev) (ok : Prop) : Prop where
  foot : ∀ x ∈ e, inTest cfg d x = true
  errors : ∀ l, count (countsError l d.name) e = count (countsErrorResult l d.name) e
  results : count (countsResult cfg.label d.name) e ≤ 1
  okResult : ok → count (countsResult cfg.label d.name) e = 1
  okErrors : ok → count (countsError cfg.label d.name) e = 0
  opens : count (opensListener d) e ≤ 1
  okListener : ok → count (opensListener d) e = count (closesListener d) e
  listener : count (opensListener d) e = count (closesListener d) e ∨
    count (opensListener d) e = count (closesListener d) e + 1 ∧
      ∃ port, attempts e = [m.frame MsgType.testPrepare (itoa port)] ∧ (sent e = [] ∨ ¬ NoCrash e)
  leaks : sent e = [] → attempts e ≠ [] → count (opensListener d) e = count (closesListener d) e + 1
  hands : count (handsConn d) e ≤ 1
  conns : NoCrash e → count (handsNothing d) e = 0 → count (handsConn d) e = count (closesConn d) e + count (handsConnAndError d) e

theorem count_resultNotes {cfg : Cfg} {d : Dir} {er : Option Err} {mean : F64} (p : Ev → Bool)
    (h1 : ∀ l w i r, p (.emit (.testRate l w i r)) = false) : count p (resultNotes cfg d er mean) =
      if p (.emit (.testResult cfg.label d.name (resultLabel er mean))) then 1 else 0 := by
  unfold resultNotes
  split <;> simp [count_cons, count_nil, h1]

theorem attempts_resultNotes {cfg : Cfg} {d : Dir} {er : Option Err} {mean : F64} : attempts (resultNotes cfg d er mean) = [] := by
  unfold resultNotes
  split <;> rfl

theorem sent_resultNotes {cfg : Cfg} {d : Dir} {er : Option Err} {mean : F64} : sent (resultNotes cfg d er mean) = [] := by
  unfold resultNotes
  split <;> rfl

theorem noCrash_resultNotes {cfg : Cfg} {d : Dir} {er : Option Err} {mean : F64} : NoCrash (resultNotes cfg d er mean) := by
  unfold resultNotes
  split <;> simp [NoCrash, crashed]

theorem foot_resultNotes {cfg : Cfg} {d : Dir} {er : Option Err} {mean : F64} : ∀ x ∈ resultNotes cfg d er mean, inTest cfg d x = true := by
  unfold resultNotes
  split <;> simp [inTest]

theorem errorLabel (er : Option Err) (mean : F64) : (str "error").isPrefixOf (resultLabel er mean) = er.isSome := by
  unfold resultLabel
  cases er <;> cases mean.isZero <;> first | decide | (simp only [ne_eq, reduceCtorEq, not_false_eq_true, Option.isSome_some]; decide)

theorem isSome_verdict {α : Type} {text : Bytes} {s : Ctl} {v : α} {er : Option Err} : (∃ a, verdict text s v er = .ok a) ↔ er = none := by
  cases er <;> simp [verdict]

theorem quiet_foot {cfg : Cfg} {d : Dir} {e : List Ev} (h : ∀ x ∈ e, inTest cfg d x = true) (l : Bytes) : count (countsErrorResult l d.name) e ≤ count (countsResult l d.name) e := by
  unfold count
  refine List.countP_mono_left ?_
  intro x _ hx
  unfold countsErrorResult at hx
  split at hx
  · simp_all [countsResult]
  · cases hx

section
variable {cfg : Cfg} {m : Messager} {d : Dir}

/-- The part of a test that crashed. -/
theorem part_crash {e : List Ev} (foot : ∀ x ∈ e, inTest cfg d x = true)
    (noResult : ∀ l, count (countsResult l d.name) e = 0)
    (errors : ∀ l, count (countsError l d.name) e = 0)
    (opens : count (opensListener d) e ≤ 1)
    (listener : count (opensListener d) e = count (closesListener d) e ∨
      count (opensListener d) e = 1 ∧ count (closesListener d) e = 0 ∧
        attempts e = [m.frame MsgType.testPrepare (itoa (portOf d e))] ∧ (sent e = [] ∨ ¬ NoCrash e))
    (leaks : sent e = [] → attempts e ≠ [] → count (closesListener d) e = 0 ∧ count (opensListener d) e = 1)
    (hands : count (handsConn d) e ≤ 1)
    (conns : NoCrash e → count (handsNothing d) e = 0 → count (handsConn d) e = count (closesConn d) e + count (handsConnAndError d) e) :
    TestPart cfg m d e False := by
  refine ⟨foot, ?_, by rw [noResult]; omega, nofun, nofun, opens, nofun, ?_, ?_, hands, conns⟩
  · intro l
    have := quiet_foot foot l
    rw [errors]; rw [noResult] at this; omega
  · rcases listener with h | ⟨h1, h2, h3, h4⟩
    · exact .inl h
    · exact .inr ⟨by omega, _, h3, h4⟩
  · intro h1 h2; have := leaks h1 h2; omega

/-- The part of a test that returned. -/
theorem part_done {e : List Ev} {er : Option Err} {mean : F64} (foot : ∀ x ∈ e, inTest cfg d x = true)
    (noResult : ∀ l, count (countsResult l d.name) e = 0)
    (errors : ∀ l, count (countsError l d.name) e = if er.isSome ∧ cfg.label = l then 1 else 0)
    (opens : count (opensListener d) e ≤ 1)
    (listener : count (opensListener d) e = count (closesListener d) e ∨
      count (opensListener d) e = 1 ∧ count (closesListener d) e = 0 ∧
        attempts e = [m.frame MsgType.testPrepare (itoa (portOf d e))] ∧ (sent e = [] ∨ ¬ NoCrash e))
    (leaks : sent e = [] → attempts e ≠ [] → count (closesListener d) e = 0 ∧ count (opensListener d) e = 1)
    (hands : count (handsConn d) e ≤ 1)
    (conns : NoCrash e → count (handsNothing d) e = 0 → count (handsConn d) e = count (closesConn d) e + count (handsConnAndError d) e)
    (long : er = none → 1 < (attempts e).length) :
    TestPart cfg m d (e ++ resultNotes cfg d er mean) (er = none) := by
  have hl : ∀ l, count (countsErrorResult l d.name) e = 0 := fun l => by
    have := quiet_foot foot l
    rw [noResult] at this; omega
  refine ⟨?_, ?_, ?_, ?_, ?_, ?_, ?_, ?_, ?_, ?_, ?_⟩
  · intro x hx
    rcases List.mem_append.1 hx with h | h
    · exact foot x h
    · exact foot_resultNotes x h
  · intro l
    rw [count_append, count_append, count_resultNotes _ (fun _ _ _ _ => rfl), count_resultNotes _ (fun _ _ _ _ => rfl), errors, hl]
    simp only [countsError, countsErrorResult, errorLabel]
    by_cases h : cfg.label = l <;> cases er <;> simp [h]
  · rw [count_append, count_resultNotes _ (fun _ _ _ _ => rfl), noResult]
    simp [countsResult]
  · intro _
    rw [count_append, count_resultNotes _ (fun _ _ _ _ => rfl), noResult]
    simp [countsResult]
  · intro h
    rw [count_append, count_resultNotes _ (fun _ _ _ _ => rfl), errors, h]
    simp [countsError]
  · rw [count_append, count_resultNotes _ (fun _ _ _ _ => rfl)]; simpa [opensListener] using opens
  · intro h
    rw [count_append, count_append, count_resultNotes _ (fun _ _ _ _ => rfl), count_resultNotes _ (fun _ _ _ _ => rfl)]
    rcases listener with h' | ⟨_, _, h', _⟩
    · simpa [opensListener, closesListener] using h'
    · have := long h; rw [h'] at this; simp at this
  · rw [count_append, count_append, count_resultNotes _ (fun _ _ _ _ => rfl), count_resultNotes _ (fun _ _ _ _ => rfl), attempts_append,
      sent_append, attempts_resultNotes, sent_resultNotes, noCrash_append, List.append_nil, List.append_nil]
    rcases listener with h' | ⟨h1, h2, h3, h4⟩
    · exact .inl (by simpa [opensListener, closesListener] using h')
    · refine .inr ⟨by simp [opensListener, closesListener, h1, h2], _, h3, ?_⟩
      rcases h4 with h | h
      · exact .inl h
      · exact .inr fun h' => h h'.1
  · rw [count_append, count_append, count_resultNotes _ (fun _ _ _ _ => rfl), count_resultNotes _ (fun _ _ _ _ => rfl), attempts_append,
      sent_append, attempts_resultNotes, sent_resultNotes, List.append_nil, List.append_nil]
    intro h1 h2
    have := leaks h1 h2
    simp [opensListener, closesListener, this]
  · rw [count_append, count_resultNotes _ (fun _ _ _ _ => rfl)]; simpa [handsConn] using hands
  · simp only [count_append, noCrash_append]
    rw [count_resultNotes _ (fun _ _ _ _ => rfl), count_resultNotes _ (fun _ _ _ _ => rfl), count_resultNotes _ (fun _ _ _ _ => rfl),
      count_resultNotes _ (fun _ _ _ _ => rfl)]
    simp only [handsConn, handsNothing, closesConn, handsConnAndError, Bool.false_eq_true, if_false, Nat.add_zero]
    exact fun h => conns h.1

end

theorem noResult_of {e : List Ev} (h : ∀ x ∈ e, isResult x = false) (l d : Bytes) : count (countsResult l d) e = 0 := by
  refine count_eq_zero fun x hx => ?_
  have := h x hx
  cases x with
  | emit o => cases o <;> simp_all [isResult, countsResult]
  | _ => rfl

theorem upload_part (cfg : Cfg) (m : Messager) (s : Ctl) : wp (runUpload cfg m) s (fun e o _ => TestPart cfg m .c2s e (∃ v, o = .ok v)) := by
  refine wp_mono (runUpload_exec cfg m s) ?_
  rintro e o s' (⟨msg, h, rfl, rfl⟩ | ⟨e1, r, er, h, rfl, rfl, rfl⟩)
  · have hf := wp_iff.1 (upload_foot cfg m s') _ _ _ h
    have hr := wp_iff.1 (upload_resources cfg m s') _ _ _ h
    have he := wp_iff.1 (upload_errors cfg m s') _ _ _ h
    have := part_crash (m := m) (fun x hx => (hf x hx).1) (noResult_of (fun x hx => (hf x hx).2) · _) (fun l => by
      simpa [errorOf, Dir.name] using (he l).1) hr.2.2.1 hr.1 hr.2.1 hr.2.2.2.2.1 (fun _ _ => by omega)
    simpa using this
  · have hf := wp_iff.1 (upload_foot cfg m s) _ _ _ h
    have hr := wp_iff.1 (upload_resources cfg m s) _ _ _ h
    have he := wp_iff.1 (upload_errors cfg m s) _ _ _ h
    have hs := wp_iff.1 (upload_onScript cfg m s) _ _ _ h
    rw [isSome_verdict]
    refine part_done (m := m) (fun x hx => (hf x hx).1) (noResult_of (fun x hx => (hf x hx).2) · _) (fun l => by
      refine (he l).1.trans ?_; simp only [errorOf]; congr) hr.2.2.1 hr.1 hr.2.1 hr.2.2.2.2.1 (fun _ _ => by omega) ?_
    rintro rfl
    have := hs.2.complete ⟨r, rfl⟩
    rw [hs.2.attempts_of_sent this]
    simp [c2sScript]

theorem download_part (cfg : Cfg) (m : Messager) (s : Ctl) : wp (runDownload cfg m) s (fun e o _ => TestPart cfg m .s2c e (∃ v, o = .ok v)) := by
  refine wp_mono (runDownload_exec cfg m s) ?_
  rintro e o s' (⟨msg, h, rfl, rfl⟩ | ⟨e1, r, er, h, rfl, rfl, rfl⟩)
  · have hf := wp_iff.1 (download_foot cfg m s') _ _ _ h
    have hr := wp_iff.1 (download_resources cfg m s') _ _ _ h
    have he := wp_iff.1 (download_errors cfg m s') _ _ _ h
    have := part_crash (m := m) (fun x hx => (hf x hx).1) (noResult_of (fun x hx => (hf x hx).2) · _) (fun l => by
      simpa [errorOf, Dir.name] using (he l).1) hr.2.2.1 hr.1 hr.2.1 hr.2.2.2.2.2.1 (fun hn _ => hr.2.2.2.1 hn)
    simpa using this
  · have hf := wp_iff.1 (download_foot cfg m s) _ _ _ h
    have hr := wp_iff.1 (download_resources cfg m s) _ _ _ h
    have he := wp_iff.1 (download_errors cfg m s) _ _ _ h
    have hs := wp_iff.1 (download_onScript cfg m s) _ _ _ h
    rw [isSome_verdict]
    refine part_done (m := m) (fun x hx => (hf x hx).1) (noResult_of (fun x hx => (hf x hx).2) · _) (fun l => by
      refine (he l).1.trans ?_; simp only [errorOf]; congr) hr.2.2.1 hr.1 hr.2.1 hr.2.2.2.2.2.1 (fun hn _ => hr.2.2.2.1 hn) ?_
    rintro rfl
    have := hs.2.complete ⟨r, rfl⟩
    rw [hs.2.attempts_of_sent this]
    simp [downloadScript, s2cScript]

end Verif.Ndt5
