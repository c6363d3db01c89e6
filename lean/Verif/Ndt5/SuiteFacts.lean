import Verif.Ndt5.SessionParts

/-! # What holds of the session after the login -/

namespace Verif.Ndt5
open Verif.Go Verif.Spec

set_option maxRecDepth 20000
set_option linter.unusedSimpArgs false

theorem not_ok_panic {α : Type} {msg : Bytes} : ¬ ∃ v : α, Outcome.panic msg = .ok v := by simp

theorem isSend_quiet {d : Dir} {e : List Ev} (h : ∀ x ∈ e, isSend x = true) : Quiet d e := by
  intro x hx
  have := h x hx
  unfold isSend at this
  split at this
  · rfl
  · cases this

section
variable {cfg : Cfg} {n : Int} {m : Messager} {s s' sU sD : Ctl} {e0 eU eD eM eF : List Ev} {o0 oM o : Outcome Unit} {oU oD : Outcome F64}

theorem next_nil {α β : Type} {f : α → P Ctl β} {o' : Outcome β} {o : Outcome α} {e : List Ev} (h : Next o f s e o' s') (hn : ¬ ∃ v, o = .ok v) :
    e = [] ∧ (¬ ∃ v, o' = .ok v) ∧ s' = s := by
  cases o with
  | ok a => exact absurd ⟨a, rfl⟩ hn
  | panic msg => obtain ⟨h1, h2, h3⟩ := h; subst h2; exact ⟨h1, not_ok_panic, h3⟩

/-- A part that may be skipped. -/
theorem maybe_exec {α : Type} {b : Bool} {x : P Ctl α} {a : α} {e : List Ev} {o : Outcome α}
    (h : Exec (if b then x else pure a : P Ctl α) s e o s') : (b = true ∧ Exec x s e o s') ∨ (b = false ∧ e = [] ∧ o = .ok a ∧ s' = s) := by
  cases b with
  | true => exact .inl ⟨rfl, h⟩
  | false =>
    refine .inr ⟨rfl, ?_⟩
    exact (wp_iff (P := fun e o s' => e = [] ∧ o = .ok a ∧ s' = s)).1 (by rw [if_neg (by simp), wp_pure]; simp) _ _ _ h

/-- A part of a session: not reached, skipped or run. -/
inductive Ran {α : Type} (b : Bool) (x : P Ctl α) (dflt : α) (before : Prop) (s : Ctl) : List Ev → Outcome α → Ctl → Prop
  | notReached (msg : Bytes) : ¬ before → Ran b x dflt before s [] (.panic msg) s
  | skipped : before → b = false → Ran b x dflt before s [] (.ok dflt) s
  | run (e : List Ev) (o : Outcome α) (s' : Ctl) : before → b = true → Exec x s e o s' → Ran b x dflt before s e o s'

theorem ran_of {α β : Type} {b : Bool} {x : P Ctl β} {a : β} {o : Outcome α} {e : List Ev} {o' : Outcome β}
    (h : Next o (fun _ => (if b then x else pure a : P Ctl β)) s e o' s') : Ran b x a (∃ v, o = .ok v) s e o' s' := by
  cases o with
  | panic msg => obtain ⟨rfl, rfl, rfl⟩ := h; exact .notReached _ (by simp)
  | ok v =>
    rcases maybe_exec h with ⟨hb, h⟩ | ⟨hb, rfl, rfl, rfl⟩
    · exact .run _ _ _ ⟨v, rfl⟩ hb h
    · exact .skipped ⟨v, rfl⟩ hb

variable (hp : Parts cfg n m s e0 eU eD eM eF o0 oU oD oM o sU sD s')
include hp

theorem Parts.ranU : Ran (requested n 1) (runUpload cfg m) (.fin 0) (∃ v, o0 = .ok v) (s.greeted m) eU oU sU := ran_of hp.upload
theorem Parts.ranD : Ran (requested n 2) (runDownload cfg m) (.fin 0) (∃ v, oU = .ok v) sU eD oD sD := ran_of hp.download
theorem Parts.ranM : Ran (requested n 5) (runMeta cfg m) () (∃ v, oD = .ok v) sD eM oM s' := ran_of hp.metadata

theorem Parts.foot0 : ∀ x ∈ e0, isSend x = true := (wp_iff.1 (greet_spec n m s) _ _ _ hp.greet).2.1

theorem Parts.footU : ∀ x ∈ eU, inTest cfg .c2s x = true := by
  cases hp.ranU with
  | notReached => simp
  | skipped => simp
  | run _ _ _ _ _ h => exact (wp_iff.1 (upload_part cfg m _) _ _ _ h).foot

theorem Parts.footD : ∀ x ∈ eD, inTest cfg .s2c x = true := by
  cases hp.ranD with
  | notReached => simp
  | skipped => simp
  | run _ _ _ _ _ h => exact (wp_iff.1 (download_part cfg m _) _ _ _ h).foot

theorem Parts.footM : ∀ x ∈ eM, inMeta cfg x = true := by
  cases hp.ranM with
  | notReached => simp
  | skipped => simp
  | run _ _ _ _ _ h =>
    rcases wp_iff.1 (runMeta_exec cfg m _) _ _ _ h with ⟨msg, h', -⟩ | ⟨r, er, h', -⟩
    · exact wp_iff.1 (meta_foot m cfg _) _ _ _ h'
    · exact wp_iff.1 (meta_foot m cfg _) _ _ _ h'

theorem Parts.footF : ∀ x ∈ eF, isSend x = true := by
  obtain ⟨v, w, -, h⟩ := hp.farewell
  cases oM with
  | panic msg => obtain ⟨rfl, -, -⟩ := h; simp
  | ok a => exact (wp_iff.1 (farewell_spec m v w s') _ _ _ h).2.1

/-- All messages of the session. -/
theorem Parts.script {pre post : List Ev} (hpre : ∀ d, Quiet d pre) (hpost : ∀ d, Quiet d post) :
    OnScript (sessionScript cfg.lib m n (pre ++ ((e0 ++ (eU ++ (eD ++ (eM ++ eF)))) ++ post)))
      (e0 ++ (eU ++ (eD ++ (eM ++ eF)))) (∃ v, o = .ok v) := by
  obtain ⟨-, -, h0, -⟩ := wp_iff.1 (greet_spec n m s) _ _ _ hp.greet
  have q0 : ∀ d, Quiet d e0 := fun d => isSend_quiet hp.foot0
  have qF : ∀ d, Quiet d eF := fun d => isSend_quiet hp.footF
  have qM : ∀ d, Quiet d eM := fun d => quiet_inMeta hp.footM
  have qU : Quiet .s2c eU := quiet_inTest (by decide) hp.footU
  have qD : Quiet .c2s eD := quiet_inTest (by decide) hp.footD
  have hallU : pre ++ ((e0 ++ (eU ++ (eD ++ (eM ++ eF)))) ++ post) = (pre ++ e0) ++ (eU ++ ((eD ++ (eM ++ eF)) ++ post)) := by
    simp only [List.append_assoc]
  have hallD : pre ++ ((e0 ++ (eU ++ (eD ++ (eM ++ eF)))) ++ post) = (pre ++ (e0 ++ eU)) ++ (eD ++ ((eM ++ eF) ++ post)) := by
    simp only [List.append_assoc]
  generalize hall : pre ++ ((e0 ++ (eU ++ (eD ++ (eM ++ eF)))) ++ post) = all at hallU hallD ⊢
  have fU : requested n 1 = true → (∃ v, o0 = .ok v) → UploadFacts m (s.greeted m) eU oU sU all := by
    intro hb hv
    cases hp.ranU with
    | notReached _ hn => exact absurd hv hn
    | skipped _ hb' => rw [hb] at hb'; cases hb'
    | run _ _ _ _ _ h =>
      rw [hallU]
      exact wp_iff.1 (upload_facts cfg m _) _ _ _ h _ _ (quiet_append.2 ⟨hpre _, q0 _⟩)
        (quiet_append.2 ⟨quiet_append.2 ⟨qD, quiet_append.2 ⟨qM _, qF _⟩⟩, hpost _⟩)
  have fD : requested n 2 = true → (∃ v, oU = .ok v) → DownloadFacts cfg.lib m sU eD oD sD all := by
    intro hb hv
    cases hp.ranD with
    | notReached _ hn => exact absurd hv hn
    | skipped _ hb' => rw [hb] at hb'; cases hb'
    | run _ _ _ _ _ h =>
      rw [hallD]
      exact wp_iff.1 (download_facts cfg m _) _ _ _ h _ _ (quiet_append.2 ⟨hpre _, quiet_append.2 ⟨q0 _, qU⟩⟩)
        (quiet_append.2 ⟨quiet_append.2 ⟨qM _, qF _⟩, hpost _⟩)
  have uval : ∀ v, oU = .ok v → v = uploadRate n all := by
    intro v hv
    unfold uploadRate
    cases hp.ranU with
    | notReached => cases hv
    | skipped _ hb => injection hv with hv; simp [hb, ← hv]
    | run _ _ _ h0 hb h => rw [hb]; exact (fU hb h0).value v hv
  have dval : ∀ v, oD = .ok v → v = downloadRate cfg.lib m n all := by
    intro v hv
    unfold downloadRate
    cases hp.ranD with
    | notReached => cases hv
    | skipped _ hb => injection hv with hv; simp [hb, ← hv]
    | run _ _ _ h0 hb h => rw [hb]; exact (fD hb h0).value v hv
  unfold sessionScript
  refine h0.next (fun hv0 => ?_) (fun hn => ?_) (by simp)
  · refine OnScript.next (ok₁ := ∃ v, oU = .ok v) ?_ (fun hvU => ?_) (fun hn => ?_) (by simp)
    · cases hp.ranU with
      | notReached _ hn => exact absurd hv0 hn
      | skipped _ hb => rw [hb]; exact OnScript.nil rfl rfl ⟨_, rfl⟩
      | run _ _ _ _ hb h => rw [hb]; exact (fU hb hv0).script
    · refine OnScript.next (ok₁ := ∃ v, oD = .ok v) ?_ (fun hvD => ?_) (fun hn => ?_) (by simp)
      · cases hp.ranD with
        | notReached _ hn => exact absurd hvU hn
        | skipped _ hb => rw [hb]; exact OnScript.nil rfl rfl ⟨_, rfl⟩
        | run _ _ _ _ hb h => rw [hb]; exact (fD hb hvU).script
      · refine OnScript.next (ok₁ := ∃ v, oM = .ok v) ?_ (fun hvM => ?_) (fun hn => ?_) (by simp)
        · cases hp.ranM with
          | notReached _ hn => exact absurd hvD hn
          | skipped _ hb => rw [hb]; exact OnScript.nil rfl rfl ⟨_, rfl⟩
          | run _ _ _ _ hb h =>
            rw [hb]
            rcases wp_iff.1 (runMeta_exec cfg m _) _ _ _ h with ⟨msg, h', rfl, -⟩ | ⟨r, er, h', -, rfl⟩
            · exact (wp_iff.1 (meta_onScript m cfg _) _ _ _ h').2.congr (by simp)
            · exact (wp_iff.1 (meta_onScript m cfg _) _ _ _ h').2.congr (by rw [isSome_verdict]; simp)
        · obtain ⟨v, w, hvw, h⟩ := hp.farewell
          obtain ⟨a, rfl⟩ := hvM
          obtain ⟨hv, hw⟩ := hvw a rfl
          rw [← uval v hv, ← dval w hw]
          exact (wp_iff.1 (farewell_spec m v w s') _ _ _ h).2.2.1
        · obtain ⟨v, w, hvw, h⟩ := hp.farewell
          exact ⟨(next_nil h hn).1, (next_nil h hn).2.1⟩
      · have h1 := next_nil hp.metadata hn
        obtain ⟨v, w, hvw, h⟩ := hp.farewell
        have h2 := next_nil h h1.2.1
        exact ⟨by rw [h1.1, h2.1]; rfl, h2.2.1⟩
    · have h0 := next_nil hp.download hn
      have h1 := next_nil hp.metadata h0.2.1
      obtain ⟨v, w, hvw, h⟩ := hp.farewell
      have h2 := next_nil h h1.2.1
      exact ⟨by rw [h0.1, h1.1, h2.1]; rfl, h2.2.1⟩
  · have h00 := next_nil hp.upload hn
    have h0 := next_nil hp.download h00.2.1
    have h1 := next_nil hp.metadata h0.2.1
    obtain ⟨v, w, hvw, h⟩ := hp.farewell
    have h2 := next_nil h h1.2.1
    exact ⟨by rw [h00.1, h0.1, h1.1, h2.1]; rfl, h2.2.1⟩

end

end Verif.Ndt5
