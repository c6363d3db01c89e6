import Verif.Ndt5.TimeOrder
import Verif.Props.Messages
import Verif.Spec.GoodSession

/-! # Sessions in which nothing goes wrong -/

namespace Verif.Ndt5
open Verif.Go Verif.Spec

set_option maxRecDepth 20000
set_option linter.unusedSimpArgs false

section
variable {σ : Type} (cfg : Cfg) (m : Messager) (s : σ)

/-- Everything the client sends is received. -/
def Heard (m : Messager) (e : List Ev) : Prop := ∀ r, .call .recv (.ok r) ∈ e → ∃ c, m.receive r MsgType.testMsg = (some c, none)

theorem upload_good : wp (uploadManage cfg m) s (fun e o _ => (∀ x ∈ e, worked x) → uploadTooShort e = false → ∃ r, o = .ok (r, none)) := by
  refine wp_opaque fun Q hQ => ?_
  wp_paths [uploadManage, uploadBody, uploadRun, uploadReport, drainAndMeasure]
  all_goals refine hQ _ _ _ ?_
  all_goals clear hQ
  all_goals intro hw hs
  all_goals simp [worked] at hw
  all_goals simp_all [uploadTooShort, uploadMeasurement]

theorem worked_noCrash {e : List Ev} (h : ∀ x ∈ e, worked x) : NoCrash e := by
  intro x hx
  have := h x hx
  unfold crashed
  split
  · simp [worked] at this
  · rfl

theorem worked_sent {e : List Ev} (h : ∀ x ∈ e, worked x) : attempts e = sent e := by
  induction e with
  | nil => rfl
  | cons x e ih =>
    rw [attempts_cons, sent_cons, ih fun y hy => h y (by simp [hy])]
    have := h x (by simp)
    suffices hx : attemptOf x = sentOf x by rw [hx]
    cases x with
    | clock t => rfl
    | emit o => rfl
    | call q r =>
      cases r with
      | panic msg => simp [worked] at this
      | ok a => cases q <;> first | rfl | (simp only [worked] at this; subst this; rfl)

theorem sends_good {l : List Bytes} {e : List Ev} {o : Outcome (Option Err)} (h : Sends l e o) (hw : ∀ x ∈ e, worked x) : o = .ok none := by
  induction h with
  | done => rfl
  | sent f rest evs out _ ih => exact ih fun x hx => hw x (by simp [hx])
  | failed f rest e => simp [worked] at hw
  | crashed f rest msg => simp [worked] at hw

theorem downloadMetrics_good {rd : S2CRecord} {w : Metrics} {s' : σ} {e : List Ev} {o : Outcome (S2CRecord × Option Err)}
    (h : Exec (downloadMetrics cfg m rd w) s e o s') (hw : ∀ x ∈ e, worked x) : o = .ok (rd, none) := by
  obtain ⟨-, eS, oS, hS, ho⟩ := wp_iff.1 (downloadMetrics_sends cfg m _ _ _) _ _ _ h
  have hsub : ∀ x ∈ eS, worked x := by
    intro x hx
    refine hw x ?_
    rcases oS with ((_ | er) | msg) <;> simp only at ho
    · exact ho.1 ▸ hx
    · obtain ⟨⟨_, rfl⟩, -⟩ := ho
      simp [hx]
    · exact ho.1 ▸ hx
  obtain rfl := sends_good hS hsub
  exact ho.2

theorem download_good : wp (downloadManage cfg m) s (fun e o _ => (∀ x ∈ e, worked x) → Heard m e → ∃ r, o = .ok (r, none)) := by
  refine wp_opaque fun Q hQ => ?_
  wp_paths [downloadManage, downloadBody, downloadRun, downloadReport, wp_downloadMetrics]
  all_goals refine hQ _ _ _ ?_
  all_goals clear hQ
  all_goals intro hw hh
  all_goals try (simp [worked] at hw; done)
  all_goals try (simp [worked] at hw; simp [Heard] at hh; simp_all; done)
  all_goals
    have hg := downloadMetrics_good cfg m _ ‹Exec (downloadMetrics _ _ _ _) _ _ _ _› (fun x hx => hw x (by simp [hx]))
  all_goals first | (injection hg; done) | skip
  all_goals injection hg with hg
  all_goals simp_all

theorem greet_good (n : Int) (s : Ctl) : wp (greet n m) s (fun e o _ => (∀ x ∈ e, worked x) → o = .ok ()) := by
  refine wp_opaque fun Q hQ => ?_
  wp_paths [greet, sendOrPanic, panicOnError]
  all_goals refine hQ _ _ _ ?_
  all_goals intro hw
  all_goals simp_all [worked]

theorem farewell_good (v w : F64) (s : Ctl) : wp (farewell m v w) s (fun e o _ => (∀ x ∈ e, worked x) → o = .ok ()) := by
  refine wp_opaque fun Q hQ => ?_
  wp_paths [farewell, sendOrPanic, panicOnError]
  all_goals refine hQ _ _ _ ?_
  all_goals intro hw
  all_goals simp_all [worked]

theorem metaLoop_good {k n : Nat} {res : List NameValue} {s s' : σ} {e : List Ev} {o : Outcome ((List NameValue × Nat) × Option Err)}
    (h : Exec (metaLoop m n res k) s e o s') (hw : ∀ x ∈ e, worked x) (hh : Heard m e) : ∃ r, o = .ok (r, none) := by
  obtain ⟨-, -, hd⟩ := metaLoop_exec m h
  cases o with
  | panic msg => exact absurd (worked_noCrash hw) hd
  | ok r =>
    simp only at hd
    suffices hr : r.2 = none by exact ⟨r.1, by rw [← hr]⟩
    rcases hd.ending with ⟨-, h1, -⟩ | ⟨last, h1, -, h2, -⟩
    · exact h1
    · rw [h2]
      have hm : last ∈ replies m e := by rw [h1]; simp
      obtain ⟨a, ha, rfl⟩ := List.mem_map.1 hm
      obtain ⟨x, hx, hxa⟩ := List.mem_filterMap.1 ha
      unfold recvAnswer at hxa
      split at hxa
      · injection hxa with hxa
        subst hxa
        obtain ⟨c, hc⟩ := hh _ hx
        rw [hc]
      · cases hxa

theorem meta_good : wp (metaManage cfg m) s (fun e o _ => (∀ x ∈ e, worked x) → Heard m e → ∃ r, o = .ok (r, none)) := by
  refine wp_opaque fun Q hQ => ?_
  wp_paths [metaManage, wp_metaLoop]
  all_goals refine hQ _ _ _ ?_
  all_goals clear hQ
  all_goals intro hw hh
  all_goals try (simp [worked] at hw; done)
  all_goals
    have hg := metaLoop_good m ‹Exec (metaLoop _ _ _ _) _ _ _ _› (fun x hx => hw x (by simp [hx])) (fun r hr => hh r (by simp [hr]))
  all_goals obtain ⟨r0, hg⟩ := hg
  all_goals simp [worked, or_imp, forall_and] at hw
  all_goals simp_all

end

theorem verdict_good {α : Type} (text : Bytes) (s : Ctl) (v : α) : verdict text s v none = .ok v := rfl

theorem exec_pure {σ α : Type} {a : α} {s s' : σ} {e : List Ev} {o : Outcome α} (h : Exec (pure a : P σ α) s e o s') : o = .ok a :=
  (wp_iff (m := (pure a : P σ α)) (P := fun _ o _ => o = .ok a)).1 (by rw [wp_pure]) _ _ _ h

theorem Parts.good {cfg : Cfg} {n : Int} {m : Messager} {s s' sU sD : Ctl} {e0 eU eD eM eF : List Ev} {o0 oM o : Outcome Unit} {oU oD : Outcome F64}
    (hp : Parts cfg n m s e0 eU eD eM eF o0 oU oD oM o sU sD s') (hw : ∀ x ∈ e0 ++ (eU ++ (eD ++ (eM ++ eF))), worked x)
    (hh : Heard m (e0 ++ (eU ++ (eD ++ (eM ++ eF))))) (hs : uploadTooShort eU = false) : o = .ok () := by
  have w0 : ∀ x ∈ e0, worked x := fun x hx => hw x (by simp [hx])
  have wU : ∀ x ∈ eU, worked x := fun x hx => hw x (by simp [hx])
  have wD : ∀ x ∈ eD, worked x := fun x hx => hw x (by simp [hx])
  have wM : ∀ x ∈ eM, worked x := fun x hx => hw x (by simp [hx])
  have wF : ∀ x ∈ eF, worked x := fun x hx => hw x (by simp [hx])
  obtain rfl := wp_iff.1 (greet_good m n s) _ _ _ hp.greet w0
  have hU : ∃ v, oU = .ok v := by
    have h : Exec (maybeUpload cfg n m) (s.greeted m) eU oU sU := hp.upload
    unfold maybeUpload at h
    split at h
    · rcases wp_iff.1 (runUpload_exec cfg m _) _ _ _ h with ⟨msg, h', -⟩ | ⟨e1, r, er, h', rfl, -, rfl⟩
      · obtain ⟨r, hr⟩ := wp_iff.1 (upload_good cfg m _) _ _ _ h' wU hs
        cases hr
      · have hloc := (wp_iff.1 (upload_local cfg m _) _ _ _ h' [] (resultNotes cfg .c2s er r.mean) (by simp [Quiet]) quiet_resultNotes).2.2.2
        have hs' : uploadTooShort e1 = false := by
          unfold uploadTooShort at hs ⊢
          rw [List.nil_append] at hloc
          rwa [hloc] at hs
        obtain ⟨r', hr⟩ := wp_iff.1 (upload_good cfg m _) _ _ _ h' (fun x hx => wU x (by simp [hx])) hs'
        simp only [Outcome.ok.injEq, Prod.mk.injEq] at hr
        rw [hr.2]
        exact ⟨_, verdict_good _ _ _⟩
    · exact ⟨_, exec_pure h⟩
  obtain ⟨v, rfl⟩ := hU
  have hD : ∃ w, oD = .ok w := by
    have h : Exec (maybeDownload cfg n m) sU eD oD sD := hp.download
    unfold maybeDownload at h
    split at h
    · rcases wp_iff.1 (runDownload_exec cfg m _) _ _ _ h with ⟨msg, h', -⟩ | ⟨e1, r, er, h', rfl, -, rfl⟩
      · obtain ⟨r, hr⟩ := wp_iff.1 (download_good cfg m _) _ _ _ h' wD (fun r hr => hh r (by simp [hr]))
        cases hr
      · obtain ⟨r', hr⟩ := wp_iff.1 (download_good cfg m _) _ _ _ h' (fun x hx => wD x (by simp [hx])) (fun r hr => hh r (by simp [hr]))
        simp only [Outcome.ok.injEq, Prod.mk.injEq] at hr
        rw [hr.2]
        exact ⟨_, verdict_good _ _ _⟩
    · exact ⟨_, exec_pure h⟩
  obtain ⟨w, rfl⟩ := hD
  have hM : oM = .ok () := by
    have h : Exec (maybeMeta cfg n m) sD eM oM s' := hp.metadata
    unfold maybeMeta at h
    split at h
    · rcases wp_iff.1 (runMeta_exec cfg m _) _ _ _ h with ⟨msg, h', -⟩ | ⟨r, er, h', -, rfl⟩
      · obtain ⟨r, hr⟩ := wp_iff.1 (meta_good cfg m _) _ _ _ h' wM (fun r hr => hh r (by simp [hr]))
        cases hr
      · obtain ⟨r', hr⟩ := wp_iff.1 (meta_good cfg m _) _ _ _ h' wM (fun r hr => hh r (by simp [hr]))
        simp only [Outcome.ok.injEq, Prod.mk.injEq] at hr
        rw [hr.2]
        rfl
    · exact exec_pure h
  subst hM
  obtain ⟨v', w', -, hF⟩ := hp.farewell
  exact wp_iff.1 (farewell_good m v' w' s') _ _ _ hF wF

theorem testMessage_received {m : Messager} {frame : Bytes} (h : TestMessage m frame) : ∃ c, m.receive (.ok frame) MsgType.testMsg = (some c, none) := by
  cases m with
  | tlv =>
    obtain ⟨c, hc⟩ := h
    exact ⟨c, (Props.C85_tlv_received_iff _ _ _).2 hc⟩
  | json =>
    obtain ⟨doc, kvs, h1, h2, h3⟩ := h
    by_cases hn : NoString "msg" kvs
    · exact ⟨[], (Props.C85_json_received_iff _ _ _).2 ⟨doc, kvs, h1, h2, h3, .inr ⟨hn, rfl⟩⟩⟩
    · have hl : ∀ kvs : List (Bytes × Json), ¬ NoString "msg" kvs → ∃ c, LastString "msg" kvs c := by
        intro kvs
        induction kvs with
        | nil => exact fun h => absurd (fun _ h => absurd h (by simp)) h
        | cons kv kvs ih =>
          intro h
          by_cases ht : NoString "msg" kvs
          · obtain ⟨k, v⟩ := kv
            simp only [NoString, List.mem_cons, forall_eq_or_imp, not_and_or] at h
            rcases h with h | h
            · simp only [not_forall, not_not] at h
              obtain ⟨h1, c, rfl⟩ := h
              exact ⟨c, [], k, kvs, rfl, h1, ht⟩
            · exact absurd ht h
          · obtain ⟨c, b, k, a, rfl, h1, h2⟩ := ih ht
            exact ⟨c, kv :: b, k, a, rfl, h1, h2⟩
      obtain ⟨c, hc⟩ := hl kvs hn
      exact ⟨c, (Props.C85_json_received_iff _ _ _).2 ⟨doc, kvs, h1, h2, h3, .inl hc⟩⟩

theorem whole_good {cfg : Cfg} {evs : List Ev} {m : Messager} {n : Int} (h : Whole cfg evs) (hs : Served cfg.kind evs m n) (hg : GoodSession m evs) :
    countedOkay cfg.label evs := by
  obtain ⟨frame0, hf0, hl0, hr0⟩ := hs
  have hnc := worked_noCrash hg.calls
  cases h with
  | early mid t0 t1 o h1 h2 h3 h4 h5 _ =>
    exact absurd (fun x hx => hnc x (by simp [hx])) h3
  | run t0 t t1 a u eS eF oS oF r s h1 h2 =>
    have hok := okay_iff (accounts_run (t0 := t0) (t := t) (t1 := t1) (a := a) (u := u) (r := r) (o := after (after oS oF) r) h1 h2)
    have hpre := outer_pre (cfg := cfg) (t0 := t0) (t := t) (a := a) (u := u)
    have hpost := outer_post (r := r) (o := after (after oS oF) r) (t0 := t0) (t1 := t1) h2
    have hfr := firstRead_run (t0 := t0) (t := t) (t1 := t1) (a := a) (u := u) (eS := eS) (r := r) (o := after (after oS oF) r) h2
    rw [after_ok, after_ok] at hok
    rw [hok]
    have hn' := (noCrash_append.1 (noCrash_append.1 hnc).2).2
    unfold postEvents at hn'
    have hF := (noCrash_append.1 hn').1
    have hR := ((noCrash_cons _ _).1 (noCrash_append.1 hn').2).1
    refine ⟨⟨?_, h2.clean hF⟩, ?_⟩
    rotate_left
    · cases r with
      | ok v => exact ⟨v, rfl⟩
      | panic msg => simp [crashed] at hR
    rw [hfr] at hf0
    cases h1 with
    | crashed msg => cases hf0
    | nilLogin r' enc hnl _ _ => injection hf0 with hf0; exact absurd hl0 (hnl _ _ _ hf0)
    | refused r' x enc hnl => injection hf0 with hf0; exact absurd hl0 (hnl _ _ _ hf0)
    | noStatus frame m' n' hl hn => exact ⟨(), rfl⟩
    | run frame m' n' e _ _ hl hst hex =>
      have hff : frame = frame0 := by
        simp only [firstRead, List.findSome?_cons, recvAnswer] at hf0
        injection hf0 with hf0
        injection hf0
      subst hff
      obtain ⟨rfl, rfl⟩ := loggedIn_unique hl hl0
      obtain ⟨e0, eU, eD, eM, eL, o0, oU, oD, oM, sU, sD, rfl, hp⟩ := suite_parts hex
      refine ⟨(), hp.good (fun x hx => hg.calls x (by simp only [List.mem_append, List.mem_cons] at hx ⊢; tauto)) ?_ ?_⟩
      · obtain ⟨login, replies, hrd, hall⟩ := hg.client
        have hout : ∀ {l : List Ev}, (∀ x ∈ l, outer x = true) → l.filterMap recvAnswer = [] := fun hl =>
          List.filterMap_eq_nil_iff.2 fun x hx => List.findSome?_eq_none_iff.1 (outer_recv hl) x hx
        have hrn : (requestNotes cfg n').filterMap recvAnswer = [] := by
          refine List.filterMap_eq_nil_iff.2 fun x hx => ?_
          simp only [requestNotes, List.mem_append] at hx
          rcases hx with h | h | h | h | h | h <;> (try split at h) <;> simp at h <;> subst h <;> rfl
        rw [List.filterMap_append, hout hpre, List.nil_append, List.filterMap_append, hout hpost, List.append_nil, List.filterMap_cons] at hrd
        simp only [recvAnswer] at hrd
        rw [List.filterMap_append, hrn, List.nil_append] at hrd
        injection hrd with _ hrd
        intro r' hr'
        have hm : r' ∈ (e0 ++ (eU ++ (eD ++ (eM ++ eL)))).filterMap recvAnswer := List.mem_filterMap.2 ⟨_, hr', rfl⟩
        rw [hrd] at hm
        obtain ⟨fr, hfr', rfl⟩ := List.mem_map.1 hm
        exact testMessage_received (hall fr hfr')
      · have hq1 : Quiet .c2s (preEvents cfg t0 a t u) := fun x hx => (outer_silent hpre x hx).1
        have hq2 : Quiet .c2s (postEvents cfg eF r (after (after oS oF) r) t0 t1) := fun x hx => (outer_silent hpost x hx).1
        have hn : Quiet .c2s (.call .recv (.ok (.ok frame)) :: requestNotes cfg n') := by
          refine quiet_cons.2 ⟨rfl, fun x hx => ?_⟩
          simp only [requestNotes, List.mem_append] at hx
          rcases hx with h | h | h | h | h | h <;> (try split at h) <;> simp at h <;> subst h <;> rfl
        have q0 : Quiet .c2s e0 := isSend_quiet hp.foot0
        have qF : Quiet .c2s eL := isSend_quiet hp.footF
        have qM : Quiet .c2s eM := quiet_inMeta hp.footM
        have qD : Quiet .c2s eD := quiet_inTest (by decide) hp.footD
        have := hp.uploadLocal (pre := preEvents cfg t0 a t u ++ (.call .recv (.ok (.ok frame)) :: (requestNotes cfg n' ++ e0)))
          (post := (eD ++ (eM ++ eL)) ++ postEvents cfg eF r (after (after oS oF) r) t0 t1)
          (quiet_append.2 ⟨hq1, by rw [← List.cons_append]; exact quiet_append.2 ⟨hn, q0⟩⟩)
          (quiet_append.2 ⟨quiet_append.2 ⟨qD, quiet_append.2 ⟨qM, qF⟩⟩, hq2⟩)
        have hup := hg.upload
        unfold uploadTooShort at hup ⊢
        simp only [List.append_assoc, List.cons_append] at this hup
        rwa [this] at hup

end Verif.Ndt5
