import Verif.Ndt5.GoodLemmas

/-! # What a server does with the messages of a client in a session in which nothing goes wrong -/

namespace Verif.Ndt5
open Verif.Go Verif.Spec

set_option maxRecDepth 20000
set_option linter.unusedSimpArgs false

section
variable {σ : Type} (cfg : Cfg) (m : Messager) (s : σ)

/-- Nothing is read. -/
def Unread (e : List Ev) : Prop := e.filterMap recvAnswer = []

theorem unread_of {e : List Ev} (h : ∀ x ∈ e, recvAnswer x = none) : Unread e := List.filterMap_eq_nil_iff.2 h

theorem upload_unread : wp (uploadManage cfg m) s (fun e _ _ => Unread e) := by
  refine wp_opaque fun Q hQ => ?_
  wp_paths [uploadManage, uploadBody, uploadRun, uploadReport, drainAndMeasure]
  all_goals refine hQ _ _ _ ?_
  all_goals clear hQ
  all_goals rfl

theorem downloadMetrics_unread {rd : S2CRecord} {w : Metrics} {s' : σ} {e : List Ev} {o : Outcome (S2CRecord × Option Err)}
    (h : Exec (downloadMetrics cfg m rd w) s e o s') : Unread e := by
  obtain ⟨-, -, -, -, hc, -⟩ := downloadMetrics_exec h
  have := hc (fun x => (recvAnswer x).isSome) (fun _ _ => rfl) (fun _ => rfl)
  refine unread_of fun x hx => ?_
  cases hr : recvAnswer x with
  | none => rfl
  | some a =>
    unfold count at this
    rw [List.countP_eq_zero] at this
    exact absurd (by simp [hr]) (this x hx)

theorem download_reads : wp (downloadManage cfg m) s (fun e o _ => (∃ r, o = .ok (r, none)) → ∃ d, e.filterMap recvAnswer = [d] ∧ clientReply e = some d) := by
  refine wp_opaque fun Q hQ => ?_
  wp_paths [downloadManage, downloadBody, downloadRun, downloadReport, wp_downloadMetrics]
  all_goals refine hQ _ _ _ ?_
  all_goals clear hQ
  all_goals rintro ⟨r, hr⟩
  all_goals try (cases hr; done)
  all_goals
    have hu := downloadMetrics_unread cfg m _ ‹Exec (downloadMetrics _ _ _ _) _ _ _ _›
    unfold Unread at hu
    refine ⟨_, ?_, rfl⟩
    simp only [List.cons_append, List.nil_append, List.filterMap_cons, recvAnswer, hu]

end

theorem worked_stays {e : List Ev} (h : ∀ x ∈ e, worked x) : DeadlineStays e := by
  unfold DeadlineStays
  have : ∀ a ∈ e.filterMap deadlineAnswer, a = none := by
    intro a ha
    obtain ⟨x, hx, hxa⟩ := List.mem_filterMap.1 ha
    have hw := h x hx
    unfold deadlineAnswer at hxa
    split at hxa
    · injection hxa with hxa; subst hxa; exact hw
    · cases hxa
  generalize e.filterMap deadlineAnswer = l at this
  induction l with
  | nil => exact .nil
  | cons a l ih => exact .cons (fun b _ hna => absurd (this a (by simp)) hna) (ih fun x hx => this x (by simp [hx]))

theorem takeWhile_all {α : Type} {p : α → Bool} {l : List α} : ∀ x ∈ l.takeWhile p, p x = true := by
  induction l with
  | nil => simp
  | cons a l ih =>
    intro x hx
    rw [List.takeWhile_cons] at hx
    split at hx
    · rcases List.mem_cons.1 hx with rfl | hx
      · assumption
      · exact ih x hx
    · cases hx

theorem Parts.used {cfg : Cfg} {n : Int} {m : Messager} {s s' sU sD : Ctl} {e0 eU eD eM eF : List Ev} {o0 oM : Outcome Unit} {oU oD : Outcome F64}
    (hp : Parts cfg n m s e0 eU eD eM eF o0 oU oD oM (.ok ()) sU sD s') (hw : ∀ x ∈ eM, worked x) :
    Used n m ((e0 ++ (eU ++ (eD ++ (eM ++ eF)))).filterMap recvAnswer) (clientReply eD) (eM.filterMap recvAnswer) := by
  have h0 : e0.filterMap recvAnswer = [] := unread_of fun x hx => isSend_recv (hp.foot0 x hx)
  have hF : eF.filterMap recvAnswer = [] := unread_of fun x hx => isSend_recv (hp.footF x hx)
  have hN : ∀ {d er v}, (resultNotes cfg d er v).filterMap recvAnswer = [] := by
    intro d er v
    refine unread_of fun x hx => ?_
    unfold resultNotes at hx
    rcases List.mem_append.1 hx with hx | hx
    · split at hx
      · cases hx
      · simp at hx; subst hx; rfl
    · simp at hx; subst hx; rfl
  obtain ⟨v', w', hvw, hFar⟩ := hp.farewell
  have hoM : ∃ a, oM = .ok a := by
    cases oM with
    | ok a => exact ⟨a, rfl⟩
    | panic msg => obtain ⟨-, h, -⟩ := hFar; cases h
  obtain ⟨a, rfl⟩ := hoM
  obtain ⟨rfl, rfl⟩ := hvw a rfl
  have ho0 : ∃ a, o0 = .ok a := by
    cases o0 with
    | ok a => exact ⟨a, rfl⟩
    | panic msg => obtain ⟨-, h, -⟩ := hp.upload; cases h
  obtain ⟨a0, rfl⟩ := ho0
  have hU : eU.filterMap recvAnswer = [] := by
    have h : Exec (maybeUpload cfg n m) (s.greeted m) eU (.ok v') sU := hp.upload
    unfold maybeUpload at h
    split at h
    · rcases wp_iff.1 (runUpload_exec cfg m _) _ _ _ h with ⟨msg, h', -⟩ | ⟨e1, r, er, h', rfl, -⟩
      · exact wp_iff.1 (upload_unread cfg m _) _ _ _ h'
      · rw [List.filterMap_append, hN, List.append_nil]
        exact wp_iff.1 (upload_unread cfg m _) _ _ _ h'
    · cases h; rfl
  have hD : ∃ own, eD.filterMap recvAnswer = own ∧ own.length = (if requested n 2 then 1 else 0) ∧ clientReply eD = own.head? := by
    have h : Exec (maybeDownload cfg n m) sU eD (.ok w') sD := hp.download
    unfold maybeDownload at h
    split at h
    · rename_i hq
      rcases wp_iff.1 (runDownload_exec cfg m _) _ _ _ h with ⟨msg, h', ho, -⟩ | ⟨e1, r, er, h', rfl, -, ho⟩
      · cases ho
      · cases er with
        | some x => cases ho
        | none =>
          obtain ⟨d, hd, hc⟩ := wp_iff.1 (download_reads cfg m _) _ _ _ h' ⟨_, rfl⟩
          have hloc := (wp_iff.1 (download_local cfg m _) _ _ _ h' [] (resultNotes cfg .s2c none r.mean) (by simp [Quiet]) quiet_resultNotes).2.2.2.2
          rw [List.nil_append] at hloc
          refine ⟨[d], ?_, by simp [hq], by rw [hloc, hc]; rfl⟩
          rw [List.filterMap_append, hN, List.append_nil, hd]
    · rename_i hq
      cases h
      exact ⟨[], rfl, by simp [hq], rfl⟩
  obtain ⟨own, hD, hlen, hrep⟩ := hD
  have hM : Exec (maybeMeta cfg n m) sD eM (.ok a) s' := hp.metadata
  refine ⟨⟨own, ?_, hlen, hrep⟩, fun hq => ?_, fun hq => ?_⟩
  · simp only [List.filterMap_append, h0, hU, hD, hF, List.nil_append, List.append_nil]
  · simp only [maybeMeta, hq, Bool.false_eq_true, if_false] at hM
    cases hM
    rfl
  · simp only [maybeMeta, hq, if_true] at hM
    rcases wp_iff.1 (runMeta_exec cfg m _) _ _ _ hM with ⟨msg, h', ho, -⟩ | ⟨r, er, h', -, ho⟩
    · cases ho
    · cases er with
      | some x => cases ho
      | none =>
        have hd := wp_iff.1 (meta_done m cfg _) _ _ _ h'
        rcases hd.ending r rfl (worked_stays hw) with ⟨h1, h2⟩ | ⟨last, h1, h2, h3⟩
        · refine .inl ⟨h1, ?_⟩
          have : (replies m eM).takeWhile isText = replies m eM := by
            rw [List.takeWhile_eq_self_iff]; exact List.all_eq_true.1 h1
          simp only [texts, this, List.length_map] at h2
          simpa [replies] using h2
        · refine .inr ?_
          unfold replies at h1
          generalize eM.filterMap recvAnswer = l at h1
          have hne : l ≠ [] := by rintro rfl; simp at h1
          refine ⟨l.dropLast, l.getLast hne, (List.dropLast_concat_getLast hne).symm, ?_, ?_⟩
          · rw [List.all_eq_true]
            rw [List.map_dropLast, h1, List.dropLast_concat]
            exact takeWhile_all
          · have : (l.map fun r => m.receive r MsgType.testMsg).getLast? = some last := by rw [h1]; simp
            rw [List.getLast?_map, List.getLast?_eq_some_getLast hne] at this
            simp only [Option.map_some, Option.some.injEq] at this
            rw [this]
            exact h2

section
variable {cfg : Cfg} {n : Int} {m : Messager} {s s' sU sD : Ctl} {e0 eU eD eM eF : List Ev} {o0 oM o : Outcome Unit} {oU oD : Outcome F64}
  (hp : Parts cfg n m s e0 eU eD eM eF o0 oU oD oM o sU sD s')
include hp

theorem Parts.replyLocal {pre post : List Ev} (h1 : Quiet .s2c pre) (h2 : Quiet .s2c post) : clientReply (pre ++ (eD ++ post)) = clientReply eD := by
  cases hp.ranD with
  | notReached => rw [List.nil_append, clientReply_quiet (quiet_append.2 ⟨h1, h2⟩)]; rfl
  | skipped => rw [List.nil_append, clientReply_quiet (quiet_append.2 ⟨h1, h2⟩)]; rfl
  | run _ _ _ _ _ h =>
    rcases wp_iff.1 (runDownload_exec cfg m _) _ _ _ h with ⟨msg, h', -⟩ | ⟨e1, r, er, h', rfl, -⟩
    · exact (wp_iff.1 (download_local cfg m _) _ _ _ h' _ _ h1 h2).2.2.2.2
    · have := (wp_iff.1 (download_local cfg m _) _ _ _ h' [] (resultNotes cfg .s2c er r.mean) (by simp [Quiet]) quiet_resultNotes).2.2.2.2
      rw [List.nil_append] at this
      rw [this, List.append_assoc, (wp_iff.1 (download_local cfg m _) _ _ _ h' _ _ h1 (quiet_append.2 ⟨quiet_resultNotes, h2⟩)).2.2.2.2]

theorem Parts.metaReads {post : List Ev} (hpost : ∀ x ∈ post, noDeadline x = true ∧ recvAnswer x = none) :
    (metaEvents (eM ++ post)).filterMap recvAnswer = eM.filterMap recvAnswer := by
  have hz : ∀ {l : List Ev}, (∀ x ∈ l, noDeadline x = true) → metaEvents l = [] := fun {l} hl => by
    rw [← List.append_nil l, metaEvents_skip hl]; rfl
  have hpo : post.filterMap recvAnswer = [] := unread_of fun x hx => (hpost x hx).2
  have key : ∃ a b, eM = a ++ b ∧ (∀ x ∈ a, noDeadline x = true ∧ recvAnswer x = none) ∧ (b = [] ∨ ∃ r rest, b = .call .ctxErr r :: rest) := by
    have hM := hp.metadata
    cases oD with
    | panic msg => obtain ⟨rfl, -⟩ := hM; exact ⟨[], [], rfl, by simp, .inl rfl⟩
    | ok w =>
      have hM : Exec (maybeMeta cfg n m) sD eM oM s' := hM
      unfold maybeMeta at hM
      split at hM
      · rcases wp_iff.1 (runMeta_exec cfg m _) _ _ _ hM with ⟨msg, h', -⟩ | ⟨r, er, h', -⟩
        · exact wp_iff.1 (meta_reads cfg m _) _ _ _ h'
        · exact wp_iff.1 (meta_reads cfg m _) _ _ _ h'
      · cases hM; exact ⟨[], [], rfl, by simp, .inl rfl⟩
  obtain ⟨a, b, rfl, ha, hb⟩ := key
  rw [List.append_assoc, metaEvents_skip fun x hx => (ha x hx).1, List.filterMap_append, unread_of fun x hx => (ha x hx).2, List.nil_append]
  rcases hb with rfl | ⟨r, rest, rfl⟩
  · rw [List.nil_append, hz fun x hx => (hpost x hx).1]; try rfl
  · rw [List.cons_append, metaEvents_eq, List.dropWhile_cons]
    simp only [noDeadline, Bool.false_eq_true, if_false]
    rw [← List.cons_append, List.filterMap_append, hpo, List.append_nil]

end

theorem whole_used {cfg : Cfg} {evs : List Ev} {m : Messager} {n : Int} (h : Whole cfg evs) (hs : Served cfg.kind evs m n) (hg : GoodSession m evs) :
    ∃ login reads, evs.filterMap recvAnswer = login :: reads ∧ Used n m reads (clientReply evs) ((metaEvents evs).filterMap recvAnswer) := by
  have hok := whole_good h hs hg
  obtain ⟨frame0, hf0, hl0, hr0⟩ := hs
  have hnc := worked_noCrash hg.calls
  cases h with
  | early mid t0 t1 o h1 h2 h3 h4 h5 _ =>
    exact absurd (fun x hx => hnc x (by simp [hx])) h3
  | run t0 t t1 a u eS eF oS oF r s h1 h2 =>
    rw [okay_iff (accounts_run (t0 := t0) (t := t) (t1 := t1) (a := a) (u := u) (r := r) (o := after (after oS oF) r) h1 h2), after_ok, after_ok] at hok
    have hpre := outer_pre (cfg := cfg) (t0 := t0) (t := t) (a := a) (u := u)
    have hpost := outer_post (r := r) (o := after (after oS oF) r) (t0 := t0) (t1 := t1) h2
    have hfr := firstRead_run (t0 := t0) (t := t) (t1 := t1) (a := a) (u := u) (eS := eS) (r := r) (o := after (after oS oF) r) h2
    rw [hfr] at hf0
    obtain ⟨⟨⟨v, hv⟩, -⟩, -⟩ := hok
    cases h1 with
    | crashed msg => cases hf0
    | nilLogin r' enc hnl _ _ => injection hf0 with hf0; exact absurd hl0 (hnl _ _ _ hf0)
    | refused r' x enc hnl => injection hf0 with hf0; exact absurd hl0 (hnl _ _ _ hf0)
    | noStatus frame m' n' hl hn =>
      injection hf0 with hf0
      injection hf0 with hf0
      subst hf0
      rw [(loggedIn_unique hl0 hl).2, hn] at hr0
      cases hr0
    | run frame m' n' e _ _ hl hst hex =>
      injection hf0 with hf0
      injection hf0 with hf0
      subst hf0
      obtain ⟨rfl, rfl⟩ := loggedIn_unique hl hl0
      subst hv
      obtain ⟨e0, eU, eD, eM, eL, o0, oU, oD, oM, sU, sD, rfl, hp⟩ := suite_parts hex
      have hused := hp.used (fun x hx => hg.calls x (by simp [hx]))
      have hout : ∀ {l : List Ev}, (∀ x ∈ l, outer x = true) → l.filterMap recvAnswer = [] := fun hl =>
        List.filterMap_eq_nil_iff.2 fun x hx => List.findSome?_eq_none_iff.1 (outer_recv hl) x hx
      have hrn : (requestNotes cfg n').filterMap recvAnswer = [] := by
        refine List.filterMap_eq_nil_iff.2 fun x hx => ?_
        simp only [requestNotes, List.mem_append] at hx
        rcases hx with h | h | h | h | h | h <;> (try split at h) <;> simp at h <;> subst h <;> rfl
      generalize hP : preEvents cfg t0 a t u = P at *
      generalize hQ : postEvents cfg eF r (after (after (.ok v) oF) r) t0 t1 = Q at *
      refine ⟨.ok frame, (e0 ++ (eU ++ (eD ++ (eM ++ eL)))).filterMap recvAnswer, ?_, ?_⟩
      · rw [List.filterMap_append, hout hpre, List.nil_append, List.filterMap_append, hout hpost, List.append_nil, List.filterMap_cons]
        simp only [recvAnswer]
        rw [List.filterMap_append, hrn, List.nil_append]
      have hc : clientReply (P ++ (.call .recv (.ok (.ok frame)) :: (requestNotes cfg n' ++ (e0 ++ (eU ++ (eD ++ (eM ++ eL))))) ++ Q)) = clientReply eD := by
        have hn : Quiet .s2c (.call .recv (.ok (.ok frame)) :: requestNotes cfg n') := by
          refine quiet_cons.2 ⟨rfl, fun x hx => ?_⟩
          simp only [requestNotes, List.mem_append] at hx
          rcases hx with h | h | h | h | h | h <;> (try split at h) <;> simp at h <;> subst h <;> rfl
        have q0 : Quiet .s2c e0 := isSend_quiet hp.foot0
        have qF : Quiet .s2c eL := isSend_quiet hp.footF
        have qM : Quiet .s2c eM := quiet_inMeta hp.footM
        have qU : Quiet .s2c eU := quiet_inTest (by decide) hp.footU
        have := hp.replyLocal (pre := P ++ ((.call .recv (.ok (.ok frame)) :: requestNotes cfg n') ++ (e0 ++ eU))) (post := (eM ++ eL) ++ Q)
          (quiet_append.2 ⟨fun x hx => (outer_silent hpre x hx).1, quiet_append.2 ⟨hn, quiet_append.2 ⟨q0, qU⟩⟩⟩)
          (quiet_append.2 ⟨quiet_append.2 ⟨qM, qF⟩, fun x hx => (outer_silent hpost x hx).1⟩)
        rw [← this]
        simp
      have hm : (metaEvents (P ++ (.call .recv (.ok (.ok frame)) :: (requestNotes cfg n' ++ (e0 ++ (eU ++ (eD ++ (eM ++ eL))))) ++ Q))).filterMap recvAnswer =
          eM.filterMap recvAnswer := by
        have : P ++ (.call .recv (.ok (.ok frame)) :: (requestNotes cfg n' ++ (e0 ++ (eU ++ (eD ++ (eM ++ eL))))) ++ Q) =
            (P ++ ([.call .recv (.ok (.ok frame))] ++ (requestNotes cfg n' ++ (e0 ++ (eU ++ eD))))) ++ (eM ++ (eL ++ Q)) := by simp
        rw [this, metaEvents_skip]
        · refine hp.metaReads fun x hx => ?_
          rcases List.mem_append.1 hx with hx | hx
          · exact ⟨noDeadline_isSend (hp.footF x hx), isSend_recv (hp.footF x hx)⟩
          · exact ⟨noDeadline_outer (hpost x hx), (List.findSome?_eq_none_iff.1 (outer_recv hpost)) x hx⟩
        · intro x hx
          simp only [List.mem_append, List.mem_singleton] at hx
          rcases hx with hx | rfl | hx | hx | hx | hx
          · exact noDeadline_outer (hpre x hx)
          · rfl
          · unfold requestNotes at hx
            simp only [List.mem_append] at hx
            rcases hx with h | h | h | h | h | h <;> (try split at h) <;> simp at h <;> subst h <;> rfl
          · exact noDeadline_isSend (hp.foot0 x hx)
          · exact noDeadline_inTest (hp.footU x hx)
          · exact noDeadline_inTest (hp.footD x hx)
      rw [hc, hm]
      exact hused

end Verif.Ndt5
