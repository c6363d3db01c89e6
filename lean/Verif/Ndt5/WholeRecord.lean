import Verif.Ndt5.WholeOrder
import Verif.Spec.Archive

/-! # The archival record of whole control connections -/

namespace Verif.Ndt5
open Verif.Go Verif.Spec

set_option maxRecDepth 20000
set_option linter.unusedSimpArgs false

theorem clocks_append (a b : List Ev) : clocks (a ++ b) = clocks a ++ clocks b := List.filterMap_append

/-- The event is not the question for the deadline. -/
def noDeadline : Ev → Bool
  | .call .ctxErr _ => false
  | _ => true

theorem metaEvents_eq (e : List Ev) : metaEvents e = e.dropWhile noDeadline := by
  unfold metaEvents
  congr

theorem metaEvents_skip {a b : List Ev} (h : ∀ x ∈ a, noDeadline x = true) : metaEvents (a ++ b) = metaEvents b := by
  rw [metaEvents_eq, metaEvents_eq, List.dropWhile_append_of_pos h]

theorem noDeadline_outer {x : Ev} (h : outer x = true) : noDeadline x = true := by
  cases x with
  | call q r => cases q <;> first | rfl | (simp [outer, ofDisk] at h; done)
  | _ => rfl

theorem noDeadline_isSend {x : Ev} (h : isSend x = true) : noDeadline x = true := by
  unfold isSend at h
  split at h
  · rfl
  · cases h

theorem noDeadline_inTest {cfg : Cfg} {d : Dir} {x : Ev} (h : inTest cfg d x = true) : noDeadline x = true := by
  cases x with
  | call q r => cases q <;> first | rfl | (simp [inTest, ofTest] at h; done)
  | _ => rfl

theorem metaLoop_first (m : Messager) {n : Nat} {res : List NameValue} {k : Nat} {s s' : Ctl} {e : List Ev} {o : Outcome ((List NameValue × Nat) × Option Err)}
    (h : Exec (metaLoop m (n + 1) res k) s e o s') : ∃ r rest, e = .call .ctxErr r :: rest := by
  rw [metaLoop] at h
  cases h
  exact ⟨_, _, rfl⟩

/-- All that is read in a meta test is read after the first question for the deadline. -/
theorem meta_reads (cfg : Cfg) (m : Messager) (s : Ctl) : wp (metaManage cfg m) s (fun e _ _ =>
    ∃ a b, e = a ++ b ∧ (∀ x ∈ a, noDeadline x = true ∧ recvAnswer x = none) ∧ (b = [] ∨ ∃ r rest, b = .call .ctxErr r :: rest)) := by
  refine wp_opaque fun Q hQ => ?_
  wp_paths [metaManage, wp_metaLoop]
  all_goals refine hQ _ _ _ ?_
  all_goals clear hQ
  all_goals first
    | (obtain ⟨r, rest, rfl⟩ := metaLoop_first m ‹Exec (metaLoop _ _ _ _) _ _ _ _›
       exact ⟨[_, _], _, rfl, by simp [noDeadline, recvAnswer], .inr ⟨_, _, rfl⟩⟩)
    | exact ⟨_, [], (List.append_nil _).symm, by simp [noDeadline, recvAnswer], .inl rfl⟩

theorem meta_texts {cfg : Cfg} {m : Messager} {s s' : Ctl} {e : List Ev} {l : List NameValue} {er : Option Err}
    (h : Exec (metaManage cfg m) s e (.ok (l, er)) s') (post : List Ev) (hpost : ∀ x ∈ post, noDeadline x = true ∧ recvAnswer x = none) :
    (l = [] ∧ er ≠ none) ∨ l = (texts m (metaEvents (e ++ post))).filterMap pairOf := by
  have hd := wp_iff.1 (meta_done m cfg s) _ _ _ h
  cases er with
  | some x => exact .inl ⟨hd.failed l x rfl, by simp⟩
  | none =>
    refine .inr ?_
    rw [(hd.pairs l rfl).1]
    obtain ⟨a, b, rfl, ha, hb⟩ := wp_iff.1 (meta_reads cfg m s) _ _ _ h
    have hz : ∀ {x : List Ev}, (∀ y ∈ x, recvAnswer y = none) → replies m x = [] := by
      intro x hx
      unfold replies
      rw [List.filterMap_eq_nil_iff.2 hx]; rfl
    have : replies m (metaEvents ((a ++ b) ++ post)) = replies m (a ++ b) := by
      rw [List.append_assoc, metaEvents_skip fun x hx => (ha x hx).1, replies_append, hz fun x hx => (ha x hx).2, List.nil_append]
      rcases hb with rfl | ⟨r, rest, rfl⟩
      · rw [List.nil_append, ← List.append_nil post, metaEvents_skip fun x hx => (hpost x hx).1]; rfl
      · rw [List.cons_append, metaEvents_eq, List.dropWhile_cons]
        simp only [noDeadline, Bool.false_eq_true, if_false]
        rw [← List.cons_append, replies_append, hz fun x hx => (hpost x hx).2, List.append_nil]
    unfold texts
    rw [this]

theorem encodable_iff (r : Record) : r.encodable = true ↔ FiniteRates r := by
  have hfin : ∀ x : F64, x.isFinite = true ↔ ∃ q, x = .fin q := by
    intro x; cases x <;> simp [F64.isFinite]
  unfold Record.encodable FiniteRates
  cases r.c2s <;> cases r.s2c <;> simp [hfin]

theorem isSend_recv {x : Ev} (h : isSend x = true) : recvAnswer x = none := by
  unfold isSend at h
  split at h
  · rfl
  · cases h

/-- What the session leaves in the record. -/
structure Left (cfg : Cfg) (s s' : Ctl) (ok : Prop) (evs : List Ev) : Prop where
  same : ∃ mp c d l, s'.record = { s.record with messageProtocol := mp, c2s := c, s2c := d, clientMetadata := l }
  encoding : (∃ m n, Served cfg.kind evs m n ∧ s'.record.messageProtocol = encodingText m) ∨
    ((¬ ∃ m n, Served cfg.kind evs m n) ∧ s'.record.messageProtocol = [] ∧ s'.record.c2s = none ∧ s'.record.s2c = none ∧ s'.record.clientMetadata = [])
  upload : (s'.record.c2s = none ∧ count (countsResult cfg.label (str "c2s")) evs = 0) ∨
    (count (countsResult cfg.label (str "c2s")) evs = 1 ∧ ∃ error : Option Err, s'.record.c2s = some { uploadRecord evs with error := error.getD [] } ∧
      count (countsErrorResult cfg.label (str "c2s")) evs = if error.isSome then 1 else 0)
  download : (s'.record.s2c = none ∧ count (countsResult cfg.label (str "s2c")) evs = 0) ∨
    (count (countsResult cfg.label (str "s2c")) evs = 1 ∧ ∃ m n, Served cfg.kind evs m n ∧
      ∃ error : Option Err, s'.record.s2c = some { downloadRecord cfg.lib m evs with error := error.getD [] } ∧
      count (countsErrorResult cfg.label (str "s2c")) evs = if error.isSome then 1 else 0)
  metadata : (s'.record.clientMetadata = [] ∧ (ok → ∀ m n, Served cfg.kind evs m n → requested n 5 = false)) ∨
    ∃ m n, Served cfg.kind evs m n ∧ requested n 5 = true ∧ s'.record.clientMetadata = (texts m (metaEvents evs)).filterMap pairOf

theorem Sess.left {cfg : Cfg} {s s' : Ctl} {eS pre post : List Ev} {oS : Outcome Unit} (h : Sess cfg s eS oS s')
    (hpre : ∀ x ∈ pre, outer x = true) (hpost : ∀ x ∈ post, outer x = true)
    (hmp : s.record.messageProtocol = []) (hc : s.record.c2s = none) (hd : s.record.s2c = none) (hm : s.record.clientMetadata = []) :
    Left cfg s s' (∃ v, oS = .ok v) (pre ++ (eS ++ post)) := by
  have hfr : firstRead (pre ++ (eS ++ post)) = firstRead eS := by
    unfold firstRead
    rw [List.findSome?_append, List.findSome?_append, outer_recv hpre, outer_recv hpost]
    cases List.findSome? recvAnswer eS <;> rfl
  have hnone : (∀ d, Silent d eS) → (¬ ∃ m n, Served cfg.kind (pre ++ (eS ++ post)) m n) → s'.record = s.record → Left cfg s s' (∃ v, oS = .ok v) (pre ++ (eS ++ post)) := by
    intro hq hns hs
    have hsil : ∀ d, Silent d (pre ++ (eS ++ post)) := fun d =>
      silent_append.2 ⟨outer_silent hpre, silent_append.2 ⟨hq d, outer_silent hpost⟩⟩
    refine ⟨⟨_, _, _, _, hs⟩, .inr ⟨hns, ?_⟩, .inl ?_, .inl ?_, .inl ?_⟩
    · rw [hs]; exact ⟨hmp, hc, hd, hm⟩
    · rw [hs]; exact ⟨hc, (only_results .c2s _).zero _ (hsil _)⟩
    · rw [hs]; exact ⟨hd, (only_results .s2c _).zero _ (hsil _)⟩
    · rw [hs]; exact ⟨hm, fun _ m n hs => absurd ⟨m, n, hs⟩ hns⟩
  cases h with
  | crashed msg =>
    refine hnone (fun d => by simp [silent_cons, silent_nil, ofTest, countsResult]) ?_ rfl
    rintro ⟨m, n, f, hf, -⟩
    rw [hfr] at hf; cases hf
  | nilLogin r' enc hnl _ _ =>
    refine hnone (fun d => by simp [silent_cons, silent_nil, ofTest, countsResult]) ?_ rfl
    rintro ⟨m, n, f, hf, hl, -⟩
    rw [hfr] at hf
    injection hf with hf
    exact hnl f m n hf hl
  | refused r' x enc hnl =>
    refine hnone (fun d => ?_) ?_ rfl
    · have : ¬ str "control" = d.name := by cases d <;> decide
      simp [silent_cons, silent_nil, ofTest, countsResult, test_eq, this]
    · rintro ⟨m, n, f, hf, hl, -⟩
      rw [hfr] at hf
      injection hf with hf
      exact hnl f m n hf hl
  | noStatus frame m n hl hn =>
    refine hnone (fun d => ?_) ?_ rfl
    · have : ¬ str "control" = d.name := by cases d <;> decide
      simp [silent_cons, silent_nil, ofTest, countsResult, test_eq, this]
    · rintro ⟨m', n', f, hf, hl', hs⟩
      rw [hfr] at hf
      injection hf with hf
      injection hf with hf
      subst hf
      rw [← (loggedIn_unique hl hl').2, hn] at hs
      cases hs
  | run frame m n e _ _ hl hst hex =>
    obtain ⟨e0, eU, eD, eM, eL, o0, oU, oD, oM, sU, sD, rfl, hp⟩ := suite_parts hex
    have hserved : Served cfg.kind (pre ++ ((.call .recv (.ok (.ok frame)) :: (requestNotes cfg n ++ (e0 ++ (eU ++ (eD ++ (eM ++ eL)))))) ++ post)) m n :=
      ⟨frame, by rw [hfr]; rfl, hl, hst⟩
    have hpreS : ∀ d, Silent d (pre ++ (.call .recv (.ok (.ok frame)) :: requestNotes cfg n)) := fun d =>
      silent_append.2 ⟨outer_silent hpre, silent_cons.2 ⟨⟨rfl, fun _ => rfl⟩, requestNotes_silent⟩⟩
    have hpostS : ∀ d, Silent d post := fun d => outer_silent hpost
    have hall : pre ++ ((.call .recv (.ok (.ok frame)) :: (requestNotes cfg n ++ (e0 ++ (eU ++ (eD ++ (eM ++ eL)))))) ++ post) =
        (pre ++ (.call .recv (.ok (.ok frame)) :: requestNotes cfg n)) ++ ((e0 ++ (eU ++ (eD ++ (eM ++ eL)))) ++ post) := by simp
    obtain ⟨c, d, l, hr, hU, hD, hM⟩ := hp.record hpreS hpostS hc hd hm
    rw [← hall] at hU hD
    have henc : encodingName m.encoding.toInt = encodingText m := by cases m <;> rfl
    generalize hg : pre ++ ((.call .recv (.ok (.ok frame)) :: (requestNotes cfg n ++ (e0 ++ (eU ++ (eD ++ (eM ++ eL)))))) ++ post) = all at *
    refine ⟨⟨_, c, d, l, hr⟩, .inl ⟨m, n, hserved, by rw [hr]; exact henc⟩, ?_, ?_, ?_⟩
    · rw [hr]
      rcases hU with ⟨h1, h2⟩ | ⟨er, h1, h2, h3, -⟩
      · exact .inl ⟨h1, h2 _⟩
      · exact .inr ⟨h2, er, h1, h3⟩
    · rw [hr]
      rcases hD with ⟨h1, h2⟩ | ⟨er, h1, h2, h3, -⟩
      · exact .inl ⟨h1, h2 _⟩
      · exact .inr ⟨h2, m, n, hserved, er, h1, h3⟩
    · rw [hr]
      rcases hM with ⟨rfl, h0⟩ | ⟨hb, er, h1, h2⟩
      · refine .inl ⟨rfl, fun hv m' n' hs' => ?_⟩
        obtain ⟨f, hf, hl', -⟩ := hs'
        obtain ⟨f', hf', hl'', -⟩ := hserved
        rw [hf] at hf'; cases hf'
        rw [(loggedIn_unique hl' hl'').2]; exact h0 hv
      · have hM := meta_texts h1 (eL ++ post) (fun x hx => by
          rcases List.mem_append.1 hx with hx | hx
          · exact ⟨noDeadline_isSend (hp.footF x hx), isSend_recv (hp.footF x hx)⟩
          · exact ⟨noDeadline_outer (hpost x hx), (List.findSome?_eq_none_iff.1 (outer_recv hpost)) x hx⟩)
        rcases hM with ⟨rfl, h0⟩ | hM
        · cases er with
          | none => exact absurd rfl h0
          | some x =>
            refine .inl ⟨rfl, fun ⟨v, hv⟩ => ?_⟩
            rw [h2 x rfl] at hv; cases hv
        · refine .inr ⟨m, n, hserved, hb, ?_⟩
          rw [hall]
          have : (pre ++ (.call .recv (.ok (.ok frame)) :: requestNotes cfg n)) ++ ((e0 ++ (eU ++ (eD ++ (eM ++ eL)))) ++ post) =
              (pre ++ ([.call .recv (.ok (.ok frame))] ++ (requestNotes cfg n ++ (e0 ++ (eU ++ eD))))) ++ (eM ++ (eL ++ post)) := by simp
          rw [this, metaEvents_skip]
          · exact hM
          · intro x hx
            simp only [List.mem_append, List.mem_singleton] at hx
            rcases hx with hx | rfl | hx | hx | hx | hx
            · exact noDeadline_outer (hpre x hx)
            · rfl
            · unfold requestNotes at hx
              simp only [List.mem_append] at hx
              rcases hx with h | h | h | h | h | h <;> (try split at h) <;> simp at h <;> subst h <;> rfl
            · exact noDeadline_isSend (hp.foot0 x hx)
            · exact noDeadline_inTest (hp.footU x hx)
            · exact noDeadline_inTest (hp.footD x hx)

theorem inner_written {e : List Ev} (h : ∀ x ∈ e, inner x = true) : written e = [] ∧ count closesControl e = 0 := by
  constructor
  · refine List.filterMap_eq_nil_iff.2 fun x hx => ?_
    have := h x hx
    cases x with
    | call q r => cases q <;> first | rfl | (simp [inner, ofDisk] at this; done)
    | _ => rfl
  · refine count_eq_zero fun x hx => ?_
    have := h x hx
    cases x with
    | call q r =>
      cases q <;> first
        | rfl
        | (rename_i c; cases c <;> first | rfl | (simp [inner, ofDisk] at this; done))
    | _ => rfl

/-- The record of a control connection that got as far as having a UUID. -/
theorem Whole.archive {cfg : Cfg} {evs : List Ev} (h : Whole cfg evs) (hu : ∃ u, .call (.uuid .control) (.ok u) ∈ evs) :
    ∃ A B r, evs = A ++ B ∧ count closesControl A = 0 ∧ (∃ o rest, B = .call (.close .control) o :: rest) ∧ count closesControl B = 1 ∧
      Archived cfg evs r ∧ written B = [] ∧ (written A).length ≤ 1 ∧ (DiskWorks evs → ∃ path, written A = (if r.encodable then [(path, r)] else []) ∧
        (r.uuid ≠ badUUID → path = pathJoin [pathJoin [cfg.dataDir, cfg.lib.dateDir r.startTime], r.uuid ++ str ".json"])) := by
  cases h with
  | early mid t0 t1 o h1 h2 h3 h4 h5 h6 =>
    obtain ⟨u, hu⟩ := hu
    simp only [List.mem_append] at hu
    rcases hu with hu | hu | hu | hu
    · simp at hu
    · exact absurd hu (h6 u)
    · cases o <;> simp [endNotes] at hu
    · simp at hu
  | run t0 t t1 a u eS eF oS oF r s h1 h2 =>
    have hpre := outer_pre (cfg := cfg) (t0 := t0) (t := t) (a := a) (u := u)
    have hpost := outer_post (r := r) (o := after (after oS oF) r) (t0 := t0) (t1 := t1) h2
    have hl := h1.left hpre hpost rfl rfl rfl rfl
    obtain ⟨tE, hclk, hw⟩ := h2.works
    have hin := inner_written h1.inner
    have hF : count closesControl eF = 0 := count_eq_zero fun x hx => (h2.outer x hx).2.1
    obtain ⟨mp, c, d, l, hsame⟩ := hl.same
    refine ⟨preEvents cfg t0 a t u ++ (eS ++ eF), .call (.close .control) r :: (endNotes cfg (after (after oS oF) r) ++
      [.clock t1, .emit (.duration cfg.label (t1 - t0)), .emit (.activeTests cfg.label (-1))]), { s.record with endTime := tE },
      by simp [postEvents], ?_, ⟨_, _, rfl⟩, ?_, ?_, ?_, ?_, ?_⟩
    · rw [count_append, count_append, hin.2, hF]; rfl
    · cases after (after oS oF) r <;> rfl
    · refine ⟨?_, ?_, ?_, ⟨t0, clocks eS, t1, ?_⟩, hl.encoding, label_eq cfg ▸ hl.upload, label_eq cfg ▸ hl.download, ?_⟩
      · rw [hsame]; exact ⟨rfl, rfl, (protocol_eq _).symm, rfl⟩
      · rw [hsame]; rfl
      · rw [hsame]; rfl
      · have hc : clocks (postEvents cfg eF r (after (after oS oF) r) t0 t1) = [tE, t1] := by
          rw [postEvents, clocks_append, clocks, hclk]
          cases after (after oS oF) r <;> rfl
        rw [clocks_append, clocks_append, hc, hsame]
        rfl
      · have hok := okay_iff (accounts_run (t0 := t0) (t := t) (t1 := t1) (a := a) (u := u) (r := r) (o := after (after oS oF) r) h1 h2)
        rw [after_ok, after_ok, ← label_eq] at hok
        exact hl.metadata.imp (fun ⟨h3, h4⟩ => ⟨h3, fun hk => h4 (hok.1 hk).1.1⟩) id
    · cases after (after oS oF) r <;> rfl
    · rw [written_append, written_append, hin.1]; exact h2.atMost
    · intro hdw
      obtain ⟨path, h3, h4⟩ := hw fun x hx => hdw x (by simp [postEvents, hx])
      refine ⟨path, ?_, h4⟩
      rw [written_append, written_append, hin.1, h3]; rfl

end Verif.Ndt5
