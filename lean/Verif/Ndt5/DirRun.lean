import Verif.Ndt5.SuiteFacts

/-! # One throughput test within the events of a session -/

namespace Verif.Ndt5
open Verif.Go Verif.Spec

set_option maxRecDepth 20000
set_option linter.unusedSimpArgs false

/-- No event belongs to test `d`, nor counts its result. -/
def Silent (d : Dir) (e : List Ev) : Prop := ∀ x ∈ e, ofTest d x = false ∧ ∀ l, countsResult l d.name x = false

theorem silent_nil (d : Dir) : Silent d [] := fun _ h => (List.not_mem_nil h).elim

theorem silent_append {d : Dir} {a b : List Ev} : Silent d (a ++ b) ↔ Silent d a ∧ Silent d b := by
  simp only [Silent, List.mem_append]
  exact ⟨fun h => ⟨fun x hx => h x (.inl hx), fun x hx => h x (.inr hx)⟩, fun h x hx => hx.elim (h.1 x) (h.2 x)⟩

theorem silent_cons {d : Dir} {a : Ev} {b : List Ev} : Silent d (a :: b) ↔ (ofTest d a = false ∧ ∀ l, countsResult l d.name a = false) ∧ Silent d b := by
  simp [Silent]

theorem silent_isSend {d : Dir} {e : List Ev} (h : ∀ x ∈ e, isSend x = true) : Silent d e := by
  intro x hx
  have := h x hx
  unfold isSend at this
  split at this
  · exact ⟨rfl, fun _ => rfl⟩
  · cases this

theorem silent_inTest {cfg : Cfg} {d d' : Dir} (hd : d ≠ d') {e : List Ev} (h : ∀ x ∈ e, inTest cfg d x = true) : Silent d' e := by
  intro x hx
  refine ⟨inTest_other hd (h x hx), fun l => ?_⟩
  have := h x hx
  cases x with
  | emit o =>
    cases o <;> simp_all [inTest, countsResult]
    cases d <;> cases d' <;> simp_all [Dir.name] <;> (intro _; decide)
  | _ => rfl

theorem silent_inMeta {cfg : Cfg} {d : Dir} {e : List Ev} (h : ∀ x ∈ e, inMeta cfg x = true) : Silent d e := by
  intro x hx
  refine ⟨inMeta_other (h x hx), fun l => ?_⟩
  have := h x hx
  cases x with
  | emit o => cases o <;> simp_all [inMeta, countsResult]
  | _ => rfl

/-- Predicates that hold only for events of test `d`. -/
structure OnlyOf (d : Dir) (p : Ev → Bool) : Prop where
  zero : ∀ e, Silent d e → count p e = 0

theorem only_ofTest {d : Dir} {p : Ev → Bool} (h : ∀ x, p x = true → ofTest d x = true) : OnlyOf d p :=
  ⟨fun e he => count_eq_zero fun x hx => by
    cases hp : p x with
    | false => rfl
    | true => have := h x hp; rw [(he x hx).1] at this; cases this⟩

theorem only_opens (d : Dir) : OnlyOf d (opensListener d) := only_ofTest fun x h => by
  unfold opensListener at h; split at h <;> simp_all [ofTest]
theorem only_closes (d : Dir) : OnlyOf d (closesListener d) := only_ofTest fun x h => by
  unfold closesListener at h; split at h <;> simp_all [ofTest]
theorem only_hands (d : Dir) : OnlyOf d (handsConn d) := only_ofTest fun x h => by
  unfold handsConn at h; split at h <;> simp_all [ofTest]
theorem only_handsErr (d : Dir) : OnlyOf d (handsConnAndError d) := only_ofTest fun x h => by
  unfold handsConnAndError at h; split at h <;> simp_all [ofTest]
theorem only_nothing (d : Dir) : OnlyOf d (handsNothing d) := only_ofTest fun x h => by
  unfold handsNothing at h; split at h <;> simp_all [ofTest]
theorem only_closesConn (d : Dir) : OnlyOf d (closesConn d) := only_ofTest fun x h => by
  unfold closesConn at h; split at h <;> simp_all [ofTest]
theorem only_errors (d : Dir) (l : Bytes) : OnlyOf d (countsError l d.name) := only_ofTest fun x h => by
  unfold countsError at h; split at h <;> simp_all [ofTest, test_eq]
theorem only_results (d : Dir) (l : Bytes) : OnlyOf d (countsResult l d.name) :=
  ⟨fun _ he => count_eq_zero fun x hx => (he x hx).2 l⟩
theorem only_errorResults (d : Dir) (l : Bytes) : OnlyOf d (countsErrorResult l d.name) :=
  ⟨fun e he => count_eq_zero fun x hx => by
    have := (he x hx).2 l
    cases x with
    | emit o =>
      cases o <;> simp_all [countsResult, countsErrorResult]
    | _ => rfl⟩

/-- The events of a session around those of test `d`. -/
inductive DirRun (cfg : Cfg) (m : Messager) (d : Dir) (req : Bool) (done : Prop) : List Ev → Prop
  | silent (e : List Ev) : Silent d e → (done → req = false) → DirRun cfg m d req done e
  | around (A E B : List Ev) (ok : Prop) : req = true → Silent d A → TestPart cfg m d E ok → Silent d B → (done → ok) → (¬ ok → attempts B = []) →
      DirRun cfg m d req done (A ++ (E ++ B))

theorem DirRun.widen {cfg : Cfg} {m : Messager} {d : Dir} {req : Bool} {done done' : Prop} {e pre post : List Ev} (h : DirRun cfg m d req done e)
    (h1 : Silent d pre) (h2 : Silent d post) (h3 : attempts post = []) (hd : done' → done) : DirRun cfg m d req done' (pre ++ (e ++ post)) := by
  cases h with
  | silent _ h hr => exact .silent _ (silent_append.2 ⟨h1, silent_append.2 ⟨h, h2⟩⟩) fun h => hr (hd h)
  | around A E B ok hr hA hE hB hok hs =>
    have : pre ++ ((A ++ (E ++ B)) ++ post) = (pre ++ A) ++ (E ++ (B ++ post)) := by simp only [List.append_assoc]
    rw [this]
    exact .around _ _ _ ok hr (silent_append.2 ⟨h1, hA⟩) hE (silent_append.2 ⟨hB, h2⟩) (fun h => hok (hd h)) fun hn => by
      rw [attempts_append, hs hn, h3]; rfl

section
variable {cfg : Cfg} {n : Int} {m : Messager} {s s' sU sD : Ctl} {e0 eU eD eM eF : List Ev} {o0 oM o : Outcome Unit} {oU oD : Outcome F64}
variable (hp : Parts cfg n m s e0 eU eD eM eF o0 oU oD oM o sU sD s')
include hp

theorem Parts.okM (h : ∃ v, o = .ok v) : ∃ v, oM = .ok v := by
  obtain ⟨v, w, -, hf⟩ := hp.farewell
  exact Classical.byContradiction fun hn => (next_nil hf hn).2.1 h
theorem Parts.okD (h : ∃ v, o = .ok v) : ∃ v, oD = .ok v :=
  Classical.byContradiction fun hn => (next_nil hp.metadata hn).2.1 (hp.okM h)
theorem Parts.okU (h : ∃ v, o = .ok v) : ∃ v, oU = .ok v :=
  Classical.byContradiction fun hn => (next_nil hp.download hn).2.1 (hp.okD h)
theorem Parts.ok0 (h : ∃ v, o = .ok v) : ∃ v, o0 = .ok v :=
  Classical.byContradiction fun hn => (next_nil hp.upload hn).2.1 (hp.okU h)

theorem Parts.runU : DirRun cfg m .c2s (requested n 1) (∃ v, o = .ok v) (e0 ++ (eU ++ (eD ++ (eM ++ eF)))) := by
  have sA : Silent .c2s e0 := silent_isSend hp.foot0
  have sB : Silent .c2s (eD ++ (eM ++ eF)) := silent_append.2 ⟨silent_inTest (by decide) hp.footD, silent_append.2 ⟨silent_inMeta hp.footM,
    silent_isSend hp.footF⟩⟩
  cases hr : hp.ranU with
  | notReached _ h => exact .silent _ (silent_append.2 ⟨sA, sB⟩) fun hd => absurd (hp.ok0 hd) h
  | skipped _ h => exact .silent _ (silent_append.2 ⟨sA, sB⟩) fun _ => h
  | run _ _ _ h0 hb h =>
    refine .around _ _ _ (∃ v, oU = .ok v) hb sA (wp_iff.1 (upload_part cfg m _) _ _ _ h) sB hp.okU ?_
    intro hn
    have h0 := next_nil hp.download hn
    have h1 := next_nil hp.metadata h0.2.1
    obtain ⟨v, w, hvw, h⟩ := hp.farewell
    have h2 := next_nil h h1.2.1
    rw [h0.1, h1.1, h2.1]; rfl

theorem Parts.runD : DirRun cfg m .s2c (requested n 2) (∃ v, o = .ok v) (e0 ++ (eU ++ (eD ++ (eM ++ eF)))) := by
  have sA : Silent .s2c (e0 ++ eU) := silent_append.2 ⟨silent_isSend hp.foot0, silent_inTest (by decide) hp.footU⟩
  have sB : Silent .s2c (eM ++ eF) := silent_append.2 ⟨silent_inMeta hp.footM, silent_isSend hp.footF⟩
  have he : e0 ++ (eU ++ (eD ++ (eM ++ eF))) = (e0 ++ eU) ++ (eD ++ (eM ++ eF)) := by simp only [List.append_assoc]
  rw [he]
  cases hr : hp.ranD with
  | notReached _ h => exact .silent _ (silent_append.2 ⟨sA, sB⟩) fun hd => absurd (hp.okU hd) h
  | skipped _ h => exact .silent _ (silent_append.2 ⟨sA, sB⟩) fun _ => h
  | run _ _ _ h0 hb h =>
    refine .around _ _ _ (∃ v, oD = .ok v) hb sA (wp_iff.1 (download_part cfg m _) _ _ _ h) sB hp.okD ?_
    intro hn
    have h1 := next_nil hp.metadata hn
    obtain ⟨v, w, hvw, h⟩ := hp.farewell
    have h2 := next_nil h h1.2.1
    rw [h1.1, h2.1]; rfl

end

/-- The sums of a session are those of the test. -/
theorem count_around {d : Dir} {p : Ev → Bool} (hp : OnlyOf d p) {A E B : List Ev} (hA : Silent d A) (hB : Silent d B) :
    count p (A ++ (E ++ B)) = count p E := by
  rw [count_append, count_append, hp.zero A hA, hp.zero B hB]; omega

/-- What the events of a session say about test `d`. -/
structure DirFacts (cfg : Cfg) (m : Messager) (d : Dir) (req : Bool) (done : Prop) (e : List Ev) : Prop where
  errors : ∀ l, count (countsError l d.name) e = count (countsErrorResult l d.name) e
  results : count (countsResult cfg.label d.name) e ≤ 1
  doneResult : done → count (countsResult cfg.label d.name) e = if req then 1 else 0
  notRequested : req = false → Silent d e
  opens : count (opensListener d) e ≤ 1
  doneListener : done → count (opensListener d) e = count (closesListener d) e
  listener : count (opensListener d) e = count (closesListener d) e ∨
    count (opensListener d) e = count (closesListener d) e + 1 ∧
      ∃ before port, attempts e = before ++ [m.frame MsgType.testPrepare (itoa port)] ∧ (attempts e ≠ sent e ∨ ¬ NoCrash e)
  hands : count (handsConn d) e ≤ 1
  conns : NoCrash e → count (handsNothing d) e = 0 → count (handsConn d) e = count (closesConn d) e + count (handsConnAndError d) e

theorem sent_le_prefix (e : List Ev) : (sent e).length ≤ (attempts e).length := sent_sublist e

theorem DirRun.facts {cfg : Cfg} {m : Messager} {d : Dir} {req : Bool} {done : Prop} {e : List Ev} (h : DirRun cfg m d req done e) :
    DirFacts cfg m d req done e := by
  cases h with
  | silent _ h hr =>
    have hz : ∀ {p}, OnlyOf d p → count p e = 0 := fun hp => hp.zero e h
    refine ⟨?_, ?_, ?_, fun _ => h, ?_, ?_, .inl ?_, ?_, ?_⟩
    · intro l; rw [hz (only_errors d l), hz (only_errorResults d l)]
    · rw [hz (only_results d _)]; omega
    · intro hd; rw [hz (only_results d _), hr hd]; rfl
    · rw [hz (only_opens d)]; omega
    · intro _; rw [hz (only_opens d), hz (only_closes d)]
    · rw [hz (only_opens d), hz (only_closes d)]
    · rw [hz (only_hands d)]; omega
    · intros; rw [hz (only_hands d), hz (only_closesConn d), hz (only_handsErr d)]
  | around A E B ok hr hA hE hB hok hs =>
    have hz : ∀ {p}, OnlyOf d p → count p (A ++ (E ++ B)) = count p E := fun hp => count_around hp hA hB
    refine ⟨?_, ?_, ?_, ?_, ?_, ?_, ?_, ?_, ?_⟩
    · intro l; rw [hz (only_errors d l), hz (only_errorResults d l)]; exact hE.errors l
    · rw [hz (only_results d _)]; exact hE.results
    · intro hd; rw [hz (only_results d _), hr]; exact hE.okResult (hok hd)
    · rw [hr]; nofun
    · rw [hz (only_opens d)]; exact hE.opens
    · intro hd; rw [hz (only_opens d), hz (only_closes d)]; exact hE.okListener (hok hd)
    · rw [hz (only_opens d), hz (only_closes d)]
      rcases hE.listener with h | ⟨h1, port, h2, h3⟩
      · exact .inl h
      · refine .inr ⟨h1, attempts A, port, ?_, ?_⟩
        · have hn : ¬ ok := fun h => by have := hE.okListener h; omega
          rw [attempts_append, attempts_append, hs hn, h2, List.append_nil]
        · rcases h3 with h3 | h3
          · refine .inl fun h => ?_
            have h4 := congrArg List.length h
            have h5 := sent_sublist A
            have h6 := sent_sublist B
            rw [attempts_append, attempts_append, sent_append, sent_append, h2, h3] at h4
            simp only [List.length_append, List.length_cons, List.length_nil] at h4
            omega
          · exact .inr fun h => h3 (noCrash_append.1 (noCrash_append.1 h).2).1
    · rw [hz (only_hands d)]; exact hE.hands
    · intro hn h0
      rw [hz (only_nothing d)] at h0
      rw [hz (only_hands d), hz (only_closesConn d), hz (only_handsErr d)]
      exact hE.conns (noCrash_append.1 (noCrash_append.1 hn).2).1 h0

end Verif.Ndt5
