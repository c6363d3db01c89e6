import Mathlib.Data.List.TakeWhile
import Verif.Ndt5.MetaLemmas

/-!
# The meta test (C23, C24)
-/

namespace Verif.Props
open Verif.Go Verif.Ndt5 Verif.Spec

section
variable {σ : Type} {cfg : Cfg} {m : Messager} {s s' : σ} {evs : List Ev}

/-- C23: whatever the client sends, at most 20 pairs are stored, names have at most 63 bytes and values at most 255 bytes. -/
theorem C23_metadata_bounded {out : List NameValue × Option Err} (h : Exec (metaManage cfg m) s evs (.ok out) s') :
    out.1.length ≤ 20 ∧ ∀ nv ∈ out.1, nv.name.length ≤ 63 ∧ nv.value.length ≤ 255 := by
  have hd := wp_iff.1 (meta_done m cfg s) _ _ _ h
  obtain ⟨r, er⟩ := out
  cases er with
  | some er => simp [hd.failed r er rfl]
  | none =>
    have hr := (hd.pairs r rfl).1
    have hb := hd.bound _ rfl
    simp only [hr]
    refine ⟨Nat.le_trans (List.length_filterMap_le ..) hb, ?_⟩
    intro nv hnv
    obtain ⟨t, _, ht⟩ := List.mem_filterMap.1 hnv
    unfold pairOf at ht
    split at ht
    · injection ht with ht; subst ht; simp only [List.length_take]; omega
    · simp at ht

/-- C24: a meta test that ends without an error stores, in order, exactly the pairs of the texts received; these are all the
client sent before an empty message (received without error), or 20 messages. -/
theorem C24_stored_faithfully {pairs : List NameValue} (h : Exec (metaManage cfg m) s evs (.ok (pairs, none)) s')
    (hd : DeadlineStays evs) :
    pairs = (texts m evs).filterMap pairOf ∧
    ((replies m evs = (replies m evs).takeWhile isText ∧ (texts m evs).length = 20) ∨
      ∃ last, replies m evs = (replies m evs).takeWhile isText ++ [last] ∧ last.1.getD [] = [] ∧ last.2 = none ∧
        (texts m evs).length < 20) := by
  have hm := wp_iff.1 (meta_done m cfg s) _ _ _ h
  refine ⟨(hm.pairs _ rfl).1, ?_⟩
  rcases hm.ending _ rfl hd with ⟨h1, h2⟩ | ⟨last, h1, h2, h3⟩
  · exact .inl ⟨(List.takeWhile_eq_self_iff.2 (by simpa using h1)).symm, h2⟩
  · refine .inr ⟨last, h1, h2, h3, ?_⟩
    have := congrArg List.length h1
    rw [List.length_append, List.length_singleton] at this
    have h5 := hm.reads _ rfl
    have h4 : (texts m evs).length = ((replies m evs).takeWhile isText).length := by simp [texts]
    omega

/-- C24: if nothing crashed, a meta test ends without an error exactly if every message could be sent, the deadline was never found
to have passed and nothing was received with an error. -/
theorem C24_success_iff {out : List NameValue × Option Err} (h : Exec (metaManage cfg m) s evs (.ok out) s')
    (hn : NoCrash evs) (hd : DeadlineStays evs) :
    out.2 = none ↔ (attempts evs = sent evs ∧ ¬ expired evs ∧ ∀ r ∈ replies m evs, r.2 = none) := by
  have hm := wp_iff.1 (meta_done m cfg s) _ _ _ h
  have hs := (wp_iff.1 (meta_onScript m cfg s) _ _ _ h).2
  obtain ⟨r, er⟩ := out
  constructor
  · intro he
    cases he
    have h1 := hs.complete ⟨r, rfl⟩
    refine ⟨by rw [h1]; exact hs.attempts_of_sent h1, (hm.pairs r rfl).2 hd, ?_⟩
    have htext : ∀ x ∈ (replies m evs).takeWhile isText, x.2 = none := by
      intro x hx
      have := List.mem_takeWhile_imp hx
      simp only [isText, decide_eq_true_iff] at this
      exact this.2
    rcases C24_stored_faithfully h hd with ⟨_, ⟨h2, _⟩ | ⟨last, h2, _, h3, _⟩⟩
    · rw [h2]; exact htext
    · intro x hx
      rw [h2] at hx
      rcases List.mem_append.1 hx with hx | hx
      · exact htext x hx
      · rw [List.mem_singleton.1 hx]; exact h3
  · rintro ⟨h1, h2, h3⟩
    cases er with
    | none => rfl
    | some er =>
      exfalso
      rcases hm.errors r er rfl with ⟨b, e', h4⟩ | h4 | ⟨last, h4, h5⟩
      · have := failed_send_counts h4
        rw [h1] at this; omega
      · exact h2 h4
      · have := h3 last (by rw [h4]; simp)
        simp [this] at h5

/-- C24: a meta test with an error stores nothing. -/
theorem C24_error_discards {pairs : List NameValue} {e : Err} (h : Exec (metaManage cfg m) s evs (.ok (pairs, some e)) s') :
    pairs = [] := (wp_iff.1 (meta_done m cfg s) _ _ _ h).failed _ _ rfl

/-- C24: the number of messages counted is the number of texts received, and it is counted at most once. -/
theorem C24_values_counted {out : Outcome (List NameValue × Option Err)} (h : Exec (metaManage cfg m) s evs out s') :
    count countsValues evs ≤ 1 ∧ ∀ n, .emit (.metaValues n) ∈ evs → n = (texts m evs).length :=
  have hm := wp_iff.1 (meta_done m cfg s) _ _ _ h
  ⟨hm.values, hm.valuesAre⟩

end

/-- A client that sends one pair with white space and a second colon, one text without a colon and then an empty message. -/
example (cfg : Cfg) : ∃ evs, Exec (metaManage cfg .json) ()
      evs (.ok ([⟨str "os", str "a:b"⟩], none)) () ∧ NoCrash evs ∧ DeadlineStays evs ∧
      texts .json evs = [str " os : a:b ", str "nocolon"] := by
  refine ⟨[.call (.send (Messager.json.frame MsgType.testPrepare [])) (.ok none),
    .call (.send (Messager.json.frame MsgType.testStart [])) (.ok none),
    .call .ctxErr (.ok none), .call .recv (.ok (.ok (Messager.json.frame MsgType.testMsg (str " os : a:b ")))),
    .call .ctxErr (.ok none), .call .recv (.ok (.ok (Messager.json.frame MsgType.testMsg (str "nocolon")))),
    .call .ctxErr (.ok none), .call .recv (.ok (.ok (Messager.json.frame MsgType.testMsg []))),
    .call .ctxErr (.ok none), .emit (.metaValues 2),
    .call (.send (Messager.json.frame MsgType.testFinalize [])) (.ok none)], ?_, ?_, ?_, ?_⟩
  · follow
  · ev_simp []
  · show List.Pairwise _ [none, none, none, none]; simp
  · decide +kernel

/-- The deadline passes after one message: everything is discarded. -/
example (cfg : Cfg) : ∃ evs, Exec (metaManage cfg .tlv) () evs (.ok ([], some (str "context deadline exceeded"))) () ∧
      NoCrash evs ∧ DeadlineStays evs ∧ expired evs ∧ texts .tlv evs = [str "a:b"] := by
  refine ⟨[.call (.send (Messager.tlv.frame MsgType.testPrepare [])) (.ok none),
    .call (.send (Messager.tlv.frame MsgType.testStart [])) (.ok none),
    .call .ctxErr (.ok none), .call .recv (.ok (.ok (Messager.tlv.frame MsgType.testMsg (str "a:b")))),
    .call .ctxErr (.ok (some (str "context deadline exceeded"))), .call .ctxErr (.ok (some (str "context deadline exceeded"))),
    .emit (.testError cfg.label (str "meta") (str "context"))], ?_, ?_, ?_, ?_, ?_⟩
  · follow
  · ev_simp []
  · show List.Pairwise _ [none, some _, some _]; simp
  · exact ⟨str "context deadline exceeded", .tail _ (.head _)⟩
  · rfl

end Verif.Props
