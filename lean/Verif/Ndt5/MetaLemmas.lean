import Verif.Ndt5.Meta
import Verif.Ndt5.ScriptLemmas
import Verif.Spec.Meta

/-! # All executions of the meta test -/

namespace Verif.Ndt5
open Verif.Go Verif.Spec

set_option maxRecDepth 20000
set_option linter.unusedSimpArgs false

theorem cut_eq (c : UInt8) (s : Bytes) :
    cut c s = if c ∈ s then some (s.takeWhile (· ≠ c), (s.dropWhile (· ≠ c)).drop 1) else none := by
  induction s with
  | nil => rfl
  | cons a s ih =>
    simp only [cut]
    by_cases h : a = c
    · subst h; simp
    · have h' : ¬ c = a := fun h' => h h'.symm
      rw [if_neg h, ih]
      by_cases hc : c ∈ s <;> simp [h, h', hc]

theorem metaPair_eq (s : Bytes) : metaPair s = pairOf s := by
  unfold metaPair pairOf
  rw [cut_eq]
  by_cases h : (58 : UInt8) ∈ s <;> simp [h]

theorem replies_nil (m : Messager) : replies m [] = [] := rfl

theorem replies_cons (m : Messager) (a : Ev) (e : List Ev) :
    replies m (a :: e) = ((recvAnswer a).map fun r => m.receive r MsgType.testMsg).toList ++ replies m e := by
  unfold replies
  rw [List.filterMap_cons]
  cases recvAnswer a <;> rfl

theorem replies_append (m : Messager) (a e : List Ev) : replies m (a ++ e) = replies m a ++ replies m e := by
  simp [replies, List.filterMap_append]

theorem expired_nil : ¬ expired [] := by simp [expired]

theorem expired_cons (a : Ev) (e : List Ev) : expired (a :: e) ↔ (∃ x, deadlineAnswer a = some (some x)) ∨ expired e := by
  unfold expired
  rw [List.filterMap_cons]
  cases h : deadlineAnswer a with
  | none => simp
  | some r => cases r <;> simp

/-- Events that may occur while the client's messages are read. -/
def inLoop : Ev → Bool
  | .call .recv _ => true
  | .call .ctxErr _ => true
  | _ => false

/-- What the loop returns, as a function of the replies. `n` is the number of messages still allowed. -/
structure LoopDone (m : Messager) (n : Nat) (res : List NameValue) (k : Nat) (e : List Ev)
    (r : List NameValue) (k' : Nat) (er : Option Err) : Prop where
  pairs : r = res ++ (texts m e).filterMap pairOf
  count : k' = k + (texts m e).length
  bound : (texts m e).length ≤ n
  reads : (replies m e).length ≤ n
  ending : ((replies m e).all isText = true ∧ er = none ∧ ((texts m e).length = n ∨ expired e)) ∨
    ∃ last, (replies m e) = (replies m e).takeWhile isText ++ [last] ∧ isText last = false ∧ er = last.2 ∧ ¬ expired e

section
variable {σ : Type} (m : Messager)

theorem metaLoop_spec (n : Nat) (res : List NameValue) (k : Nat) (s : σ) : wp (metaLoop m n res k) s (fun e o s' =>
    s' = s ∧ (∀ x ∈ e, inLoop x = true) ∧ match o with
    | .ok r => LoopDone m n res k e r.1.1 r.1.2 r.2
    | .panic _ => ¬ NoCrash e) := by
  induction n generalizing res k with
  | zero =>
    rw [metaLoop, wp_pure]
    exact ⟨rfl, by simp, by simp [texts, replies], by simp [texts, replies], by simp [texts, replies], by simp [replies], .inl (by simp [texts, replies])⟩
  | succ n ih =>
    rw [metaLoop]
    refine wp_opaque fun Q hQ => ?_
    wps []
    refine ⟨?_, fun msg => hQ _ _ _ ⟨rfl, by simp [inLoop], by simp [noCrash_cons, crashed]⟩⟩
    intro ctx
    cases ctx with
    | some e =>
      simp only
      wps []
      refine hQ _ _ _ ⟨rfl, by simp [inLoop], ?_⟩
      have hrep : replies m [.call .ctxErr (.ok (some e))] = [] := by simp [replies_cons, replies_nil, recvAnswer]
      exact ⟨by simp [texts, hrep], by simp [texts, hrep], by simp [texts, hrep], by simp [hrep],
        .inl ⟨by simp [hrep], rfl, .inr ((expired_cons _ _).2 (.inl ⟨e, rfl⟩))⟩⟩
    | none =>
      simp only
      wps []
      refine ⟨?_, fun msg => hQ _ _ _ ⟨rfl, by simp [inLoop], by simp [noCrash_cons, noCrash_nil, crashed]⟩⟩
      intro a
      have hrep : ∀ e, replies m (.call .ctxErr (.ok none) :: .call .recv (.ok a) :: e) = m.receive a MsgType.testMsg :: replies m e := by
        intro e; simp [replies_cons, recvAnswer]
      have hexp : ∀ e, expired (.call .ctxErr (.ok none) :: .call .recv (.ok a) :: e) ↔ expired e := by
        intro e; simp [expired_cons, deadlineAnswer]
      refine ⟨?_, ?_⟩
      · intro hstop
        refine hQ _ _ _ ⟨rfl, by simp [inLoop], ?_⟩
        have ht : isText (m.receive a MsgType.testMsg) = false := by
          simp only [isText, decide_eq_false_iff_not]
          rintro ⟨h1, h2⟩; exact hstop.elim h1 (fun h => h h2)
        exact ⟨by simp [texts, hrep, replies_nil, ht], by simp [texts, hrep, replies_nil, ht], by simp [texts, hrep, replies_nil, ht], by simp [hrep, replies_nil],
          .inr ⟨_, by simp [hrep, replies_nil, ht], ht, rfl, by rw [hexp]; exact expired_nil⟩⟩
      · intro hgo
        have ht : isText (m.receive a MsgType.testMsg) = true := by
          simp only [isText, decide_eq_true_iff]
          exact ⟨fun h => hgo (.inl h), Classical.not_not.1 fun h => hgo (.inr h)⟩
        have key : ∀ res', res' = res ++ (pairOf ((m.receive a MsgType.testMsg).1.getD [])).toList →
            wp (metaLoop m n res' (k + 1)) s (fun e' o' s'' => Q (.call .ctxErr (.ok none) :: .call .recv (.ok a) :: e') o' s'') := by
          intro res' hres'
          refine wp_mono (ih res' (k + 1)) ?_
          rintro e o s' ⟨hs, hin, ho⟩
          refine hQ _ _ _ ⟨hs, by simpa [inLoop] using hin, ?_⟩
          cases o with
          | panic msg => simpa [noCrash_cons, crashed] using ho
          | ok r =>
            have htx : texts m (.call .ctxErr (.ok none) :: .call .recv (.ok a) :: e) = (m.receive a MsgType.testMsg).1.getD [] :: texts m e := by
              simp [texts, hrep, ht]
            refine ⟨?_, ?_, ?_, ?_, ?_⟩
            · have := ho.pairs
              rw [htx, this, hres', List.filterMap_cons]
              cases pairOf ((m.receive a MsgType.testMsg).1.getD []) <;> simp
            · rw [htx, ho.count, List.length_cons]; omega
            · rw [htx, List.length_cons]; have := ho.bound; omega
            · rw [hrep, List.length_cons]; have := ho.reads; omega
            · rcases ho.ending with ⟨h1, h2, h3⟩ | ⟨last, h1, h2, h3, h4⟩
              · refine .inl ⟨by simp [hrep, ht, h1], h2, ?_⟩
                rw [htx, hexp, List.length_cons]
                exact h3.imp (fun h => by omega) id
              · refine .inr ⟨last, ?_, h2, h3, by rw [hexp]; exact h4⟩
                rw [hrep, List.takeWhile_cons, ht]
                simpa using h1
        rw [metaPair_eq]
        split
        · rename_i h; exact key _ (by simp [h])
        · rename_i nv h; exact key _ (by simp [h])

theorem wp_metaLoop (n : Nat) (res : List NameValue) (k : Nat) (s : σ) (P : List Ev → Outcome ((List NameValue × Nat) × Option Err) → σ → Prop) :
    wp (metaLoop m n res k) s P ↔ ∀ e o s', Exec (metaLoop m n res k) s e o s' → P e o s' := wp_iff

theorem metaLoop_exec {n : Nat} {res : List NameValue} {k : Nat} {s s' : σ} {e : List Ev} {o : Outcome ((List NameValue × Nat) × Option Err)} :
    Exec (metaLoop m n res k) s e o s' → s' = s ∧ (∀ x ∈ e, inLoop x = true) ∧ match o with
    | .ok r => LoopDone m n res k e r.1.1 r.1.2 r.2
    | .panic _ => ¬ NoCrash e := fun h => wp_iff.1 (metaLoop_spec m n res k s) _ _ _ h

variable {m}

theorem inLoop_attempts {e : List Ev} (h : ∀ x ∈ e, inLoop x = true) : attempts e = [] := by
  unfold attempts
  rw [List.filterMap_eq_nil_iff]
  intro x hx
  have := h x hx
  unfold inLoop at this
  split at this <;> simp_all [attemptOf]

theorem inLoop_sent {e : List Ev} (h : ∀ x ∈ e, inLoop x = true) : sent e = [] := by
  unfold sent
  rw [List.filterMap_eq_nil_iff]
  intro x hx
  have := h x hx
  unfold inLoop at this
  split at this <;> simp_all [sentOf]

theorem inLoop_count {p : Ev → Bool} (hp : ∀ x, inLoop x = true → p x = false) {e : List Ev} (h : ∀ x ∈ e, inLoop x = true) : count p e = 0 :=
  count_eq_zero fun x hx => hp x (h x hx)

theorem countsError_inLoop (l d : Bytes) (x : Ev) (h : inLoop x = true) : countsError l d x = false := by
  unfold inLoop at h
  split at h <;> simp_all [countsError]

variable (cfg : Cfg) (m) (s : σ)

theorem meta_onScript : wp (metaManage cfg m) s (fun e o s' =>
    s' = s ∧ OnScript (metaScript m) e (∃ r, o = .ok (r, none))) := by
  refine wp_opaque fun Q hQ => ?_
  wp_paths [metaManage, wp_metaLoop]
  all_goals refine hQ _ _ _ ?_
  all_goals clear hQ
  all_goals try (refine ⟨rfl, ?_, ?_, ?_, ?_⟩ <;> ev_simp [metaScript])
  all_goals
    obtain ⟨rfl, hin, hd⟩ := metaLoop_exec m ‹Exec (metaLoop _ _ _ _) _ _ _ _›
    have h1 := inLoop_attempts hin
    have h2 := inLoop_sent hin
    refine ⟨rfl, ?_, ?_, ?_, ?_⟩ <;> ev_simp [metaScript, attempts_append, sent_append, h1, h2, noCrash_append]

theorem meta_errors : wp (metaManage cfg m) s (fun e o _ => ∀ l,
    count (countsError l (str "meta")) e = (if (errorOf o).isSome ∧ cfg.label = l then 1 else 0) ∧
    ∀ d, d ≠ str "meta" → count (countsError l d) e = 0) := by
  refine wp_opaque fun Q hQ => ?_
  wp_paths [metaManage, wp_metaLoop]
  all_goals refine hQ _ _ _ ?_
  all_goals clear hQ
  all_goals intro l
  all_goals try (ev_simp [errorOf]; done)
  all_goals try (ev_simp [errorOf]; intro d hd hl; exact fun h => hd h.symm)
  all_goals
    obtain ⟨rfl, hin, hd⟩ := metaLoop_exec m ‹Exec (metaLoop _ _ _ _) _ _ _ _›
    have h1 := fun l d => inLoop_count (countsError_inLoop l d) hin
    ev_simp [errorOf, count_append, h1]
    try (intro d hd hl; exact fun h => hd h.symm)

/-- Every event of a meta test. -/
def inMeta (cfg : Cfg) : Ev → Bool
  | .call .recv _ => true
  | .call .ctxErr _ => true
  | .call (.send _) _ => true
  | .emit (.testError l d _) => l = cfg.label ∧ d = str "meta"
  | .emit (.metaValues _) => true
  | _ => false

theorem inMeta_of_inLoop (x : Ev) (h : inLoop x = true) : inMeta cfg x = true := by
  unfold inLoop at h
  split at h <;> simp_all [inMeta]

theorem meta_foot : Foot (fun x => inMeta cfg x = true) (metaManage (σ := σ) cfg m) := by
  intro s
  refine wp_opaque fun Q hQ => ?_
  wp_paths [metaManage, wp_metaLoop]
  all_goals refine hQ _ _ _ ?_
  all_goals clear hQ
  all_goals try (simp [inMeta]; done)
  all_goals
    obtain ⟨rfl, hin, hd⟩ := metaLoop_exec m ‹Exec (metaLoop _ _ _ _) _ _ _ _›
    have hin' := fun x hx => inMeta_of_inLoop cfg x (hin x hx)
    intro x hx
    simp only [List.mem_cons, List.mem_append, List.not_mem_nil, or_false] at hx
    rcases hx with rfl | rfl | hx
    · rfl
    · rfl
    · first
      | exact hin' x hx
      | (rcases hx with hx | hx
         · exact hin' x hx
         · (rcases hx with rfl | rfl | rfl | rfl | rfl) <;> simp [inMeta])
      | (rcases hx with hx | hx
         · exact hin' x hx
         · (rcases hx with rfl | rfl | rfl | rfl) <;> simp [inMeta])
      | (rcases hx with hx | hx
         · exact hin' x hx
         · (rcases hx with rfl | rfl | rfl) <;> simp [inMeta])
      | (rcases hx with hx | hx
         · exact hin' x hx
         · (rcases hx with rfl | rfl) <;> simp [inMeta])
      | (rcases hx with hx | hx
         · exact hin' x hx
         · (rcases hx with rfl) <;> simp [inMeta])

theorem replies_other {a : Ev} (h : recvAnswer a = none) (e : List Ev) : replies m (a :: e) = replies m e := by
  rw [replies_cons, h]; rfl

theorem expired_append (a e : List Ev) : expired (a ++ e) ↔ expired a ∨ expired e := by
  induction a with
  | nil => simp [expired_nil]
  | cons x a ih => simp only [List.cons_append, expired_cons, ih, or_assoc]

/-- What a meta test returns, read off its events. -/
structure MetaDone (m : Messager) (e : List Ev) (o : Outcome (List NameValue × Option Err)) : Prop where
  failed : ∀ r er, o = .ok (r, some er) → r = []
  pairs : ∀ r, o = .ok (r, none) → r = (texts m e).filterMap pairOf ∧ (DeadlineStays e → ¬ expired e)
  bound : ∀ r, o = .ok r → (texts m e).length ≤ 20
  reads : ∀ r, o = .ok r → (replies m e).length ≤ 20
  ending : ∀ r, o = .ok (r, none) → DeadlineStays e →
    ((replies m e).all isText = true ∧ (texts m e).length = 20) ∨
    ∃ last, replies m e = (replies m e).takeWhile isText ++ [last] ∧ last.1.getD [] = [] ∧ last.2 = none
  errors : ∀ r er, o = .ok (r, some er) → (∃ b er, .call (.send b) (.ok (some er)) ∈ e) ∨ expired e ∨ ∃ last, replies m e = (replies m e).takeWhile isText ++ [last] ∧ last.2 = some er
  values : count countsValues e ≤ 1
  valuesAre : ∀ n, .emit (.metaValues n) ∈ e → n = (texts m e).length
  valuesOk : ∀ r, o = .ok (r, none) → .emit (.metaValues (texts m e).length) ∈ e

theorem stays_tail {a b : List Ev} {x : Ev} (hx : deadlineAnswer x = some none) (h : DeadlineStays (a ++ x :: b)) : ¬ expired a := by
  rintro ⟨er, her⟩
  unfold DeadlineStays at h
  rw [List.filterMap_append, List.pairwise_append] at h
  exact h.2.2 _ her none (by rw [List.filterMap_cons, hx]; exact List.mem_cons_self) (by simp) rfl

theorem countsValues_inLoop (x : Ev) (h : inLoop x = true) : countsValues x = false := by
  unfold inLoop at h
  split at h <;> simp_all [countsValues]

theorem emit_not_inLoop {e : List Ev} (h : ∀ x ∈ e, inLoop x = true) (n : Note) : Event.emit n ∉ e := fun hm => by
  simpa [inLoop] using h _ hm

/-- The replies of a whole meta test are those of its loop. -/
theorem replies_around {a b : Ev} {tail e : List Ev} (ha : recvAnswer a = none) (hb : recvAnswer b = none) (ht : ∀ x ∈ tail, recvAnswer x = none) :
    replies m (a :: b :: (e ++ tail)) = replies m e := by
  rw [replies_other m ha, replies_other m hb, replies_append]
  have : replies m tail = [] := by
    unfold replies
    rw [List.filterMap_eq_nil_iff.2 ht]; rfl
  simp [this]

theorem texts_congr {e e' : List Ev} (h : replies m e = replies m e') : texts m e = texts m e' := by
  unfold texts; rw [h]

theorem done_around {a b : Ev} {tail e : List Ev} {r : List NameValue} {k : Nat} {er : Option Err} {o : Outcome (List NameValue × Option Err)}
    (h : LoopDone m 20 [] 0 e r k er) (hin : ∀ x ∈ e, inLoop x = true)
    (ha : recvAnswer a = none) (hb : recvAnswer b = none) (ha' : deadlineAnswer a = none) (hb' : deadlineAnswer b = none)
    (ht : ∀ x ∈ tail, recvAnswer x = none) (hf : ∀ r er, o = .ok (r, some er) → r = [])
    (hok : ∀ r', o = .ok (r', none) → r' = r ∧ er = none ∧ (∃ x tl, tail = x :: tl ∧ deadlineAnswer x = some none) ∧ ¬ expired tail ∧
      .emit (.metaValues k) ∈ tail)
    (herr : ∀ r' e', o = .ok (r', some e') → (∃ b er, .call (.send b) (.ok (some er)) ∈ tail) ∨ expired tail ∨ er = some e')
    (hc : count countsValues (a :: b :: tail) ≤ 1) (hn : ∀ n, .emit (.metaValues n) ∈ a :: b :: tail → n = k) :
    MetaDone m (a :: b :: (e ++ tail)) o := by
  have hr := replies_around m (e := e) ha hb ht
  have htx := texts_congr m hr
  have hv := emit_not_inLoop hin
  have hce := inLoop_count countsValues_inLoop hin
  have hk : k = (texts m e).length := by have := h.count; omega
  have hx : expired (a :: b :: (e ++ tail)) ↔ expired e ∨ expired tail := by
    simp [expired_cons, ha', hb', expired_append]
  have hst : ∀ r', o = .ok (r', none) → DeadlineStays (a :: b :: (e ++ tail)) → ¬ expired e := by
    intro r' ho hd
    obtain ⟨_, _, ⟨x, tl, rfl, hdl⟩, _⟩ := hok r' ho
    have : ¬ expired (a :: b :: e) := stays_tail hdl (by simpa using hd)
    simpa [expired_cons, ha', hb'] using this
  constructor
  · exact hf
  · intro r' ho
    rw [htx]
    obtain ⟨rfl, _, _, h4, _⟩ := hok r' ho
    refine ⟨by simpa using h.pairs, fun hd => ?_⟩
    rw [hx]
    exact fun h => h.elim (hst _ ho hd) h4
  · intro _ _; rw [htx]; exact h.bound
  · intro _ _; rw [hr]; exact h.reads
  · intro r' ho hd
    rw [hr, htx]
    obtain ⟨rfl, her, _, h4, _⟩ := hok r' ho
    rcases h.ending with ⟨h1, _, h3⟩ | ⟨last, h1, h2, h3, _⟩
    · exact .inl ⟨h1, h3.resolve_right (hst _ ho hd)⟩
    · refine .inr ⟨last, h1, ?_, by rw [← h3, her]⟩
      have : last.2 = none := by rw [← h3, her]
      simpa [isText, this] using h2
  · intro r' e' ho
    rw [hr, hx]
    rcases herr r' e' ho with ⟨c, x, h1⟩ | h1 | h1
    · exact .inl ⟨c, x, by simp [h1]⟩
    · exact .inr (.inl (.inr h1))
    · rcases h.ending with ⟨_, h2, _⟩ | ⟨last, h2, _, h3, _⟩
      · simp [h2] at h1
      · exact .inr (.inr ⟨last, h2, by rw [← h3, h1]⟩)
  · simpa [count_cons, count_append, hce] using hc
  · intro n h1
    rw [htx, ← hk]
    refine hn n ?_
    simpa [hv] using h1
  · intro r' ho
    rw [htx, ← hk]
    simp [(hok r' ho).2.2.2.2]

theorem meta_done : wp (metaManage cfg m) s (fun e o _ => MetaDone m e o) := by
  refine wp_opaque fun Q hQ => ?_
  wp_paths [metaManage, wp_metaLoop]
  all_goals refine hQ _ _ _ ?_
  all_goals clear hQ
  all_goals try (
    constructor <;> simp [texts, replies_cons, recvAnswer, replies_nil, count, countsValues]
    done)
  all_goals obtain ⟨rfl, hin, hd⟩ := metaLoop_exec m ‹Exec (metaLoop _ _ _ _) _ _ _ _›
  all_goals try (
    have hv := emit_not_inLoop hin
    have hc := inLoop_count countsValues_inLoop hin
    constructor <;> simp [count_append, count_cons, count_nil, countsValues, hv, hc]
    done)
  all_goals
    refine done_around m hd hin rfl rfl rfl rfl ?_ ?_ ?_ ?_ ?_ ?_ <;>
    simp [recvAnswer, count_cons, count_nil, countsValues, expired_cons, expired_nil, deadlineAnswer, *]

end
end Verif.Ndt5
