import Verif.Web.StepLemmas
import Verif.Spec.GoodSession
import Verif.Ndt5.LoginLemmas

/-! # The page and the server side by side -/

namespace Verif.Web
open Verif.Go Verif.Spec Verif.Ndt5

set_option maxRecDepth 20000

/-! ## What is exchanged -/

/-- The page handles messages and sends others. -/
inductive Ran : Page → List Bytes → Page → List Bytes → Prop
  | done (p : Page) : Ran p [] p []
  | frame {c c' : Client} {f : Bytes} {fs o os : List Bytes} {p : Page} (env : Env) : RateText env.rate → onMessage c f env = .ok (c', o) → Ran (.running c') fs p os →
      Ran (.running c) (f :: fs) p (o ++ os)
  | throw {c : Client} {e : Thrown} {f : Bytes} {fs os : List Bytes} {p : Page} (env : Env) : RateText env.rate → onMessage c f env = .error e → Ran (.crashed e) fs p os →
      Ran (.running c) (f :: fs) p os
  | ignore {e : Thrown} {f : Bytes} {fs os : List Bytes} {p : Page} : Ran (.crashed e) fs p os → Ran (.crashed e) (f :: fs) p os
  | idle {c c' : Client} {fs os : List Bytes} {p : Page} (i : Idle) : Web.idle c i = some c' → Ran (.running c') fs p os → Ran (.running c) fs p os

/-- Messages that reach the page: all that were sent, and some of those that failed. -/
inductive Arrived : List Ev → List Bytes → Prop
  | nil : Arrived [] []
  | sends {f : Bytes} {r : Outcome (Option Err)} {evs : List Ev} {l : List Bytes} : Arrived evs l → Arrived (.call (.send f) r :: evs) (f :: l)
  | loses {f : Bytes} {r : Outcome (Option Err)} {evs : List Ev} {l : List Bytes} : r ≠ .ok none → Arrived evs l → Arrived (.call (.send f) r :: evs) l
  | other {x : Ev} {evs : List Ev} {l : List Bytes} : attemptOf x = none → Arrived evs l → Arrived (x :: evs) l

theorem plays_ran {p p' : Page} {down up down' up' : List Bytes} {evs : List Ev} (h : Plays p down up evs p' down' up') :
    ∃ handled arrived outs, Ran p handled p' outs ∧ Arrived evs arrived ∧ down ++ arrived = handled ++ down' ∧ up ++ outs = evs.filterMap gotOf ++ up' := by
  induction h with
  | done p down up => exact ⟨[], [], [], .done _, .nil, by simp, by simp⟩
  | handle env he hm _ ih =>
    obtain ⟨hd, ar, os, h1, h2, h3, h4⟩ := ih
    exact ⟨_, _, _, .frame env he hm h1, h2, by simp [h3], by rw [← h4]; simp⟩
  | throws env he hm _ ih =>
    obtain ⟨hd, ar, os, h1, h2, h3, h4⟩ := ih
    exact ⟨_, _, _, .throw env he hm h1, h2, by simp [h3], h4⟩
  | @ignores e f down up evs p' down' up' _ ih =>
    obtain ⟨hd, ar, os, h1, h2, h3, h4⟩ := ih
    exact ⟨f :: hd, _, _, .ignore h1, h2, by simp [h3], h4⟩
  | idle i hi _ ih =>
    obtain ⟨hd, ar, os, h1, h2, h3, h4⟩ := ih
    exact ⟨_, _, _, .idle i hi h1, h2, h3, h4⟩
  | sends _ ih =>
    obtain ⟨hd, ar, os, h1, h2, h3, h4⟩ := ih
    exact ⟨_, _, _, h1, .sends h2, by rw [← h3]; simp, by rw [List.filterMap_cons_none rfl]; exact h4⟩
  | loses hr _ ih =>
    obtain ⟨hd, ar, os, h1, h2, h3, h4⟩ := ih
    exact ⟨_, _, _, h1, .loses hr h2, h3, by rw [List.filterMap_cons_none rfl]; exact h4⟩
  | receives _ ih =>
    obtain ⟨hd, ar, os, h1, h2, h3, h4⟩ := ih
    exact ⟨_, _, _, h1, .other rfl h2, h3, by simp [gotOf, h4]⟩
  | @other p x down up evs p' down' up' hx _ ih =>
    obtain ⟨hd, ar, os, h1, h2, h3, h4⟩ := ih
    have hg : gotOf x = none := by
      unfold gotOf
      split
      · simp [exchanges] at hx
      · rfl
    have ha : attemptOf x = none := by
      unfold attemptOf
      split
      · simp [exchanges] at hx
      · rfl
    exact ⟨_, _, _, h1, .other ha h2, h3, by simpa [hg] using h4⟩

theorem sentOf_attempt {x : Ev} (h : attemptOf x = none) : sentOf x = none := by
  unfold sentOf
  split
  · simp [attemptOf] at h
  · rfl

theorem arrived_between {evs : List Ev} {l : List Bytes} (h : Arrived evs l) : (sent evs).Sublist l ∧ l.Sublist (attempts evs) := by
  induction h with
  | nil => exact ⟨.slnil, .slnil⟩
  | @sends f r evs l _ ih =>
    refine ⟨?_, ?_⟩
    · unfold sent
      rw [List.filterMap_cons]
      cases hs : sentOf (.call (.send f) r) with
      | none => exact ih.1.cons _
      | some g =>
        have : g = f := by
          unfold sentOf at hs
          split at hs
          · rename_i heq; cases heq; injection hs with hs; exact hs.symm
          · cases hs
        subst this
        exact ih.1.cons_cons _
    · exact ih.2.cons_cons _
  | @loses f r evs l hr _ ih =>
    refine ⟨?_, ih.2.cons _⟩
    unfold sent
    rw [List.filterMap_cons]
    have : sentOf (.call (.send f) r) = none := by
      unfold sentOf
      split
      · rename_i heq; cases heq; exact absurd rfl hr
      · rfl
    rw [this]
    exact ih.1
  | @other x evs l hx _ ih =>
    unfold sent attempts at *
    rw [List.filterMap_cons, List.filterMap_cons, hx, sentOf_attempt hx]
    exact ih

/-- If only the last message can have failed, what arrives is a beginning of what the server tried to send. -/
theorem arrived_prefix {evs : List Ev} {l : List Bytes} (h : Arrived evs l) (hs : attempts evs = sent evs ∨ ∃ f, attempts evs = sent evs ++ [f]) : l <+: attempts evs := by
  obtain ⟨h1, h2⟩ := arrived_between h
  rcases hs with hs | ⟨f, hs⟩
  · rw [← hs] at h1
    rw [h2.eq_of_length (Nat.le_antisymm h2.length_le h1.length_le)]
    exact List.prefix_rfl
  · have l1 := h1.length_le
    have l2 := h2.length_le
    rw [hs, List.length_append, List.length_singleton] at l2
    rcases Nat.lt_or_ge (sent evs).length l.length with hlt | hge
    · have : l = attempts evs := h2.eq_of_length (by rw [hs]; simp; omega)
      rw [this]
      exact List.prefix_rfl
    · have : sent evs = l := h1.eq_of_length (by omega)
      rw [← this, hs]
      exact List.prefix_append _ _

theorem arrived_sent {evs : List Ev} {l : List Bytes} (h : Arrived evs l) (hs : attempts evs = sent evs) : l = sent evs := by
  obtain ⟨h1, h2⟩ := arrived_between h
  rw [hs] at h2
  exact h2.eq_of_length (Nat.le_antisymm h2.length_le h1.length_le)

/-- A page at some phase handles what is next in the script. -/
theorem ran_at {P : Plan} (hP : P.Fits) {iv : Int} {p p' : Page} {handled outs : List Bytes} (h : Ran p handled p' outs) :
    ∀ {ph : Phase} {c : Client} {said : List Bytes} {rate : Bytes}, p = .running c → At P ph iv c said rate → handled <+: ph.rest P →
      ∃ c' ph' rate', p' = .running c' ∧ At P ph' iv c' (said ++ outs) rate' ∧ ph.rest P = handled ++ ph'.rest P := by
  induction h with
  | done p => intro ph c said rate hp hat _; exact ⟨c, ph, rate, hp, by simpa using hat, rfl⟩
  | @frame c c' f fs o os p env he hm _ ih =>
    rintro ph c0 said rate ⟨⟩ hat ⟨t, ht⟩
    rw [List.cons_append] at ht
    obtain ⟨c1, o1, ph1, rate1, hm1, hr1, hat1⟩ := step hP hat ht.symm env he
    rw [hm] at hm1
    cases hm1
    obtain ⟨c2, ph2, rate2, e1, e2, e3⟩ := ih rfl hat1 ⟨t, hr1.symm⟩
    refine ⟨c2, ph2, rate2, e1, by rwa [← List.append_assoc], ?_⟩
    rw [← ht, List.cons_append, ← hr1, e3]
  | @throw c e f fs os p env he hm _ ih =>
    rintro ph c0 said rate ⟨⟩ hat ⟨t, ht⟩
    rw [List.cons_append] at ht
    obtain ⟨c1, o1, ph1, rate1, hm1, -⟩ := step hP hat ht.symm env he
    rw [hm] at hm1
    cases hm1
  | ignore _ _ => intro ph c said rate hp; cases hp
  | idle i hi _ ih =>
    rintro ph c0 said rate ⟨⟩ hat hpre
    exact ih rfl (step_idle hat hi) hpre

theorem rateText_zero : RateText (str "0") := by
  have : str "0" = [48] := by decide
  rw [this]
  exact ⟨by simp, by simp, by intro b hb; simp only [List.mem_singleton] at hb; subst hb; exact .inl ⟨by decide, by decide⟩⟩

theorem at_start (P : Plan) (iv : Int) : At P .queue iv { interval := iv } [] (str "0") :=
  ⟨fun _ _ h => (by cases h), rfl, rfl, rfl, rfl, rfl, rfl, ⟨fun h => (by cases h), fun h => (by cases h)⟩, rfl, fun _ => rfl, fun _ => rfl, rfl, rateText_zero⟩

/-! ## What the server sends -/

mutual
theorem metricLines_line (pre : Bytes) (fs : List (Bytes × MVal)) : ∀ l ∈ metricLines pre fs, ∃ a t, l = pre ++ (a ++ 58 :: 32 :: t) := by
  match fs with
  | [] => simp [metricLines]
  | (name, v) :: rest =>
    intro l hl
    simp only [metricLines, List.mem_append] at hl
    rcases hl with hl | hl
    · exact metricLine_line pre name v l hl
    · exact metricLines_line pre rest l hl
theorem metricLine_line (pre name : Bytes) (v : MVal) : ∀ l ∈ metricLine pre name v, ∃ a t, l = pre ++ (a ++ 58 :: 32 :: t) := by
  have hs : str ": " = [58, 32] := by decide
  match v with
  | .num text => intro l hl; simp only [metricLine, List.mem_singleton, hs] at hl; exact ⟨name, text ++ [10], by simp [hl]⟩
  | .text s => intro l hl; simp only [metricLine, List.mem_singleton, hs] at hl; exact ⟨name, s ++ [10], by simp [hl]⟩
  | .stringer s => intro l hl; simp only [metricLine, List.mem_singleton, hs] at hl; exact ⟨name, s ++ [10], by simp [hl]⟩
  | .struct fields =>
    intro l hl
    simp only [metricLine] at hl
    obtain ⟨a, t, rfl⟩ := metricLines_line _ fields l hl
    exact ⟨name ++ str "." ++ a, t, by simp⟩
  | .other => simp [metricLine]
end

/-- The lines of a download: the web100 variables, then those of the kernel and of the record. -/
theorem resultLines_eq (lib : Lib) (w : Metrics) (r : S2CRecord) : ∃ more, resultLines lib w r =
    (web100Shown w).map (fun p => p.1 ++ str ": " ++ itoa p.2 ++ [10]) ++ more ∧
      ∀ l ∈ more, ∃ a t, l = str "TCPInfo." ++ (a ++ 58 :: 32 :: t) ∨ l = str "NDTResult.S2C." ++ (a ++ 58 :: 32 :: t) := by
  refine ⟨metricLines (str "TCPInfo" ++ str ".") w.tcpInfo.reflected ++ metricLines (str "NDTResult.S2C.") (r.reflect lib), ?_, ?_⟩
  · simp [resultLines, Metrics.reflect, metricLines, metricLine, numField, web100Shown, itoa]
  · intro l hl
    simp only [List.mem_append] at hl
    rcases hl with hl | hl
    · obtain ⟨a, t, rfl⟩ := metricLines_line _ _ l hl
      exact ⟨a, t, .inl (by rw [show str "TCPInfo" ++ str "." = str "TCPInfo." by decide])⟩
    · obtain ⟨a, t, rfl⟩ := metricLines_line _ _ l hl
      exact ⟨a, t, .inr rfl⟩

theorem web100_names : ∀ w, (web100Shown w).map Prod.fst = (web100Shown {}).map Prod.fst := fun _ => rfl

theorem web100_plain {w : Metrics} {p : Bytes × Int} (h : p ∈ web100Shown w) :
    (∀ b ∈ p.1, b < 0x80) ∧ (58 : UInt8) ∉ p.1 ∧ p.1 ≠ str "c2sRate" ∧ p.1 ≠ str "s2cRate" ∧ p.1.head? ≠ some 89 ∧ ¬ str "TCPInfo." <+: p.1 ∧ ¬ str "NDTResult.S2C." <+: p.1 := by
  have hm : p.1 ∈ (web100Shown {}).map Prod.fst := web100_names w ▸ List.mem_map_of_mem h
  have : ∀ n ∈ (web100Shown {}).map Prod.fst, (∀ b ∈ n, b < 0x80) ∧ (58 : UInt8) ∉ n ∧ n ≠ str "c2sRate" ∧ n ≠ str "s2cRate" ∧ n.head? ≠ some 89 ∧
      ¬ str "TCPInfo." <+: n ∧ ¬ str "NDTResult.S2C." <+: n := by decide +kernel
  exact this _ hm

theorem more_entry {l : Bytes} (h : ∃ a t, l = str "TCPInfo." ++ (a ++ 58 :: 32 :: t) ∨ l = str "NDTResult.S2C." ++ (a ++ 58 :: 32 :: t)) :
    str "TCPInfo." <+: (entryOf l).1 ∨ str "NDTResult.S2C." <+: (entryOf l).1 := by
  obtain ⟨a, t, rfl | rfl⟩ := h
  · exact .inl (entryOf_prefix ⟨str "TCPInfo." ++ a, t, by simp⟩ (by decide) (by decide))
  · exact .inr (entryOf_prefix ⟨str "NDTResult.S2C." ++ a, t, by simp⟩ (by decide) (by decide))

theorem lines_fit (lib : Lib) (w : Metrics) (r : S2CRecord) :
    (∀ l ∈ resultLines lib w r, IsLine l) ∧ ∀ l ∈ resultLines lib w r, (entryOf l).1 ≠ str "c2sRate" ∧ (entryOf l).1 ≠ str "s2cRate" := by
  obtain ⟨more, he, hm⟩ := resultLines_eq lib w r
  rw [he]
  have hs : str ": " = [58, 32] := by decide
  refine ⟨fun l hl => ?_, fun l hl => ?_⟩
  · rcases List.mem_append.1 hl with hl | hl
    · obtain ⟨p, -, rfl⟩ := List.mem_map.1 hl
      exact ⟨p.1, itoa p.2 ++ [10], by simp [hs]⟩
    · obtain ⟨a, t, rfl | rfl⟩ := hm l hl
      · exact ⟨str "TCPInfo." ++ a, t, by simp⟩
      · exact ⟨str "NDTResult.S2C." ++ a, t, by simp⟩
  · rcases List.mem_append.1 hl with hl | hl
    · obtain ⟨p, hp, rfl⟩ := List.mem_map.1 hl
      obtain ⟨h1, h2, h3, h4, -⟩ := web100_plain hp
      rw [entryOf_number h1 h2]
      exact ⟨h3, h4⟩
    · rcases more_entry (hm l hl) with h | h
      · exact ⟨fun e => absurd (e ▸ h) (by decide), fun e => absurd (e ▸ h) (by decide)⟩
      · exact ⟨fun e => absurd (e ▸ h) (by decide), fun e => absurd (e ▸ h) (by decide)⟩

private theorem fmt4_chars (x : F64) : ∀ b ∈ F64.fmt4 x, b < 0x80 ∧ b ≠ 10 ∧ b ≠ 58 := by
  have hd : ∀ n : Nat, ∀ b ∈ natDec n, b < 0x80 ∧ b ≠ 10 ∧ b ≠ 58 := by
    intro n b hb
    obtain ⟨h1, h2⟩ := natDec_isDigit b hb
    refine ⟨Nat.lt_of_le_of_lt h2 (by decide), ?_, ?_⟩
    · rintro rfl; exact absurd h1 (by decide)
    · rintro rfl; exact absurd h2 (by decide)
  cases x with
  | nan => simp only [F64.fmt4]; decide
  | inf n => cases n <;> simp only [F64.fmt4] <;> decide
  | fin q =>
    intro b hb
    simp only [F64.fmt4, F64.padDigits, List.mem_append, List.mem_cons, List.not_mem_nil, or_false] at hb
    rcases hb with ((hb | hb) | rfl) | hb | hb
    · split at hb
      · simp only [List.mem_singleton] at hb; subst hb; decide
      · cases hb
    · exact hd _ b hb
    · decide
    · obtain ⟨-, rfl⟩ := List.mem_replicate.1 hb; decide
    · exact hd _ b hb

theorem closing_fits (x y : F64) : (∀ b ∈ closingText x y, b < 0x80 ∧ b ≠ 10 ∧ b ≠ 58) ∧ (closingText x y).head? = some 89 := by
  refine ⟨?_, ?_⟩
  · intro b hb
    simp only [closingText, List.mem_append] at hb
    rcases hb with ((hb | hb) | hb) | hb
    · revert b; decide
    · exact fmt4_chars _ b hb
    · revert b; decide
    · exact fmt4_chars _ b hb
  · have : str "You uploaded at " = 89 :: (str "You uploaded at ").tail := by decide
    unfold closingText
    rw [this]
    rfl

/-- The frames of the session that the login of the page asks for. -/
def planOf (lib : Lib) (evs : List Ev) : Plan :=
  ⟨portOf .c2s evs, (measuredUpload evs).toInt64, portOf .s2c evs, (measuredDownload evs).toInt64, (downloadKernel evs).tcpInfo.bytesAcked,
   resultLines lib (downloadKernel evs) (downloadRecord lib .json evs), closingText (uploadRate 54 evs) (downloadRate lib .json 54 evs)⟩

theorem plan_script (lib : Lib) (evs : List Ev) : sessionScript lib .json 54 evs = (planOf lib evs).script := by
  have h1 : requested 54 1 = true := by decide
  have h2 : requested 54 2 = true := by decide
  have h5 : requested 54 5 = true := by decide
  have ha : announced 54 = str "2 4 32" := by decide
  simp only [sessionScript, h1, h2, h5, if_true, ha, c2sScript, downloadScript, s2cScript, metaScript, Plan.script, Plan.fromDown, Plan.fromMeta, planOf]
  simp [MsgType.srvQueue, MsgType.msgLogin, MsgType.testPrepare, MsgType.testStart, MsgType.testMsg, MsgType.testFinalize, MsgType.msgResults, MsgType.msgLogout]

theorem portOf_le {evs : List Ev} (h : Ports evs) (d : Dir) : portOf d evs ≤ 65535 := by
  unfold portOf
  cases hf : evs.findSome? (portAnswer d) with
  | none => simp
  | some n =>
    obtain ⟨x, hx, hxn⟩ := List.exists_of_findSome?_eq_some hf
    unfold portAnswer at hxn
    split at hxn
    · split at hxn
      · injection hxn with hxn; subst hxn; exact h _ _ hx
      · cases hxn
    · cases hxn

theorem plan_fits (lib : Lib) {evs : List Ev} (h : Ports evs) : (planOf lib evs).Fits := by
  obtain ⟨h1, h2⟩ := lines_fit lib (downloadKernel evs) (downloadRecord lib .json evs)
  obtain ⟨h3, h4⟩ := closing_fits (uploadRate 54 evs) (downloadRate lib .json 54 evs)
  refine ⟨portOf_le h _, portOf_le h _, h1, h2, h3, ?_, ?_⟩
  · intro e
    have : (planOf lib evs).closing.head? = some 89 := h4
    rw [e] at this
    exact absurd this (by decide)
  · intro e
    have : (planOf lib evs).closing.head? = some 89 := h4
    rw [e] at this
    exact absurd this (by decide)

private theorem nodup_map_inj {α β : Type} {g : α → β} {l : List α} (h : (l.map g).Nodup) {a b : α} (ha : a ∈ l) (hb : b ∈ l) (e : g a = g b) : a = b := by
  induction l with
  | nil => cases ha
  | cons x xs ih =>
    rw [List.map_cons, List.nodup_cons] at h
    rcases List.mem_cons.1 ha with ea | ha' <;> rcases List.mem_cons.1 hb with eb | hb'
    · rw [ea, eb]
    · exact absurd (List.mem_map.2 ⟨b, hb', by rw [← e, ea]⟩) h.1
    · exact absurd (List.mem_map.2 ⟨a, ha', by rw [e, eb]⟩) h.1
    · exact ih h.2 ha' hb'

/-- The page shows the web100 variables. -/
theorem over_shows {lib : Lib} {evs : List Ev} {iv : Int} {c : Client} {said : List Bytes} {rate : Bytes} (h : At (planOf lib evs) .over iv c said rate)
    {p : Bytes × Int} (hp : p ∈ web100Shown (downloadKernel evs)) : c.get p.1 = .text (itoa p.2) := by
  obtain ⟨q1, q2, q3, q4, q5, q6, q7⟩ := web100_plain hp
  have hsh := h.shown
  simp only [Phase.shown] at hsh
  have hfind : c.results.find? (fun e => e.1 = p.1) = (c.results.filter notRate).find? (fun e => e.1 = p.1) := by
    rw [List.find?_filter]
    congr 1
    funext e
    by_cases he : e.1 = p.1
    · simp [notRate, he, q3, q4]
    · simp [he]
  unfold Client.get
  rw [hfind, hsh]
  have hc : (planOf lib evs).closing ≠ p.1 := by
    intro e
    have := (closing_fits (uploadRate 54 evs) (downloadRate lib .json 54 evs)).2
    exact q5 (e ▸ this)
  rw [List.find?_cons]
  simp only [hc, decide_false]
  obtain ⟨more, he, hm⟩ := resultLines_eq lib (downloadKernel evs) (downloadRecord lib .json evs)
  have hl : (planOf lib evs).lines = _ := he
  have hall : ∀ e ∈ ((planOf lib evs).lines.map entryOf).reverse, e.1 = p.1 → e.2 = .text (itoa p.2) := by
    intro e hmem hname
    rw [List.mem_reverse, hl, List.map_append, List.map_map] at hmem
    rcases List.mem_append.1 hmem with hmem | hmem
    · obtain ⟨p', hp', rfl⟩ := List.mem_map.1 hmem
      obtain ⟨r1, r2, -⟩ := web100_plain hp'
      simp only [Function.comp, entryOf_number r1 r2] at hname ⊢
      have hnd : ((web100Shown (downloadKernel evs)).map Prod.fst).Nodup := by rw [web100_names]; decide +kernel
      have : p' = p := nodup_map_inj hnd hp' hp hname
      rw [this]
    · obtain ⟨l, hl', rfl⟩ := List.mem_map.1 hmem
      rcases more_entry (hm l hl') with h' | h'
      · exact absurd (hname ▸ h') q6
      · exact absurd (hname ▸ h') q7
  have hin : (p.1, Val.text (itoa p.2)) ∈ ((planOf lib evs).lines.map entryOf).reverse := by
    rw [List.mem_reverse, hl, List.map_append, List.map_map]
    refine List.mem_append_left _ (List.mem_map.2 ⟨p, hp, ?_⟩)
    simp only [Function.comp, entryOf_number q1 q2]
  generalize ((planOf lib evs).lines.map entryOf).reverse = L at hall hin
  cases hf : L.find? (fun e => e.1 = p.1) with
  | none =>
    have := List.find?_eq_none.1 hf _ hin
    simp at this
  | some e =>
    have h1 := List.find?_some hf
    have h2 := hall e (List.mem_of_find?_eq_some hf) (by simpa using h1)
    simp [h2]

end Verif.Web
