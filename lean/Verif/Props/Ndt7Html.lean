import Verif.Spec.Ndt7Html
import Verif.Props.Ndt7Main
import Verif.Props.Ndt7PageDown

/-!
# C104: the page html/ndt7.html
-/

namespace Verif.Props
open Verif.Go Verif.Ndt7 Verif.Web Verif.Spec

variable {k : Subtest} {as : List MainAct} {s : Main}

/-! ## What is known of the measurements -/

private def lastDoc (ps : List Post) : Option Json := (ps.filterMap fun | .server m => parseJson m | _ => none).getLast?

private def lastOwn (ps : List Post) : Option (Rat × Int) := (ps.filterMap fun | .client e n => some (e, n) | _ => none).getLast?

private theorem lastOwn_snoc (ps : List Post) (p : Post) : lastOwn (ps ++ [p]) = match p with | .client e n => some (e, n) | _ => lastOwn ps := by
  unfold lastOwn
  cases p <;> simp

private theorem lastDoc_snoc (ps : List Post) (p : Post) : lastDoc (ps ++ [p]) = match p with | .server m => (parseJson m).or (lastDoc ps) | _ => lastDoc ps := by
  unfold lastDoc
  cases p <;> simp

private theorem lastServer_iff {P : Json → Prop} {ps : List Post} : LastServer P ps ↔ ∃ j, lastDoc ps = some j ∧ P j := by
  induction ps using List.reverseRecOn with
  | nil => simp [LastServer, lastDoc]
  | append_singleton ps p ih =>
    have hother : (∀ m j, p = .server m → ¬ IsJson m j) → (LastServer P (ps ++ [p]) ↔ LastServer P ps) := by
      intro hp
      constructor
      · rintro ⟨b, m, a, j, h1, h2, h3, h4⟩
        rcases List.eq_nil_or_concat a with rfl | ⟨a, x, rfl⟩
        · obtain ⟨-, h⟩ := List.append_inj' h1 rfl
          exact absurd h2 (hp m j (by simpa using h))
        · have : ps ++ [p] = (b ++ .server m :: a) ++ [x] := by rw [h1]; simp
          obtain ⟨rfl, -⟩ := List.append_inj' this rfl
          exact ⟨b, m, a, j, rfl, h2, h3, fun m' hm' => h4 m' (by simp [hm'])⟩
      · rintro ⟨b, m, a, j, rfl, h2, h3, h4⟩
        refine ⟨b, m, a ++ [p], j, by simp, h2, h3, fun m' hm' j' => ?_⟩
        rcases List.mem_append.1 hm' with hm' | hm'
        · exact h4 m' hm' j'
        · exact hp m' j' (List.mem_singleton.1 hm').symm
    by_cases hp : ∃ m j, p = .server m ∧ IsJson m j
    · obtain ⟨m, j, rfl, hj⟩ := hp
      have hl : lastDoc (ps ++ [.server m]) = some j := by simp [lastDoc, parseJson_iff.2 hj]
      rw [hl]
      constructor
      · rintro ⟨b, m', a, j', h1, h2, h3, h4⟩
        rcases List.eq_nil_or_concat a with rfl | ⟨a, x, rfl⟩
        · obtain ⟨-, h⟩ := List.append_inj' h1 rfl
          have hm : m = m' := by simpa using h
          subst hm
          have := (parseJson_iff.2 hj).symm.trans (parseJson_iff.2 h2)
          exact ⟨j, rfl, (Option.some.inj this) ▸ h3⟩
        · have : ps ++ [.server m] = (b ++ .server m' :: a) ++ [x] := by rw [h1]; simp
          obtain ⟨-, h⟩ := List.append_inj' this rfl
          have hx : x = .server m := by simpa using h.symm
          exact absurd hj (h4 m (by simp [hx]) j)
      · rintro ⟨j', h, hP⟩
        cases h
        exact ⟨ps, m, [], j, rfl, hj, hP, by simp⟩
    · have hp' : ∀ m j, p = .server m → ¬ IsJson m j := fun m j h1 h2 => hp ⟨m, j, h1, h2⟩
      rw [hother hp', ih]
      have : lastDoc (ps ++ [p]) = lastDoc ps := by
        unfold lastDoc
        rw [List.filterMap_append]
        cases p with
        | server m =>
          have : parseJson m = none := by
            cases h : parseJson m with
            | none => rfl
            | some j => exact absurd (parseJson_iff.1 h) (hp' m j rfl)
          simp [this]
        | _ => simp
      rw [this]

private theorem hasMember_iff {name : String} {j : Json} : HasMember name j ↔ (jsMember j (str name)).isSome = true := by
  unfold jsMember
  cases j with
  | obj kvs =>
    constructor
    · rintro ⟨b, v, a, h1, h2, h3⟩
      cases h1
      have : (b ++ (str name, v) :: a).reverse.find? (·.1 = str name) = some (str name, v) := by
        rw [List.find?_eq_some_iff_append]
        refine ⟨by simp, a.reverse, b.reverse, by simp, fun x hx => ?_⟩
        obtain ⟨n, w⟩ := x
        simp only [decide_eq_true_eq, Bool.not_eq_eq_eq_not, Bool.not_true, decide_eq_false_iff_not]
        rintro rfl
        exact h3 w (by simpa using hx)
      simp only [this]
      cases v <;> simp_all
    · intro h
      cases hf : kvs.reverse.find? (·.1 = str name) with
      | none => simp [hf] at h
      | some x =>
        obtain ⟨n, v⟩ := x
        rw [List.find?_eq_some_iff_append] at hf
        obtain ⟨hn, b, a, he, hb⟩ := hf
        simp only [decide_eq_true_eq] at hn
        subst hn
        have : kvs = a.reverse ++ (str name, v) :: b.reverse := by
          have := congrArg List.reverse he
          simpa using this
        refine ⟨a.reverse, v, b.reverse, by rw [this], ?_, ?_⟩
        · rintro rfl
          have hf' : kvs.reverse.find? (·.1 = str name) = some (str name, .null) := by
            rw [List.find?_eq_some_iff_append]; exact ⟨by simp, b, a, he, hb⟩
          simp [hf'] at h
        · intro w hw
          have := hb (str name, w) (by simpa using hw)
          simp at this
  | _ => simp [HasMember]

private theorem furnished_iff {ps : List Post} : Furnished k ps ↔ completeThrows k (lastOwn ps) (lastDoc ps) = false := by
  have hs : ∀ name, LastServer (HasMember name) ps ↔ ((lastDoc ps).bind (jsMember · (str name))).isSome = true := by
    intro name
    rw [lastServer_iff]
    cases lastDoc ps with
    | none => simp
    | some j => simp [hasMember_iff]
  have hc : (∃ e n, Post.client e n ∈ ps) ↔ (lastOwn ps).isSome = true := by
    unfold lastOwn
    rw [List.getLast?_isSome, ← List.length_pos_iff_ne_nil, List.length_pos_iff_exists_mem]
    simp only [List.mem_filterMap]
    constructor
    · rintro ⟨e, n, h⟩; exact ⟨(e, n), _, h, rfl⟩
    · rintro ⟨⟨e, n⟩, p, h, hp⟩
      cases p <;> simp at hp
      obtain ⟨rfl, rfl⟩ := hp
      exact ⟨_, _, h⟩
  have hb : ∀ {α : Type} (o : Option α), o.isNone = false ↔ o.isSome = true := fun o => by cases o <;> simp
  cases k
  · simp only [Furnished, completeThrows, Bool.or_eq_false_iff, hb, hs, hc]
  · simp only [Furnished, completeThrows, hb, hs]

private theorem handled_snoc (as : List MainAct) (a : MainAct) : handled (as ++ [a]) = handled as ++ handled [a] := List.filterMap_append

/-- What the page knows of the measurements is what the messages that it handled say. -/
private theorem known (h : (htmlWorker k).Reaches as s) : s.lastClient = lastOwn (handled as) ∧ s.lastServer = lastDoc (handled as) := by
  refine LTS.invariant (T := htmlWorker k) (P := fun as s => s.lastClient = lastOwn (handled as) ∧ s.lastServer = lastDoc (handled as)) ⟨rfl, rfl⟩ ?_ h
  rintro as s a s' - ⟨h1, h2⟩ hs
  have hr : ∀ (x : Main) c, (x.resolveHtml k c).lastClient = x.lastClient ∧ (x.resolveHtml k c).lastServer = x.lastServer := by
    intro x c
    unfold Main.resolveHtml
    split <;> exact ⟨rfl, rfl⟩
  rw [handled_snoc]
  cases a with
  | timeout =>
    simp only [htmlWorker, htmlStep] at hs
    split at hs
    · cases hs
      rw [(hr _ _).1, (hr _ _).2]
      rw [show handled [.timeout] = [] from rfl, List.append_nil]
      exact ⟨h1, h2⟩
    · cases hs
  | urls =>
    simp only [htmlWorker, htmlStep, mainStep] at hs
    split at hs
    · cases hs
      rw [show handled [.urls] = [] from rfl, List.append_nil]
      exact ⟨h1, h2⟩
    · cases hs
  | noUrls =>
    simp only [htmlWorker, htmlStep, mainStep] at hs
    split at hs
    · cases hs
      rw [show handled [.noUrls] = [] from rfl, List.append_nil]
      exact ⟨h1, h2⟩
    · cases hs
  | message p =>
    have hh : handled [.message p] = [p] := rfl
    rw [hh, lastOwn_snoc, lastDoc_snoc]
    cases p with
    | complete =>
      simp only [htmlWorker, htmlStep] at hs
      split at hs
      · cases hs
        rw [(hr _ _).1, (hr _ _).2]
        exact ⟨h1, h2⟩
      · cases hs
    | server m =>
      simp only [htmlWorker, htmlStep, mainStep] at hs
      split at hs
      · cases hs
        simp only [Main.onmessage]
        cases hj : parseJson m with
        | none => exact ⟨h1, by simpa using h2⟩
        | some j => exact ⟨h1, by simp⟩
      · cases hs
    | client e n =>
      simp only [htmlWorker, htmlStep, mainStep] at hs
      split at hs
      · cases hs
        exact ⟨rfl, h2⟩
      · cases hs
    | _ =>
      simp only [htmlWorker, htmlStep, mainStep] at hs
      split at hs
      · cases hs
        exact ⟨h1, h2⟩
      · cases hs

private theorem resolve_furnished (h : (htmlWorker k).Reaches as s) : ({ s with timer := false } : Main).resolveHtml k 0 = if completeThrows k (lastOwn (handled as)) (lastDoc (handled as)) then
    { s with timer := false, calls := s.calls ++ [.complete s.lastClient s.lastServer] } else ({ s with timer := false } : Main).resolve 0 := by
  obtain ⟨h1, h2⟩ := known h
  unfold Main.resolveHtml
  simp only [true_and, h1, h2]

/-! ## The theorems -/

/-- C104: as long as what the page shows at the end is known when a subtest ends, the page is told what C102 says. -/
theorem C104_same (h : (htmlWorker k).Reaches as s) (hf : ∀ before a after, as = before ++ a :: after → Ends a → Furnished k (handled before)) : runWorker.Reaches as s := by
  induction as using List.reverseRecOn generalizing s with
  | nil => exact h
  | append_singleton as a ih =>
    obtain ⟨t, ht, hs⟩ := LTS.reaches_snoc.1 h
    have := ih ht fun b x c he => hf b x (c ++ [a]) (by rw [he]; simp)
    refine LTS.reaches_snoc.2 ⟨t, this, ?_⟩
    rw [← hs]
    by_cases hx : Ends a
    · have hr := resolve_furnished ht
      rw [furnished_iff.1 (hf as a [] rfl hx)] at hr
      simp only [Bool.false_eq_true, if_false] at hr
      cases a with
      | timeout => simp only [runWorker, mainStep, htmlWorker, htmlStep, hr]
      | message p => cases p <;> first | (simp only [runWorker, mainStep, htmlWorker, htmlStep, hr]; rfl) | rfl
      | _ => rfl
    · cases a with
      | timeout => exact absurd trivial hx
      | message p => cases p <;> first | rfl | exact absurd trivial hx
      | _ => rfl

/-- C104: when the timeout fires or the worker tells that it is complete, the worker is terminated and its promise resolved exactly if what the page shows at the end is known; otherwise everything stays as it is, except that there
is no timeout any more. -/
theorem C104_ends (h : (htmlWorker k).Reaches as s) {a : MainAct} (ha : Ends a) {s' : Main} (hs : htmlStep k s a = some s') :
    (Furnished k (handled as) ∧ s'.code.isSome ∧ s'.alive = false) ∨ (¬ Furnished k (handled as) ∧ s'.code = s.code ∧ s'.alive = s.alive ∧ s'.settled = s.settled ∧ s'.timer = false) := by
  have hr := resolve_furnished h
  have e : s' = ({ s with timer := false } : Main).resolveHtml k 0 := by
    cases a with
    | timeout =>
      simp only [htmlStep] at hs
      split at hs
      · cases hs; rfl
      · cases hs
    | message p =>
      cases p with
      | complete =>
        simp only [htmlStep] at hs
        split at hs
        · cases hs; rfl
        · cases hs
      | _ => exact ha.elim
    | _ => exact ha.elim
  subst e
  rw [hr]
  by_cases hf : Furnished k (handled as)
  · rw [furnished_iff.1 hf]
    refine .inl ⟨hf, ?_, rfl⟩
    simp only [Bool.false_eq_true, if_false, Main.resolve]
    cases s.code <;> rfl
  · have : completeThrows k (lastOwn (handled as)) (lastDoc (handled as)) = true := by
      cases hc : completeThrows k (lastOwn (handled as)) (lastDoc (handled as))
      · exact absurd (furnished_iff.2 hc) hf
      · rfl
    rw [this]
    exact .inr ⟨hf, rfl, rfl, rfl, rfl⟩

/-- C104: if it is known neither when the timeout fires nor when the worker is complete, and there is no error, the subtest does not end at all: the test of the page has no value, and if this is the download, the upload is never
begun. -/
theorem C104_hangs (h : (htmlWorker k).Reaches as s) (hn : ∀ before a after, as = before ++ a :: after → Ends a → ¬ Furnished k (handled before)) (he : .message .error ∉ as) (hu : .noUrls ∉ as) :
    s.settled = none ∧ s.alive = true ∧ ∀ up, ndt7Test htmlConfig s up = (s.calls, [], none) := by
  have key : s.code = none ∧ s.waits ≠ .failed ∧ s.alive = true := by
    induction as using List.reverseRecOn generalizing s with
    | nil => cases h; simp [htmlWorker, runWorker]
    | append_singleton as a ih =>
      obtain ⟨t, ht, hs⟩ := LTS.reaches_snoc.1 h
      obtain ⟨i1, i2, i3⟩ := ih ht (fun b x c hx => hn b x (c ++ [a]) (by rw [hx]; simp)) (by simp at he; exact he.1) (by simp at hu; exact hu.1)
      by_cases hx : Ends a
      · have hw : s.waits = t.waits := by
          have hr := resolve_furnished ht
          cases a with
          | timeout =>
            simp only [htmlWorker, htmlStep] at hs
            split at hs
            · cases hs; rw [hr]; split <;> rfl
            · cases hs
          | message p =>
            cases p with
            | complete =>
              simp only [htmlWorker, htmlStep] at hs
              split at hs
              · cases hs; rw [hr]; split <;> rfl
              · cases hs
            | _ => exact hx.elim
          | _ => exact hx.elim
        rcases C104_ends ht hx hs with ⟨hf, -⟩ | ⟨-, h1, h2, -⟩
        · exact absurd hf (hn as a [] rfl hx)
        · exact ⟨h1.trans i1, by rw [hw]; exact i2, h2.trans i3⟩
      · cases a with
        | timeout => exact absurd trivial hx
        | urls =>
          simp only [htmlWorker, htmlStep, mainStep] at hs
          split at hs
          · cases hs; exact ⟨i1, by simp, i3⟩
          · cases hs
        | noUrls => simp at hu
        | message p =>
          cases p with
          | complete => exact absurd trivial hx
          | error => simp at he
          | server m =>
            simp only [htmlWorker, htmlStep, mainStep] at hs
            split at hs
            · cases hs
              simp only [Main.onmessage]
              split <;> exact ⟨i1, i2, i3⟩
            · cases hs
          | _ =>
            simp only [htmlWorker, htmlStep, mainStep] at hs
            split at hs
            · cases hs; exact ⟨i1, i2, i3⟩
            · cases hs
  have hset : s.settled = none := by
    unfold Main.settled
    cases hw : s.waits
    · rfl
    · simp [key.1]
    · exact absurd hw key.2.1
  refine ⟨hset, key.2.2, fun up => ?_⟩
  simp [ndt7Test, downloadTest, runNDT7Worker, htmlConfig, caught, hset]

/-- C104, what the comments in the source say, "If the worker takes 12 seconds, kill it" and "once the promise is resolved, .terminate() has been called", does not hold on the page: after 12 seconds in which the server was silent the
download is neither over nor can it get over without the worker. -/
theorem C104_timeout_false : ¬ ∀ (k : Subtest) (as : List MainAct) (s : Main), (htmlWorker k).Reaches as s → .urls ∈ as → .timeout ∈ as → s.settled.isSome ∨ ∃ s', htmlStep k s .timeout = some s' := by
  intro H
  rcases H .download [.urls, .timeout] _ rfl (by simp) (by simp) with h | ⟨s', h⟩
  · exact absurd h (by decide)
  · cases h

/-! ## With the server -/

private theorem forall₂_right_mem {α β : Type} {R : α → β → Prop} {l : List α} {l' : List β} (h : List.Forall₂ R l l') {b : β} (hb : b ∈ l') : ∃ a ∈ l, R a b := by
  induction h with
  | nil => cases hb
  | cons h1 _ ih =>
    rcases List.mem_cons.1 hb with rfl | hb
    · exact ⟨_, List.mem_cons_self, h1⟩
    · obtain ⟨a, ha, hr⟩ := ih hb
      exact ⟨a, List.mem_cons_of_mem _ ha, hr⟩

private theorem main_facts (h : runWorker.Reaches as s) : (handled as ≠ [] → s.waits = .worker) ∧ (s.timer = true ∨ s.alive = true → s.code = none) := by
  refine LTS.invariant (T := runWorker) (P := fun as s => (handled as ≠ [] → s.waits = .worker) ∧ (s.timer = true ∨ s.alive = true → s.code = none)) ⟨by simp [handled], fun _ => rfl⟩ ?_ h
  rintro as s a s' hre ⟨h1, h2⟩ hs
  have h3 : s.timer = true ↔ s.alive = true := by
    refine LTS.state_invariant (T := runWorker) (P := fun s => s.timer = true ↔ s.alive = true) (by simp [runWorker]) ?_ hre
    intro s a s' hi hs
    cases a with
    | message p =>
      simp only [runWorker, mainStep] at hs
      split at hs
      · cases hs
        cases p <;> simp only [Main.onmessage, Main.resolve] <;> first | exact hi | (split <;> exact hi) | simp
      · cases hs
    | _ =>
      simp only [runWorker, mainStep] at hs
      split at hs
      · cases hs
        first | exact hi | simp [Main.resolve]
      · cases hs
  cases a with
  | message p =>
    simp only [runWorker, mainStep] at hs
    split at hs
    · rename_i hw
      cases hs
      refine ⟨fun _ => ?_, ?_⟩
      · cases p <;> simp only [Main.onmessage, Main.resolve] <;> first | exact hw.1 | (split <;> exact hw.1)
      · cases p <;> simp only [Main.onmessage, Main.resolve] <;> first | exact h2 | (split <;> exact h2) | simp
    · cases hs
  | timeout =>
    have hh : handled (as ++ [.timeout]) = handled as := by rw [handled_snoc]; simp [handled]
    rw [hh]
    simp only [runWorker, mainStep] at hs
    split at hs
    · cases hs
      exact ⟨h1, by simp [Main.resolve]⟩
    · cases hs
  | urls =>
    simp only [runWorker, mainStep] at hs
    split at hs
    · cases hs
      exact ⟨fun _ => rfl, h2⟩
    · cases hs
  | noUrls =>
    have hh : handled (as ++ [.noUrls]) = handled as := by rw [handled_snoc]; simp [handled]
    rw [hh]
    simp only [runWorker, mainStep] at hs
    split at hs
    · rename_i hw
      cases hs
      refine ⟨fun hne => ?_, by simp [Main.resolve]⟩
      have := h1 hne
      rw [hw] at this
      cases this
    · cases hs

private theorem has_member {pre post : Doc.Members} {name : String} {P : Json → Prop} {kvs : List (Bytes × Json)}
    (h : List.Forall₂ (fun (m : Bytes × (Json → Prop)) (kv : Bytes × Json) => kv.1 = m.1 ∧ m.2 kv.2) (pre ++ (str name, P) :: post) kvs) (hP : ¬ P .null) (hn : ∀ m ∈ post, m.1 ≠ str name) : HasMember name (.obj kvs) := by
  induction pre generalizing kvs with
  | nil =>
    cases h with
    | @cons _ kv _ rest h1 h2 =>
      obtain ⟨n, v⟩ := kv
      obtain ⟨e, hv⟩ := h1
      simp only at e hv
      subst e
      refine ⟨[], v, rest, rfl, fun hv' => hP (hv' ▸ hv), fun w hw => ?_⟩
      obtain ⟨m, hm, he, -⟩ := forall₂_right_mem h2 hw
      exact hn m hm he.symm
  | cons x pre ih =>
    cases h with
    | @cons _ kv _ rest h1 h2 =>
      obtain ⟨b, v, a, e, h3, h4⟩ := ih h2
      cases e
      exact ⟨kv :: b, v, a, rfl, h3, h4⟩

private theorem has_bbr {K : Layout} {m : Measurement} {j : Json} (hj : measurementDoc K m j) (hm : m.bbr.isSome) : HasMember "BBRInfo" j := by
  obtain ⟨b, hb⟩ := Option.isSome_iff_exists.1 hm
  obtain ⟨kvs, h, rfl⟩ := hj
  have hsplit : [Doc.may "AppInfo" m.app appDoc, Doc.may "ConnectionInfo" m.conn connDoc, Doc.may "BBRInfo" m.bbr bbrDoc, Doc.may "TCPInfo" m.tcp (tcpDoc K)].flatten =
      (Doc.may "AppInfo" m.app appDoc ++ Doc.may "ConnectionInfo" m.conn connDoc) ++ (str "BBRInfo", bbrDoc b) :: Doc.may "TCPInfo" m.tcp (tcpDoc K) := by
    rw [hb]; simp [Doc.may]
  rw [hsplit] at h
  refine has_member h (fun ⟨_, _, he⟩ => by cases he) fun x hx => ?_
  cases ht : m.tcp with
  | none => rw [ht] at hx; simp [Doc.may] at hx
  | some t =>
    rw [ht] at hx
    simp only [Doc.may, List.mem_singleton] at hx
    subst hx
    show str "TCPInfo" ≠ str "BBRInfo"
    decide

private theorem has_tcp {K : Layout} {m : Measurement} {j : Json} (hj : measurementDoc K m j) (hm : m.tcp.isSome) : HasMember "TCPInfo" j := by
  obtain ⟨b, hb⟩ := Option.isSome_iff_exists.1 hm
  obtain ⟨kvs, h, rfl⟩ := hj
  have hsplit : [Doc.may "AppInfo" m.app appDoc, Doc.may "ConnectionInfo" m.conn connDoc, Doc.may "BBRInfo" m.bbr bbrDoc, Doc.may "TCPInfo" m.tcp (tcpDoc K)].flatten =
      (Doc.may "AppInfo" m.app appDoc ++ Doc.may "ConnectionInfo" m.conn connDoc ++ Doc.may "BBRInfo" m.bbr bbrDoc) ++ (str "TCPInfo", tcpDoc K b) :: [] := by
    rw [hb]; simp [Doc.may]
  rw [hsplit] at h
  exact has_member h (fun ⟨_, _, he⟩ => by cases he) (by simp)

/-- C104: what the page shows is known as soon as one message of the server has arrived, and for a download one measurement of the client was made, if the messages of the server are measurements with the kernel's statistics. -/
theorem C104_server {K : Layout} (hK : LayoutOk K) {ps : List Post} {ms : List Measurement} (ht : ∀ m ∈ ms, Typed K m) (hi : ∀ m ∈ ms, m.bbr.isSome ∧ m.tcp.isSome)
    (hm : List.Forall₂ (fun m b => encodeMeasurement K m = some b) ms (passedOn ps)) (h1 : passedOn ps ≠ []) (h2 : k = .download → reportedTimes ps ≠ []) : Furnished k ps := by
  have hdoc : ∃ j m, m ∈ ms ∧ measurementDoc K m j ∧ lastDoc ps = some j := by
    have hl : ∀ b ∈ passedOn ps, ∃ j m, m ∈ ms ∧ parseJson b = some j ∧ measurementDoc K m j := by
      intro b hb
      obtain ⟨m, hmm, he⟩ := forall₂_right_mem hm hb
      obtain ⟨j, g1, g2⟩ := C88_message_document hK (ht m hmm) he
      exact ⟨j, m, hmm, parseJson_iff.2 g1, g2⟩
    clear hm h2
    induction ps using List.reverseRecOn with
    | nil => exact absurd rfl h1
    | append_singleton ps p ih =>
      rw [lastDoc_snoc]
      have hpp : passedOn (ps ++ [p]) = passedOn ps ++ passedOn [p] := List.filterMap_append
      rw [hpp] at h1 hl
      cases p with
      | server b =>
        obtain ⟨j, m, g1, g2, g3⟩ := hl b (by simp [passedOn])
        exact ⟨j, m, g1, g3, by simp [g2]⟩
      | _ => exact ih (by simpa [passedOn] using h1) fun b hb => hl b (List.mem_append_left _ hb)
  obtain ⟨j, m, hmm, hj, hl⟩ := hdoc
  cases k with
  | download =>
    refine ⟨lastServer_iff.2 ⟨j, hl, has_bbr hj (hi m hmm).1⟩, ?_⟩
    obtain ⟨t, hx⟩ := List.exists_mem_of_ne_nil _ (h2 rfl)
    obtain ⟨p, hp, he⟩ := List.mem_filterMap.1 hx
    cases p <;> simp at he
    exact ⟨_, _, hp⟩
  | upload => exact lastServer_iff.2 ⟨j, hl, has_tcp hj (hi m hmm).2⟩

/-- C104: so if, of a server that always has the kernel's statistics, at least one message was handled before the timeout and before the end of the worker, and for a download one measurement of the client, the subtest is over when
one of these happens, and the page has been told what C102 says. -/
theorem C104_finishes {K : Layout} (hK : LayoutOk K) (h : (htmlWorker k).Reaches as s) {ms : List Measurement} (ht : ∀ m ∈ ms, Typed K m) (hi : ∀ m ∈ ms, m.bbr.isSome ∧ m.tcp.isSome)
    (hm : List.Forall₂ (fun m b => encodeMeasurement K m = some b) ms (passedOn (handled as)))
    (hb : ∀ before a after, as = before ++ a :: after → Ends a → passedOn (handled before) ≠ [] ∧ (k = .download → reportedTimes (handled before) ≠ [])) :
    runWorker.Reaches as s ∧ ((∃ a ∈ as, Ends a) → s.settled = some (.returned 0)) := by
  have hr : runWorker.Reaches as s := by
    refine C104_same h fun b a c he hx => ?_
    obtain ⟨g1, g2⟩ := hb b a c he hx
    have hp : passedOn (handled as) = passedOn (handled b) ++ passedOn (handled (a :: c)) := by rw [he]; simp [handled, passedOn]
    rw [hp] at hm
    exact C104_server hK (fun m hm => ht m (List.mem_of_mem_take hm)) (fun m hm => hi m (List.mem_of_mem_take hm)) (List.forall₂_take_append _ _ _ hm) g1 g2
  refine ⟨hr, ?_⟩
  rintro ⟨a, ha, hx⟩
  obtain ⟨b, c, rfl⟩ := List.append_of_mem ha
  have hpre := (hb b a c rfl hx).1
  have hne : handled b ≠ [] := by rintro e; rw [e] at hpre; exact hpre rfl
  obtain ⟨t, ht, hc⟩ := LTS.runFrom_append_eq.1 (show runWorker.runFrom runWorker.init ((b ++ [a]) ++ c) = some s by rw [List.append_assoc]; exact hr)
  obtain ⟨t0, ht0, hstep⟩ := LTS.reaches_snoc.1 ht
  obtain ⟨f1, f2⟩ := main_facts ht0
  have hts : t.settled = some (.returned 0) := by
    have f1 := f1 hne
    cases a with
    | timeout =>
      simp only [runWorker, mainStep] at hstep
      split at hstep
      · rename_i htm
        cases hstep
        simp [Main.settled, Main.resolve, f1, f2 (.inl htm)]
      · cases hstep
    | message p =>
      cases p with
      | complete =>
        simp only [runWorker, mainStep] at hstep
        split at hstep
        · rename_i htm
          cases hstep
          simp [Main.settled, Main.onmessage, Main.resolve, f1, f2 (.inr htm.2)]
        · cases hstep
      | _ => exact hx.elim
    | _ => exact hx.elim
  cases c with
  | nil =>
    cases hc
    exact hts
  | cons x c =>
    have := C102_over ht hts x
    simp only [LTS.runFrom, runWorker, this] at hc
    cases hc

/-! ## Examples -/

/-- A download of the page that ends, by the 12 seconds. -/
def exHtml : List MainAct :=
  [.urls, .message (.start 10 none), .message (.client (251/1000) 8195), .message (.server (str "{\"BBRInfo\":{\"BW\":1}}")), .timeout]

example : ∃ s, (htmlWorker .download).Reaches exHtml s ∧ s.settled = some (.returned 0) ∧ Furnished .download (handled exHtml.dropLast) := by
  have hr : ((htmlWorker .download).runFrom (htmlWorker .download).init exHtml).map (·.settled) = some (some (.returned 0)) := by decide +kernel
  have hf : completeThrows .download (lastOwn (handled exHtml.dropLast)) (lastDoc (handled exHtml.dropLast)) = false := by decide +kernel
  obtain ⟨s, h1, h2⟩ := Option.map_eq_some_iff.1 hr
  exact ⟨s, h1, h2, furnished_iff.2 hf⟩

/-- And one that meets the hypotheses of `C104_hangs`: the connection was closed before there was a measurement. -/
example : ∃ s, (htmlWorker .download).Reaches [.urls, .message (.start 10 none), .message .complete] s ∧ ¬ Furnished .download (handled [.urls, .message (.start 10 none)]) :=
  ⟨_, rfl, by rw [furnished_iff]; decide⟩

/-- A download with a real message of the server meets the hypotheses of `C104_finishes`. -/
example : ∃ text s, (htmlWorker .download).Reaches [.urls, .message (.client 1 8195), .message (.server text), .timeout] s ∧ s.settled = some (.returned 0) := by
  have ht : Typed exLayout exMeasurement := by
    refine ⟨?_, ?_, ?_⟩
    · rintro a ⟨⟩; decide
    · rintro a ⟨⟩; decide
    · rintro a ⟨⟩; exact ⟨⟨.cons (by decide) (.cons (by decide) .nil), rfl⟩, by decide⟩
  obtain ⟨text, h1, -⟩ := C80_message_reads_back exLayout_ok ht (by rintro a ⟨⟩; decide +kernel)
  obtain ⟨s, hs⟩ : ∃ s, (htmlWorker .download).Reaches [.urls, .message (.client 1 8195), .message (.server text), .timeout] s := by
    cases hj : parseJson text <;>
      simp only [LTS.Reaches, LTS.runFrom, htmlWorker, htmlStep, mainStep, runWorker, if_true, and_self, Option.bind_some, Main.onmessage, hj] <;> exact ⟨_, rfl⟩
  refine ⟨text, s, hs, (C104_finishes (ms := [exMeasurement]) exLayout_ok hs (by simpa using ht) (by simp [exMeasurement]) (.cons h1 .nil) ?_).2 ⟨.timeout, by simp, trivial⟩⟩
  intro b a c he hx
  rcases List.eq_nil_or_concat c with rfl | ⟨c, y, rfl⟩
  · have := List.append_inj' (s₁ := [MainAct.urls, .message (.client 1 8195), .message (.server text)]) (t₁ := [MainAct.timeout]) (s₂ := b) (t₂ := [a]) (by simpa using he) rfl
    rw [← this.1]
    simp [handled, passedOn, reportedTimes]
  · have hm : a ∈ [MainAct.urls, .message (.client 1 8195), .message (.server text)] := by
      have := List.append_inj' (s₁ := [MainAct.urls, .message (.client 1 8195), .message (.server text)]) (t₁ := [MainAct.timeout]) (s₂ := b ++ a :: c) (t₂ := [y]) (by simpa using he) rfl
      rw [this.1]; simp
    simp only [List.mem_cons, List.not_mem_nil, or_false] at hm
    rcases hm with rfl | rfl | rfl <;> exact hx.elim

end Verif.Props
