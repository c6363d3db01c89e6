import Verif.Ndt7.Receiver

/-!
# The ndt7 receiver: C47, C48, C70
-/

namespace Verif.Props
open Verif.Go Verif.Ndt7

/-- The handler accepts this pong. -/
def goodPong (p : Pong) : Bool := (parseTicks p.payload p.at').isSome

/-! ## C47: what is recorded -/

/-- The messages that arrive, up to the first failure of the connection, in the form of `some body` for text and `none` for binary
messages. -/
def arrived : List RxAns → List (Option Bytes)
  | [] => []
  | .expired :: _ => []
  | .next pongs i :: as =>
    if pongs.all goodPong then
      match i with
      | .broken _ => []
      | .binary => none :: arrived as
      | .text pongs2 (.ok body) => if pongs2.all goodPong then some body :: arrived as else []
      | .text _ (.error _) => []
    else []

/-- The messages that do not stop a receiver. -/
def acceptable (parse : Bytes → Option Measurement) (kind : Subtest) : Option Bytes → Bool
  | none => kind == .upload
  | some body => (parse body).isSome

private theorem handlePongs_good {kind : Subtest} {ps : List Pong} (h : ps.all goodPong = true) : handlePongs kind ps = ([], true) := by
  induction ps with
  | nil => rfl
  | cons p ps ih =>
    simp only [List.all_cons, Bool.and_eq_true] at h
    obtain ⟨h1, h2⟩ := h
    obtain ⟨d, hd⟩ := Option.isSome_iff_exists.1 h1
    simp only [handlePongs, hd]
    exact ih h2

private theorem handlePongs_bad {kind : Subtest} {ps : List Pong} (h : ¬ ps.all goodPong = true) :
    handlePongs kind ps = ([rxCount kind "ping-parse-ticks"], false) := by
  induction ps with
  | nil => simp at h
  | cons p ps ih =>
    simp only [handlePongs]
    cases hd : parseTicks p.payload p.at' with
    | none => rfl
    | some d =>
      refine ih ?_
      simpa [goodPong, hd] using h

private theorem run_recorded (parse : Bytes → Option Measurement) (kind : Subtest) (as : List RxAns) (rec : List Measurement) :
    (runScript (rxStep parse kind) rec as).2.1 =
      rec ++ ((arrived as).takeWhile (acceptable parse kind)).filterMap (·.bind parse) := by
  induction as generalizing rec with
  | nil => simp [runScript, arrived]
  | cons a as ih =>
    cases a with
    | expired => simp [runScript, rxStep, arrived]
    | next pongs i =>
      by_cases hp : pongs.all goodPong = true
      · simp only [runScript, rxStep, handlePongs_good hp, arrived, if_pos hp]
        cases i with
        | broken e => simp
        | binary => cases kind <;> simp [ih, acceptable]
        | text pongs2 body =>
          cases body with
          | error e =>
            by_cases hp2 : pongs2.all goodPong = true
            · simp [handlePongs_good hp2]
            · simp [handlePongs_bad hp2]
          | ok body =>
            by_cases hp2 : pongs2.all goodPong = true
            · simp only [handlePongs_good hp2, if_pos hp2]
              cases hm : parse body with
              | none => simp [acceptable, hm]
              | some m => simp [ih, acceptable, hm]
            · simp only [handlePongs_bad hp2, if_neg hp2]
              simp
      · simp only [runScript, rxStep, handlePongs_bad hp, arrived, if_neg hp]
        simp

/-- C47: the client measurements recorded are the text messages that arrived, in order, up to the first one that cannot be decoded or,
in a download, the first binary message. Nothing is recorded if the read deadline cannot be set. -/
theorem C47_recorded_exactly {parse : Bytes → Option Measurement} {kind : Subtest} {deadline : Option Err} {as : List RxAns} {evs rec res}
    (h : receiver parse kind deadline as = (evs, rec, res)) :
    rec = if deadline = none then ((arrived as).takeWhile (acceptable parse kind)).filterMap (·.bind parse) else [] := by
  unfold receiver at h
  cases deadline with
  | some e => simp only [Prod.mk.injEq] at h; simp [← h.2.1]
  | none =>
    simp only [Prod.mk.injEq] at h
    rw [← h.2.1, run_recorded]
    simp

/-- C47: an unacceptable message ends the receiver. -/
theorem C47_stops {parse : Bytes → Option Measurement} {kind : Subtest} {as : List RxAns} {evs rec res}
    (h : receiver parse kind none as = (evs, rec, res)) (hbad : ∃ m ∈ arrived as, ¬ acceptable parse kind m = true) : res = some () := by
  simp only [receiver, Prod.mk.injEq] at h
  rw [← h.2.2]
  clear h
  suffices H : ∀ r0, (runScript (rxStep parse kind) r0 as).2.2 = some () from H []
  induction as with
  | nil => simp [arrived] at hbad
  | cons a as ih =>
    intro r0
    cases a with
    | expired => simp [arrived] at hbad
    | next pongs i =>
      by_cases hp : pongs.all goodPong = true
      · simp only [arrived, if_pos hp] at hbad
        simp only [runScript, rxStep, handlePongs_good hp]
        cases i with
        | broken e => simp
        | binary =>
          cases kind with
          | download => simp
          | upload =>
            simp only [List.mem_cons, exists_eq_or_imp] at hbad
            exact ih (hbad.resolve_left (by simp [acceptable])) _
        | text pongs2 body =>
          cases body with
          | error e => simp at hbad
          | ok body =>
            by_cases hp2 : pongs2.all goodPong = true
            · simp only [if_pos hp2] at hbad
              simp only [handlePongs_good hp2]
              cases hm : parse body with
              | none => simp
              | some m => exact ih (by simpa [acceptable, hm] using hbad) _
            · simp only [if_neg hp2] at hbad; simp at hbad
      · simp only [arrived, if_neg hp] at hbad; simp at hbad

/-- C47: a receiver is not ended by messages that are acceptable: as long as nothing fails it goes on. -/
theorem C47_continues {parse : Bytes → Option Measurement} {kind : Subtest} {as : List RxAns} {evs rec res}
    (h : receiver parse kind none as = (evs, rec, res)) (hall : (arrived as).length = as.length)
    (hok : ∀ m ∈ arrived as, acceptable parse kind m = true) : res = none ∧ evs = [.setDeadline none] := by
  simp only [receiver, Prod.mk.injEq] at h
  rw [← h.2.2, ← h.1]
  clear h
  suffices H : ∀ r0, (runScript (rxStep parse kind) r0 as).2.2 = none ∧ (runScript (rxStep parse kind) r0 as).1 = [] by
    simp [H []]
  induction as with
  | nil => simp [runScript]
  | cons a as ih =>
    intro r0
    cases a with
    | expired => simp [arrived] at hall
    | next pongs i =>
      by_cases hp : pongs.all goodPong = true
      · simp only [arrived, if_pos hp] at hok hall
        simp only [runScript, rxStep, handlePongs_good hp]
        cases i with
        | broken e => simp at hall
        | binary =>
          cases kind with
          | download => simp [acceptable] at hok
          | upload =>
            simp only [List.mem_cons, forall_eq_or_imp] at hok
            simpa using ih (by simpa using hall) hok.2 r0
        | text pongs2 body =>
          cases body with
          | error e => simp at hall
          | ok body =>
            by_cases hp2 : pongs2.all goodPong = true
            · simp only [if_pos hp2] at hok hall
              simp only [handlePongs_good hp2]
              simp only [List.mem_cons, forall_eq_or_imp] at hok
              obtain ⟨m, hm⟩ := Option.isSome_iff_exists.1 hok.1
              rw [hm]
              simpa using ih (by simpa using hall) hok.2 _
            · simp only [if_neg hp2] at hall; simp at hall
      · simp only [arrived, if_neg hp] at hall; simp at hall

/-- A decoder for the examples: the body is the number of bytes. -/
def exParse (body : Bytes) : Option Measurement := (atoi body).map fun n => { app := some { numBytes := n, elapsed := 0 } }

/-- An upload with two measurements between binary messages and a pong, and a third one after an undecodable message. -/
def exMessages : List RxAns :=
  [.next [] .binary, .next [⟨str "17", 20⟩] (.text [] (.ok (str "5"))), .next [] .binary, .next [] (.text [⟨str "18", 20⟩] (.ok (str "6"))),
    .next [] (.text [] (.ok (str "{"))), .next [] (.text [] (.ok (str "7")))]

example : arrived exMessages = [none, some (str "5"), none, some (str "6"), some (str "{"), some (str "7")] := by decide +kernel

example : (receiver exParse .upload none exMessages).2.1.filterMap (·.app.map (·.numBytes)) = [5, 6] := by decide +kernel
example : (receiver exParse .download none exMessages).2.1.filterMap (·.app.map (·.numBytes)) = [] := by decide +kernel
example : (receiver exParse .upload none exMessages).1 = [.setDeadline none, .count (str "1") (str "unmarshal-client-message")] := by decide +kernel
example : (receiver exParse .upload none (exMessages.take 4)).2.2 = none := by decide +kernel

/-! ## C48: one exit reason -/

/-- The reasons counted. -/
def rxReasons (evs : List RecvEv) : List Bytes := evs.filterMap fun | .count _ r => some r | _ => none

/-- Every pong that arrives is accepted by the handler. -/
def PongsGood (as : List RxAns) : Prop :=
  ∀ a ∈ as, match a with
    | .expired => True
    | .next pongs i => pongs.all goodPong = true ∧ match i with
      | .text pongs2 _ => pongs2.all goodPong = true
      | _ => True

/-- Why a receiver returns: everything that one iteration can be. -/
inductive RxEnd (parse : Bytes → Option Measurement) (kind : Subtest) : RxAns → List Bytes → Prop
  | expired : RxEnd parse kind .expired [str "receiver-context-expired"]
  | badPong (ps i) (h : ¬ ps.all goodPong = true) : RxEnd parse kind (.next ps i) [str "ping-parse-ticks", str "read-message-type"]
  | broken (ps e) (h : ps.all goodPong = true) : RxEnd parse kind (.next ps (.broken e)) [str "read-message-type"]
  | wrongType (ps) (h : ps.all goodPong = true) (hk : kind = .download) : RxEnd parse kind (.next ps .binary) [str "wrong-message-type"]
  | badPong2 (ps qs b) (h : ps.all goodPong = true) (h2 : ¬ qs.all goodPong = true) :
      RxEnd parse kind (.next ps (.text qs b)) [str "ping-parse-ticks", str "read-message"]
  | readFailed (ps qs e) (h : ps.all goodPong = true) (h2 : qs.all goodPong = true) :
      RxEnd parse kind (.next ps (.text qs (.error e))) [str "read-message"]
  | undecodable (ps qs b) (h : ps.all goodPong = true) (h2 : qs.all goodPong = true) (hp : parse b = none) :
      RxEnd parse kind (.next ps (.text qs (.ok b))) [str "unmarshal-client-message"]

private theorem rxReasons_append (a b : List RecvEv) : rxReasons (a ++ b) = rxReasons a ++ rxReasons b := by simp [rxReasons]

private theorem step_end {parse : Bytes → Option Measurement} {kind : Subtest} {rec : List Measurement} {a : RxAns} {evs rec'} {r : Unit}
    (h : rxStep parse kind rec a = (evs, rec', some r)) : RxEnd parse kind a (rxReasons evs) := by
  cases a with
  | expired => simp only [rxStep, Prod.mk.injEq] at h; rw [← h.1]; exact .expired
  | next pongs i =>
    by_cases hp : pongs.all goodPong = true
    · simp only [rxStep, handlePongs_good hp] at h
      cases i with
      | broken e => simp only [Prod.mk.injEq] at h; rw [← h.1]; exact .broken _ _ hp
      | binary =>
        cases kind <;> simp only [Prod.mk.injEq, reduceCtorEq, and_false] at h
        rw [← h.1]; exact .wrongType _ hp rfl
      | text qs b =>
        by_cases hp2 : qs.all goodPong = true
        · simp only [handlePongs_good hp2] at h
          cases b with
          | error e => simp only [Prod.mk.injEq] at h; rw [← h.1]; exact .readFailed _ _ _ hp hp2
          | ok b =>
            cases hm : parse b with
            | none => simp only [hm, Prod.mk.injEq] at h; rw [← h.1]; exact .undecodable _ _ _ hp hp2 hm
            | some m => simp only [hm, Prod.mk.injEq, reduceCtorEq, and_false] at h
        · simp only [handlePongs_bad hp2, Prod.mk.injEq] at h
          rw [← h.1]; exact .badPong2 _ _ _ hp hp2
    · simp only [rxStep, handlePongs_bad hp, Prod.mk.injEq] at h
      rw [← h.1]; exact .badPong _ _ hp

private theorem step_next {parse : Bytes → Option Measurement} {kind : Subtest} {rec : List Measurement} {a : RxAns} {evs rec'}
    (h : rxStep parse kind rec a = (evs, rec', none)) : evs = [] := by
  cases a with
  | expired => simp [rxStep] at h
  | next pongs i =>
    by_cases hp : pongs.all goodPong = true
    · simp only [rxStep, handlePongs_good hp] at h
      cases i with
      | broken e => simp at h
      | binary => cases kind <;> simp at h; exact h.1.symm ▸ rfl
      | text qs b =>
        by_cases hp2 : qs.all goodPong = true
        · simp only [handlePongs_good hp2] at h
          cases b with
          | error e => simp at h
          | ok b => cases hm : parse b <;> simp [hm] at h; exact h.1.symm ▸ rfl
        · simp [handlePongs_bad hp2] at h
    · simp [rxStep, handlePongs_bad hp] at h

/-- C48: the reasons counted by a receiver: none while it runs; when it returned, exactly those for the thing that ended it, namely
that the read deadline could not be set, or the last iteration. -/
theorem C48_reasons_exact {parse : Bytes → Option Measurement} {kind : Subtest} {deadline : Option Err} {as : List RxAns} {evs rec res}
    (h : receiver parse kind deadline as = (evs, rec, res)) :
    (res = none → rxReasons evs = []) ∧
    (res = some () → (deadline ≠ none ∧ rxReasons evs = [str "set-read-deadline"]) ∨
      (deadline = none ∧ ∃ a ∈ as, RxEnd parse kind a (rxReasons evs))) := by
  unfold receiver at h
  cases deadline with
  | some e =>
    simp only [Prod.mk.injEq] at h
    obtain ⟨rfl, -, rfl⟩ := h
    exact ⟨by simp, fun _ => .inl ⟨by simp, rfl⟩⟩
  | none =>
    simp only [Prod.mk.injEq] at h
    obtain ⟨rfl, -, rfl⟩ := h
    suffices H : ∀ as r0, ((runScript (rxStep parse kind) r0 as).2.2 = none → (runScript (rxStep parse kind) r0 as).1 = []) ∧
        ((runScript (rxStep parse kind) r0 as).2.2 = some () → ∃ a ∈ as, RxEnd parse kind a (rxReasons (runScript (rxStep parse kind) r0 as).1)) by
      refine ⟨fun hr => ?_, fun hr => .inr ⟨rfl, ?_⟩⟩
      · rw [(H as []).1 hr]; rfl
      · exact (H as []).2 hr
    intro as
    induction as with
    | nil => intro r0; simp [runScript]
    | cons a as ih =>
      intro r0
      rw [runScript]
      split
      · rename_i e1 s1 r1 h1
        exact ⟨by simp, fun _ => ⟨a, by simp, step_end h1⟩⟩
      · rename_i e1 s1 h1
        obtain rfl := step_next h1
        refine ⟨fun hr => by simpa using (ih s1).1 hr, fun hr => ?_⟩
        obtain ⟨b, hb, he⟩ := (ih s1).2 hr
        exact ⟨b, by simp [hb], by simpa using he⟩

/-- C48, partial: exactly one reason is counted by each receiver that returned, provided that the client sends no malformed pongs. -/
theorem C48_one_reason_partial {parse : Bytes → Option Measurement} {kind : Subtest} {deadline : Option Err} {as : List RxAns} {evs rec res}
    (h : receiver parse kind deadline as = (evs, rec, res)) (hp : PongsGood as) :
    (rxReasons evs).length = if res = none then 0 else 1 := by
  obtain ⟨h1, h2⟩ := C48_reasons_exact h
  cases res with
  | none => simp [h1 rfl]
  | some u =>
    rcases h2 rfl with ⟨-, h3⟩ | ⟨-, a, ha, he⟩
    · simp [h3]
    · have := hp a ha
      generalize rxReasons evs = rs at he
      cases he <;> first | rfl | (simp at this; rename_i h; simp at h; grind)

/-- C48: at most two reasons are counted, and two only for a malformed pong. -/
theorem C48_at_most_two {parse : Bytes → Option Measurement} {kind : Subtest} {deadline : Option Err} {as : List RxAns} {evs rec res}
    (h : receiver parse kind deadline as = (evs, rec, res)) :
    (rxReasons evs).length ≤ 2 ∧ ((rxReasons evs).length = 2 → str "ping-parse-ticks" ∈ rxReasons evs) := by
  obtain ⟨h1, h2⟩ := C48_reasons_exact h
  cases res with
  | none => simp [h1 rfl]
  | some u =>
    rcases h2 rfl with ⟨-, h3⟩ | ⟨-, a, ha, he⟩
    · simp [h3]
    · generalize rxReasons evs = rs at he
      cases he <;> simp

/-- C48 is violated: a malformed pong is counted itself and makes the read fail, which is counted again. -/
theorem C48_one_reason_false (parse : Bytes → Option Measurement) (kind : Subtest) :
    ∃ as, (receiver parse kind none as).2.2 = some () ∧
      rxReasons (receiver parse kind none as).1 = [str "ping-parse-ticks", str "read-message-type"] :=
  ⟨[.next [⟨str "pong", 0⟩] .binary], by
    have hp : ¬ [(⟨str "pong", 0⟩ : Pong)].all goodPong = true := by decide +kernel
    constructor <;> simp [receiver, runScript, rxStep, handlePongs_bad hp, rxReasons, rxCount]⟩

example : PongsGood exMessages := by
  unfold exMessages PongsGood
  simp only [List.forall_mem_cons]
  refine ⟨?_, ?_, ?_, ?_, ?_, ?_, by simp⟩ <;> decide +kernel

/-! ## C70: the direction label -/

/-- C70, partial: all counts of a receiver carry one label, which tells the directions apart. -/
theorem C70_direction_label_partial {parse : Bytes → Option Measurement} {kind : Subtest} {deadline : Option Err} {as : List RxAns} {evs rec res}
    (h : receiver parse kind deadline as = (evs, rec, res)) {direction reason : Bytes} (he : .count direction reason ∈ evs) :
    direction = if kind = .download then str "0" else str "1" := by
  have hstep : ∀ (h0 : List RecvEv) (s : List Measurement) (a : RxAns) (evs : List RecvEv) (s' : List Measurement) (o : Option Unit),
      (∀ d r, RecvEv.count d r ∈ h0 → d = kindLabel kind) → rxStep parse kind s a = (evs, s', o) →
      ∀ d r, RecvEv.count d r ∈ h0 ++ evs → d = kindLabel kind := by
    intro h0 s a evs s' o hi hs d r hm
    rcases List.mem_append.1 hm with hm | hm
    · exact hi d r hm
    · cases o with
      | none => rw [step_next hs] at hm; simp at hm
      | some u =>
        cases a with
        | expired => simp only [rxStep, Prod.mk.injEq] at hs; rw [← hs.1] at hm; simp [rxCount] at hm; exact hm.1
        | next ps i =>
          by_cases hp : ps.all goodPong = true
          · simp only [rxStep, handlePongs_good hp] at hs
            cases i with
            | broken e => simp only [Prod.mk.injEq] at hs; rw [← hs.1] at hm; simp [rxCount] at hm; exact hm.1
            | binary =>
              cases kind <;> simp only [Prod.mk.injEq, reduceCtorEq, and_false] at hs
              rw [← hs.1] at hm; simp [rxCount] at hm; exact hm.1
            | text qs b =>
              by_cases hp2 : qs.all goodPong = true
              · simp only [handlePongs_good hp2] at hs
                cases b with
                | error e => simp only [Prod.mk.injEq] at hs; rw [← hs.1] at hm; simp [rxCount] at hm; exact hm.1
                | ok b =>
                  cases hx : parse b with
                  | none => simp only [hx, Prod.mk.injEq] at hs; rw [← hs.1] at hm; simp [rxCount] at hm; exact hm.1
                  | some m => simp only [hx, Prod.mk.injEq, reduceCtorEq, and_false] at hs
              · simp only [handlePongs_bad hp2, Prod.mk.injEq] at hs
                rw [← hs.1] at hm; simp [rxCount] at hm; grind
          · simp only [rxStep, handlePongs_bad hp, Prod.mk.injEq] at hs
            rw [← hs.1] at hm; simp [rxCount] at hm; grind
  have hk : kindLabel kind = if kind = .download then str "0" else str "1" := by cases kind <;> rfl
  rw [← hk]
  unfold receiver at h
  cases deadline with
  | some e =>
    simp only [Prod.mk.injEq] at h
    rw [← h.1] at he
    simp [rxCount] at he
    exact he.1
  | none =>
    simp only [Prod.mk.injEq] at h
    rw [← h.1] at he
    have := runScript_invariant hstep as [.setDeadline none] [] (by simp) (o := _) rfl
    exact this _ _ he

/-- C70 is violated: whenever a receiver counts, the label is not the name of the direction that the documentation promises. -/
theorem C70_direction_label_false {parse : Bytes → Option Measurement} {kind : Subtest} {deadline : Option Err} {as : List RxAns} {evs rec res}
    (h : receiver parse kind deadline as = (evs, rec, res)) {direction reason : Bytes} (he : .count direction reason ∈ evs) :
    direction ≠ str "download" ∧ direction ≠ str "upload" := by
  rw [C70_direction_label_partial h he]
  cases kind <;> decide

example : (receiver exParse .upload none [.expired]).1 = [.setDeadline none, .count (str "1") (str "receiver-context-expired")] := by decide +kernel

end Verif.Props
