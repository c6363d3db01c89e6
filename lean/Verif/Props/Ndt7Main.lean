import Verif.Spec.Ndt7Main
import Verif.Props.Ndt7Page
import Verif.Props.Documents

/-!
# C102: what the page that runs ndt7 is told
-/

namespace Verif.Props
open Verif.Go Verif.Ndt7 Verif.Web Verif.Spec

variable {as : List MainAct} {s : Main}

private theorem handled_append (a b : List MainAct) : handled (a ++ b) = handled a ++ handled b := List.filterMap_append

private theorem forwards_nil : ForwardsAll [] [] := ⟨[], .nil, rfl⟩

private theorem forwards_snoc {ps : List Post} {cs : List Web.Call} {p : Post} {c : List Web.Call} (h : ForwardsAll ps cs) (hp : Forwards p c) : ForwardsAll (ps ++ [p]) (cs ++ c) := by
  obtain ⟨css, h1, rfl⟩ := h
  exact ⟨css ++ [c], List.rel_append h1 (.cons hp .nil), by simp⟩

private def Running (as : List MainAct) (s : Main) : Prop :=
  s.alive = true ∧ s.code = none ∧ s.timer = true ∧ .timeout ∉ as ∧ s.waits ≠ .failed ∧ ForwardsAll (handled as) s.calls ∧ s.lastClient = lastClientOf s.calls ∧ s.lastServer = lastServerOf s.calls ∧
    (s.waits = .urls → handled as = [])

private def Over (as : List MainAct) (s : Main) : Prop :=
  s.alive = false ∧ s.timer = false ∧
    ((s.code = some 0 ∧ s.waits = .worker ∧ .timeout ∉ as ∧ ∃ ps, handled as = ps ++ [.complete] ∧ ToldComplete ps s.calls) ∨
     (s.code = some 0 ∧ .timeout ∈ as ∧ ToldComplete (handled as) s.calls ∧ (s.waits ≠ .worker → handled as = [])) ∨
     (s.code = some 1 ∧ s.waits = .worker ∧ .timeout ∉ as ∧ ∃ ps, handled as = ps ++ [.error] ∧ ToldError ps s.calls) ∨
     (s.code = some 2 ∧ s.waits = .failed ∧ .timeout ∉ as ∧ handled as = [] ∧ s.calls = []))

private theorem main_inv (h : runWorker.Reaches as s) : (Running as s ∨ Over as s) ∧ (.noUrls ∈ as ↔ s.waits = .failed) := by
  refine LTS.invariant (T := runWorker) (P := fun as s => (Running as s ∨ Over as s) ∧ (.noUrls ∈ as ↔ s.waits = .failed)) ?_ ?_ h
  · refine ⟨.inl ⟨rfl, rfl, rfl, by simp, by simp [runWorker], forwards_nil, rfl, rfl, fun _ => rfl⟩, by simp [runWorker]⟩
  · rintro as s a s' - ⟨hi, hn⟩ hs
    cases a with
    | timeout =>
      simp only [runWorker, mainStep] at hs
      split at hs
      · rename_i ht
        cases hs
        refine ⟨.inr ?_, by simpa [Main.resolve] using hn⟩
        rcases hi with ⟨h1, h2, h3, h4, h5, h6, h7, h8, h9⟩ | ⟨-, h2, -⟩
        · refine ⟨rfl, rfl, .inr (.inl ⟨by simp [Main.resolve, h2], by simp, ?_, ?_⟩)⟩
          · have : handled (as ++ [.timeout]) = handled as := by rw [handled_append]; simp [handled]
            rw [this]
            exact ⟨s.calls, h6, by simp [Main.resolve, h7, h8]⟩
          · intro hw
            have : handled (as ++ [.timeout]) = handled as := by rw [handled_append]; simp [handled]
            rw [this]
            refine h9 ?_
            cases hws : s.waits
            · rfl
            · exact absurd hws hw
            · exact absurd hws h5
        · rw [h2] at ht; cases ht
      · cases hs
    | urls =>
      simp only [runWorker, mainStep] at hs
      split at hs
      · rename_i hw
        cases hs
        have hh : handled (as ++ [.urls]) = handled as := by rw [handled_append]; simp [handled]
        have ht : MainAct.timeout ∈ as ++ [.urls] ↔ .timeout ∈ as := by simp
        refine ⟨?_, by simp [hn, hw]⟩
        rcases hi with ⟨h1, h2, h3, h4, h5, h6, h7, h8, h9⟩ | ⟨h1, h2, h3⟩
        · exact .inl ⟨h1, h2, h3, by simpa using h4, by simp, by rw [hh]; exact h6, h7, h8, by simp⟩
        · refine .inr ⟨h1, h2, ?_⟩
          rw [hh, ht]
          rcases h3 with ⟨-, h, -⟩ | ⟨e1, e2, e3, e4⟩ | ⟨-, h, -⟩ | ⟨-, h, -⟩
          · rw [h] at hw; cases hw
          · exact .inr (.inl ⟨e1, e2, e3, by simp⟩)
          · rw [h] at hw; cases hw
          · rw [h] at hw; cases hw
      · cases hs
    | noUrls =>
      simp only [runWorker, mainStep] at hs
      split at hs
      · rename_i hw
        cases hs
        have hh : handled (as ++ [.noUrls]) = handled as := by rw [handled_append]; simp [handled]
        have ht : MainAct.timeout ∈ as ++ [.noUrls] ↔ .timeout ∈ as := by simp
        refine ⟨.inr ?_, by simp⟩
        rcases hi with ⟨h1, h2, h3, h4, h5, h6, h7, h8, h9⟩ | ⟨h1, h2, h3⟩
        · refine ⟨rfl, rfl, .inr (.inr (.inr ⟨by simp [Main.resolve, h2], rfl, by simpa using h4, by rw [hh]; exact h9 hw, ?_⟩))⟩
          have h9 := h9 hw
          rw [h9] at h6
          obtain ⟨css, f1, f2⟩ := h6
          cases f1
          simp [Main.resolve, f2]
        · refine ⟨rfl, rfl, ?_⟩
          rw [hh, ht]
          rcases h3 with ⟨-, h, -⟩ | ⟨e1, e2, e3, e4⟩ | ⟨-, h, -⟩ | ⟨-, h, -⟩
          · rw [h] at hw; cases hw
          · exact .inr (.inl ⟨by simp [Main.resolve, e1], e2, by simpa [Main.resolve] using e3, fun _ => e4 (by rw [hw]; simp)⟩)
          · rw [h] at hw; cases hw
          · rw [h] at hw; cases hw
      · cases hs
    | message p =>
      simp only [runWorker, mainStep] at hs
      split at hs
      · rename_i hw
        obtain ⟨hw, ha⟩ := hw
        cases hs
        have hh : handled (as ++ [.message p]) = handled as ++ [p] := by rw [handled_append]; simp [handled]
        have hwaits : (s.onmessage p).waits = s.waits := by
          cases p <;> simp only [Main.onmessage, Main.resolve]
          split <;> rfl
        refine ⟨?_, by rw [hwaits]; simpa using hn⟩
        rcases hi with ⟨h1, h2, h3, h4, h5, h6, h7, h8, h9⟩ | ⟨h1, h2, h3⟩
        · cases p with
          | start a b =>
            refine .inl ⟨h1, h2, h3, by simpa using h4, h5, by rw [hh]; exact forwards_snoc h6 .start, ?_, ?_, fun h => by rw [hwaits, hw] at h; cases h⟩
            · simp only [Main.onmessage, h7]; simp [lastClientOf]
            · simp only [Main.onmessage, h8]; simp [lastServerOf]
          | client e n =>
            refine .inl ⟨h1, h2, h3, by simpa using h4, h5, by rw [hh]; exact forwards_snoc h6 .client, ?_, ?_, fun h => by rw [hwaits, hw] at h; cases h⟩
            · simp [Main.onmessage, lastClientOf]
            · simp only [Main.onmessage, h8]; simp [lastServerOf]
          | server m =>
            cases hj : parseJson m with
            | none =>
              have e : s.onmessage (.server m) = s := by simp [Main.onmessage, hj]
              rw [e]
              refine .inl ⟨h1, h2, h3, by simpa using h4, h5, ?_, h7, h8, fun h => by rw [hw] at h; cases h⟩
              rw [hh]
              have := forwards_snoc h6 (.noJson (m := m) fun j hjj => by rw [parseJson_iff.2 hjj] at hj; cases hj)
              simpa using this
            | some j =>
              have e : s.onmessage (.server m) = { s with lastServer := some j, calls := s.calls ++ [.server j] } := by simp [Main.onmessage, hj]
              rw [e]
              refine .inl ⟨h1, h2, h3, by simpa using h4, h5, by rw [hh]; exact forwards_snoc h6 (.server (parseJson_iff.1 hj)), ?_, ?_, fun h => by rw [hw] at h; cases h⟩
              · simp only [h7]; simp [lastClientOf]
              · simp [lastServerOf]
          | complete =>
            exact .inr ⟨rfl, rfl, .inl ⟨by simp [Main.onmessage, Main.resolve, h2], hw, by simpa using h4, handled as, hh, s.calls, h6, by simp [Main.onmessage, Main.resolve, h7, h8]⟩⟩
          | error =>
            exact .inr ⟨rfl, rfl, .inr (.inr (.inl ⟨by simp [Main.onmessage, Main.resolve, h2], hw, by simpa using h4, handled as, hh, s.calls, h6, by simp [Main.onmessage, Main.resolve]⟩))⟩
        · rw [h1] at ha; cases ha
      · cases hs

/-- C102: when the subtest is over the code is 0 or 1. It is 1 exactly if the worker told of an error: then the user's `error` was called once, last, and `complete` never. It is 0 if the worker told of the end or the 12 seconds
were over: then `complete` was called once, last, with the last measurements, and `error` never. Before that every message was handed over, in order. -/
theorem C102_result (h : runWorker.Reaches as s) {code : Nat} (hc : s.settled = some (.returned code)) :
    (code = 0 ∧ ((∃ ps, handled as = ps ++ [.complete] ∧ ToldComplete ps s.calls) ∨ (.timeout ∈ as ∧ ToldComplete (handled as) s.calls))) ∨
    (code = 1 ∧ ∃ ps, handled as = ps ++ [.error] ∧ ToldError ps s.calls) := by
  obtain ⟨hi, -⟩ := main_inv h
  simp only [Main.settled] at hc
  cases hw : s.waits <;> simp only [hw] at hc
  · cases hc
  · obtain ⟨c, hcode, hcc⟩ := Option.map_eq_some_iff.1 hc
    cases hcc
    rcases hi with ⟨-, h2, -⟩ | ⟨-, -, ⟨e1, -, -, e2⟩ | ⟨e1, e2, e3, -⟩ | ⟨e1, -, -, e2⟩ | ⟨-, e2, -⟩⟩
    · rw [h2] at hcode; cases hcode
    · rw [e1] at hcode; cases hcode; exact .inl ⟨rfl, .inl e2⟩
    · rw [e1] at hcode; cases hcode; exact .inl ⟨rfl, .inr ⟨e2, e3⟩⟩
    · rw [e1] at hcode; cases hcode; exact .inr ⟨rfl, e2⟩
    · rw [e2] at hw; cases hw
  · cases hc

/-- C102: a subtest cannot hang: once the URLs are known or known not to be had, either it is over or the timeout is set, and the timeout ends it. -/
theorem C102_settles (h : runWorker.Reaches as s) (hw : s.waits ≠ .urls) : s.settled.isSome ∨ ∃ s', mainStep s .timeout = some s' ∧ s'.settled = some (.returned 0) := by
  obtain ⟨hi, -⟩ := main_inv h
  cases hws : s.waits
  · exact absurd hws hw
  · rcases hi with ⟨-, h2, h3, -⟩ | ⟨-, -, h3⟩
    · exact .inr ⟨_, by rw [mainStep, if_pos h3], by simp [Main.settled, Main.resolve, hws, h2]⟩
    · left
      rcases h3 with ⟨e, -⟩ | ⟨e, -⟩ | ⟨e, -⟩ | ⟨e, -⟩ <;> simp [Main.settled, hws, e]
  · left; simp [Main.settled, hws]

/-- C102: when it is over, it stays so: nothing is handed over any more and the code does not change. -/
theorem C102_over (h : runWorker.Reaches as s) {code : Nat} (hc : s.settled = some (.returned code)) (a : MainAct) : mainStep s a = none := by
  obtain ⟨hi, -⟩ := main_inv h
  simp only [Main.settled] at hc
  cases hw : s.waits <;> simp only [hw] at hc
  · cases hc
  · obtain ⟨c, hcode, hcc⟩ := Option.map_eq_some_iff.1 hc
    rcases hi with ⟨-, h2, -⟩ | ⟨h1, h2, -⟩
    · rw [h2] at hcode; cases hcode
    · cases a <;> simp [mainStep, hw, h1, h2]
  · cases hc

/-- C102: of a whole test whose two subtests are over, the value is the code of the download plus 16 times that of the upload: it is 0 exactly if both are, and both can be read off. -/
theorem C102_value {c : UserConfig} (hc : Consent c) {as' : List MainAct} {d u : Main} (hd : runWorker.Reaches as d) (hu : runWorker.Reaches as' u) {x y : Nat}
    (hx : d.settled = some (.returned x)) (hy : u.settled = some (.returned y)) :
    ∃ v, ndt7Test c d u = (d.calls, u.calls, some (.returned (.num v))) ∧ x = v % 16 ∧ y = v / 16 ∧ (v = 0 ↔ x = 0 ∧ y = 0) := by
  have hp : ¬ (c.userAcceptedDataPolicy = false ∧ c.mlabDataPolicyInapplicable = false) := by
    rintro ⟨h1, h2⟩
    rcases hc with h | h
    · rw [h1] at h; cases h
    · rw [h2] at h; cases h
  have hx' : x = 0 ∨ x = 1 := (C102_result hd hx).imp (·.1) (·.1)
  have hy' : y = 0 ∨ y = 1 := (C102_result hu hy).imp (·.1) (·.1)
  refine ⟨x + y * 16, ?_, by omega, by omega, by omega⟩
  simp [ndt7Test, downloadTest, uploadTest, runNDT7Worker, hp, caught, hx, hy, JsVal.shift4, JsVal.add]

/-- C102: without the consent of the user there is no worker, so no connection; the user's `error` is called, and the value is not 0, if there is one. -/
theorem C102_consent {c : UserConfig} (hc : ¬ Consent c) (d u : Main) :
    runNDT7Worker c d = ([.error], false, some (if c.errorThrows then .thrown else .returned 1)) ∧
    (c.errorThrows = false → (downloadTest c d).2 = some (.returned (.num 1)) ∧ (uploadTest c u).2 = some (.returned (.num 16)) ∧ (ndt7Test c d u).2.2 = some (.returned (.num 17))) ∧
    (c.errorThrows = true → (downloadTest c d).2 = some .thrown ∧ (uploadTest c u).2 = some .thrown ∧ (ndt7Test c d u).2.2 = some .thrown) := by
  have hp : c.userAcceptedDataPolicy = false ∧ c.mlabDataPolicyInapplicable = false := by
    unfold Consent at hc
    rw [not_or] at hc
    exact ⟨by simpa using hc.1, by simpa using hc.2⟩
  refine ⟨by simp [runNDT7Worker, hp], ?_, ?_⟩ <;> intro he <;> simp [ndt7Test, downloadTest, uploadTest, runNDT7Worker, hp, caught, he, JsVal.shift4, JsVal.add]

/-- C102: if the server's URLs cannot be had, and the user's `error` returns, that callback is called; but the value of the download is undefined, that of the upload 0, and that of the whole test NaN. -/
theorem C102_no_urls {c : UserConfig} (hc : Consent c) (he : c.errorThrows = false) {as' : List MainAct} {d u : Main} (hd : runWorker.Reaches as d) (hu : runWorker.Reaches as' u) (h1 : .noUrls ∈ as) (h2 : .noUrls ∈ as') :
    (downloadTest c d).2 = some (.returned .undefined) ∧ (uploadTest c u).2 = some (.returned (.num 0)) ∧ (ndt7Test c d u).2.2 = some (.returned .nan) ∧
    (∃ cs, (downloadTest c d).1 = cs ++ [.error]) ∧ ∃ cs, (uploadTest c u).1 = cs ++ [.error] := by
  have hp : ¬ (c.userAcceptedDataPolicy = false ∧ c.mlabDataPolicyInapplicable = false) := by
    rintro ⟨h1, h2⟩
    rcases hc with h | h
    · rw [h1] at h; cases h
    · rw [h2] at h; cases h
  have hd' : d.settled = some .thrown := by simp [Main.settled, (main_inv hd).2.1 h1]
  have hu' : u.settled = some .thrown := by simp [Main.settled, (main_inv hu).2.1 h2]
  simp [ndt7Test, downloadTest, uploadTest, runNDT7Worker, hp, caught, hd', hu', he, JsVal.shift4, JsVal.add]

/-- C102, what is documented of `uploadTest`, "Zero on success, and non-zero error code on failure", does not hold: the value is 0 although there was no server to upload to. -/
theorem C102_upload_code_false :
    ¬ ∀ (c : UserConfig) (as : List MainAct) (s : Main) (v : JsVal), Consent c → runWorker.Reaches as s → .noUrls ∈ as → (uploadTest c s).2 = some (.returned v) → ∃ n, v = .num n ∧ n ≠ 0 := by
  intro h
  obtain ⟨n, h1, h2⟩ := h ⟨true, false, false⟩ [.noUrls] _ (.num 0) (.inl rfl) rfl (by simp) rfl
  cases h1
  exact h2 rfl

/-- C102, nor does it that 0 means that a test was run: after 12 seconds without a word from the server `complete` is called and the code is 0. -/
theorem C102_success_false : ¬ ∀ (as : List MainAct) (s : Main), runWorker.Reaches as s → s.settled = some (.returned 0) → handled as ≠ [] := by
  intro h
  exact h [.urls, .timeout] _ rfl rfl rfl

/-! ## With the workers and the server -/

/-- C102: with the upload worker the code is 1 only if the browser reported an error of the connection. -/
theorem C102_upload_error (h : runWorker.Reaches as s) {ws : List UpAct} {w : Up} (hw : uploadWorker.Reaches ws w) (hm : handled as <+: posted w.log) (hc : s.settled = some (.returned 1)) : .onerror ∈ ws := by
  have hp : .post .error ∈ w.log → .onerror ∈ ws := by
    refine LTS.invariant (T := uploadWorker) (P := fun ws w => .post .error ∈ w.log → .onerror ∈ ws) (by simp [uploadWorker]) ?_ hw
    intro ws w a w' _ hi hs hx
    have hrun : ∀ (l : Loop) (t t2 : Rat) before, UpEv.post .error ∉ before → .post .error ∈ (w.run before l t t2).log → .post .error ∈ w.log := by
      intro l t t2 before hb hx
      simp only [Up.run, uploader, List.mem_append] at hx
      rcases hx with (hx | hx) | hx
      · exact hx
      · exact absurd hx hb
      · revert hx
        split
        · simp
        · split
          · simp [clientMeasurement]
          · intro hx
            simp only [List.mem_append] at hx
            rcases hx with hx | hx
            · split at hx <;> simp at hx
            · split at hx <;> simp [clientMeasurement] at hx
    cases a with
    | «open» start t t2 =>
      simp only [uploadWorker, upStep] at hs
      split at hs
      · cases hs
      · cases hs
        exact List.mem_append_left _ (hi (hrun _ _ _ _ (by simp) hx))
    | turn t t2 =>
      simp only [uploadWorker, upStep, Option.map_eq_some_iff] at hs
      obtain ⟨l, hl, rfl⟩ := hs
      exact List.mem_append_left _ (hi (hrun _ _ _ _ (by simp) hx))
    | buffer n =>
      simp only [uploadWorker, upStep, Option.some.injEq] at hs
      subst hs
      exact List.mem_append_left _ (hi hx)
    | onclose =>
      simp only [uploadWorker, upStep, Option.some.injEq] at hs
      subst hs
      refine List.mem_append_left _ (hi ?_)
      split at hx
      · exact hx
      · simpa using hx
    | onerror => simp
    | onmessage d =>
      refine List.mem_append_left _ (hi ?_)
      cases d <;> simp only [uploadWorker, upStep, Option.some.injEq] at hs <;> subst hs
      · exact hx
      · simpa using hx
  rcases C102_result h hc with ⟨h0, -⟩ | ⟨-, ps, h1, -⟩
  · cases h0
  · have : Post.error ∈ posted w.log := hm.subset (by rw [h1]; simp)
    obtain ⟨x, hx, he⟩ := List.mem_filterMap.1 this
    cases x <;> simp at he
    subst he
    exact hp hx

/-- C102: the measurements of the server reach the page as what they are: if the texts that the worker passed on are the encodings of measurements, `measurement` was called with a document for each of them, in order. -/
theorem C102_server {K : Layout} (hK : LayoutOk K) {ps : List Post} {cs : List Web.Call} (hf : ForwardsAll ps cs) {ms : List Measurement} (ht : ∀ m ∈ ms, Typed K m)
    (hm : List.Forall₂ (fun m b => encodeMeasurement K m = some b) ms (passedOn ps)) :
    List.Forall₂ (fun m j => measurementDoc K m j) ms (cs.filterMap fun | .server j => some j | _ => none) := by
  obtain ⟨css, h1, rfl⟩ := hf
  induction h1 generalizing ms with
  | nil =>
    cases hm
    exact .nil
  | @cons p c ps css hp _ ih =>
    have hs : ∀ q, (∀ m, q ≠ Post.server m) → passedOn (q :: ps) = passedOn ps := by
      intro q hq
      unfold passedOn
      rw [List.filterMap_cons_none]
      cases q <;> first | rfl | exact absurd rfl (hq _)
    cases hp with
    | start =>
      rw [hs _ (by simp)] at hm
      exact ih ht hm
    | client =>
      rw [hs _ (by simp)] at hm
      exact ih ht hm
    | @server m j hj =>
      have e : passedOn (.server m :: ps) = m :: passedOn ps := rfl
      rw [e] at hm
      cases hm with
      | @cons x _ xs _ hx hxs =>
        obtain ⟨j', g1, g2⟩ := C88_message_document hK (ht x (by simp)) hx
        have : j' = j := by
          have a := parseJson_iff.2 g1
          have b := parseJson_iff.2 hj
          rw [a] at b
          simpa using b
        subst this
        exact .cons g2 (ih (fun m hm => ht m (by simp [hm])) hxs)
    | @noJson m hj =>
      have e : passedOn (.server m :: ps) = m :: passedOn ps := rfl
      rw [e] at hm
      cases hm with
      | @cons x _ xs _ hx hxs =>
        obtain ⟨j', g1, g2⟩ := C88_message_document hK (ht x (by simp)) hx
        exact absurd g1 (hj j')

/-! ## Example -/

/-- The upload of `exUp`, seen by the page. -/
def exMain : List MainAct :=
  [.urls, .message (.start (1/10) (some (101/10))), .message (.server (str "{}")), .message (.client (301/1000) 8192), .message (.client (10001/1000) 16384), .message .complete]

private theorem obj_read : parseJson (str "{}") = some (.obj []) := rfl

theorem exMain_reach : ∃ s, runWorker.Reaches exMain s ∧ s.settled = some (.returned 0) ∧
    s.calls = [.start (1/10) (some (101/10)), .server (.obj []), .client (301/1000) 8192, .client (10001/1000) 16384, .complete (some (10001/1000, 16384)) (some (.obj []))] := by
  have h : ∃ s, runWorker.runFrom runWorker.init exMain = some s ∧ s.settled = some (.returned 0) ∧
      s.calls = [.start (1/10) (some (101/10)), .server (.obj []), .client (301/1000) 8192, .client (10001/1000) 16384, .complete (some (10001/1000, 16384)) (some (.obj []))] := by
    unfold exMain
    simp only [LTS.runFrom, runWorker, mainStep, Main.onmessage, obj_read, Main.resolve, if_true, Option.bind_some, and_self]
    exact ⟨_, rfl, rfl, rfl⟩
  exact h

example : ∃ w, uploadWorker.Reaches exUp w ∧ handled exMain <+: posted w.log := by
  obtain ⟨w, h1, h2⟩ := exUp_reach
  exact ⟨w, h1, by rw [h2]; exact ⟨[], rfl⟩⟩

example : ∃ s, runWorker.Reaches [.urls, .message .error] s ∧ s.settled = some (.returned 1) := ⟨_, rfl, rfl⟩

end Verif.Props
