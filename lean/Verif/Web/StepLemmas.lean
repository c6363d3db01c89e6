import Verif.Web.PhaseLemmas

/-! # Every message of the script is handled -/

namespace Verif.Web
open Verif.Go Verif.Spec

set_option maxRecDepth 20000
set_option linter.unusedSimpArgs false

variable {P : Plan} {iv : Int} {c : Client} {said : List Bytes} {rate : Bytes}

/-- A message leads to the next phase. -/
def Steps (P : Plan) (ph : Phase) (iv : Int) (c : Client) (said : List Bytes) (f : Bytes) (rest : List Bytes) (env : Env) : Prop :=
  ∃ c' out ph' rate', onMessage c f env = .ok (c', out) ∧ ph'.rest P = rest ∧ At P ph' iv c' (said ++ out) rate'

set_option hygiene false in
local macro "fields" h:ident : tactic => `(tactic| (
  obtain ⟨hsplit, hint, hstate, hactive, htoRun, hch, hports, hfin, hshown, hup, hdown, hsaid, hrate⟩ := $h
  simp only [Phase.state, Phase.active, Phase.toRun, Phase.changes, Phase.ports, Phase.shown, Phase.upRate, Phase.downRate, Phase.said] at *))

set_option hygiene false in
local macro "close" : tactic => `(tactic| first
  | assumption
  | (intro a b hab; cases hab; done)
  | (simp [Phase.state, Phase.active, Phase.toRun, Phase.changes, Phase.ports, Phase.shown, Phase.upRate, Phase.downRate, Phase.said, allChanges, Client.change, Client.put, *]; done))

theorem step_queue (h : At P .queue iv c said rate) (env : Env) : Steps P .queue iv c said (fr 1 (str "0")) (Phase.version.rest P) env := by
  fields h
  refine ⟨c, [], .version, rate, ?_, rfl, ?_⟩
  · rw [onMessage_fr, seen_lit (by decide)]
    have h1 : isText (some (.str (str "0"))) (str "9990") = false := by decide
    have h2 : isText (some (.str (str "0"))) (str "9977") = false := by decide
    simp [dispatch, hactive, htoRun, coordinate, hstate, h1, h2]
  · constructor <;> close

theorem step_version (h : At P .version iv c said rate) (env : Env) : Steps P .version iv c said (fr 2 (str "v5.0-NDTinGO")) (Phase.ids.rest P) env := by
  fields h
  refine ⟨{ c with state := .testIds }, [], .ids, rate, ?_, rfl, ?_⟩
  · rw [onMessage_fr]
    simp [dispatch, hactive, htoRun, coordinate, hstate, asText]
    rfl
  · constructor <;> close

theorem step_ids (h : At P .ids iv c said rate) (env : Env) : Steps P .ids iv c said (fr 2 (str "2 4 32")) (Phase.up0.rest P) env := by
  fields h
  refine ⟨{ c with toRun := [.c2s .prepare, .s2c .prepare, .metadata .prepare], state := .results }, [], .up0, rate, ?_, rfl, ?_⟩
  · rw [onMessage_fr, seen_lit (by decide)]
    have ht : testsOf [str "2", str "4", str "32"] = .ok [.c2s .prepare, .s2c .prepare, .metadata .prepare] := by rfl
    simp [dispatch, hactive, htoRun, coordinate, hstate, asText]
    simp only [bind, Except.bind, testIds_read, ht]
  · constructor <;> close

theorem step_up0 (hP : P.Fits) (h : At P .up0 iv c said rate) (env : Env) : Steps P .up0 iv c said (fr 3 (itoa P.upPort)) (Phase.up1.rest P) env := by
  fields h
  refine ⟨{ c.change (str "preparing_c2s") with
    toRun := [.s2c .prepare, .metadata .prepare], ports := c.ports ++ [P.upPort], upload := some ⟨0, c.interval, false, false⟩, active := some (.c2s .start) }, [], .up1, rate, ?_, rfl, ?_⟩
  · rw [onMessage_fr, seen_itoa]
    simp [dispatch, hactive, htoRun, testMessage, uploadMessage, port_read hP.upPort, bind, Except.bind, Except.map, Client.change]
  · constructor <;> close

theorem step_up1 (h : At P .up1 iv c said rate) (env : Env) : Steps P .up1 iv c said (fr 4 []) (Phase.up2.rest P) env := by
  fields h
  obtain ⟨k1, k2, k3, k4, k5, k6, k7, k8, k9⟩ := keepSendingData_same (c.change (str "running_c2s")) { (c.upload.getD ⟨0, c.interval, false, false⟩) with start := env.now } env
  refine ⟨{ keepSendingData (c.change (str "running_c2s")) { (c.upload.getD ⟨0, c.interval, false, false⟩) with start := env.now } env with active := some (.c2s .msg) },
    [], .up2, rate, ?_, rfl, ?_⟩
  · rw [onMessage_fr]
    simp [dispatch, hactive, testMessage, uploadMessage, bind, Except.bind, Except.map, Client.change]
  · generalize keepSendingData (c.change (str "running_c2s")) { (c.upload.getD ⟨0, c.interval, false, false⟩) with start := env.now } env = k at *
    refine ⟨fun _ _ h => (by cases h), k1.trans hint, k2.trans hstate, rfl, k4.trans htoRun, k5.trans ?_, k6.trans hports, ?_, k8.trans hshown,
      fun h0 => (get_eq (c := c) (k9 (k1 ▸ h0)) _).trans (hup (k1 ▸ h0)), fun h0 => (get_eq (c := c) (k9 (k1 ▸ h0)) _).trans (hdown (k1 ▸ h0)), (by simp [hsaid, Phase.said]), hrate⟩
    · simp [Client.change, hch, Phase.changes, allChanges]
    · show k.finished = true ↔ _
      rw [k7]
      simpa [Client.change] using hfin

theorem step_up2 (h : At P .up2 iv c said rate) (env : Env) : Steps P .up2 iv c said (fr 5 (itoa P.upKbps)) (Phase.up3.rest P) env := by
  fields h
  refine ⟨{ c.put (str "c2sRate") (.number (itoa P.upKbps)) with active := some (.c2s .finalize) }, [], .up3, rate, ?_, rfl, ?_⟩
  · rw [onMessage_fr, seen_itoa]
    simp [dispatch, hactive, testMessage, uploadMessage, asText, bind, Except.bind, Except.map]
  · constructor
    case shown => rw [filter_put (.inl rfl)]; exact hshown
    case upRate => intro _; exact (get_put c _ _ _).trans (if_pos rfl)
    case downRate => intro h0; exact ((get_put c _ _ _).trans (if_neg (by decide))).trans (hdown h0)
    all_goals close

theorem step_up3 (h : At P .up3 iv c said rate) (env : Env) : Steps P .up3 iv c said (fr 6 []) (Phase.down0.rest P) env := by
  fields h
  refine ⟨{ c.change (str "finished_c2s") with active := none }, [], .down0, rate, ?_, rfl, ?_⟩
  · rw [onMessage_fr]
    simp [dispatch, hactive, testMessage, uploadMessage, bind, Except.bind, Except.map]
  · constructor <;> close

theorem step_down0 (hP : P.Fits) (h : At P .down0 iv c said rate) (env : Env) : Steps P .down0 iv c said (fr 3 (itoa P.downPort)) (Phase.down1.rest P) env := by
  fields h
  refine ⟨{ c.change (str "preparing_s2c") with
    toRun := [.metadata .prepare], ports := c.ports ++ [P.downPort], active := some (.s2c .start) }, [], .down1, rate, ?_, rfl, ?_⟩
  · rw [onMessage_fr, seen_itoa]
    simp [dispatch, hactive, htoRun, testMessage, downloadMessage, port_read hP.downPort, bind, Except.bind, Except.map, Client.change]
  · constructor <;> close

theorem step_down1 (h : At P .down1 iv c said rate) (env : Env) : Steps P .down1 iv c said (fr 4 []) (Phase.down2.rest P) env := by
  fields h
  refine ⟨{ c.change (str "running_s2c") with active := some (.s2c .firstMsg) }, [], .down2, rate, ?_, rfl, ?_⟩
  · rw [onMessage_fr]
    simp [dispatch, hactive, testMessage, downloadMessage, bind, Except.bind, Except.map]
  · constructor <;> close

theorem step_down2 (h : At P .down2 iv c said rate) (env : Env) (he : RateText env.rate) :
    Steps P .down2 iv c said (Ndt5.Messager.json.s2cFrame P.downKbps 0 P.acked) ((Phase.down3 [] P.lines).rest P) env := by
  fields h
  refine ⟨{ c.put (str "s2cRate") (.own env.rate) with active := some (.s2c .msgOrFinish) }, [makeNdtMessage 5 env.rate], .down3 [] P.lines, env.rate, ?_, rfl, ?_⟩
  · rw [onMessage_s2c]
    simp [dispatch, hactive, testMessage, downloadMessage, bind, Except.bind, Except.map]
  · constructor
    case split => intro a b hab; cases hab; rfl
    case shown => rw [filter_put (.inr rfl)]; exact hshown
    case upRate => intro h0; exact ((get_put c _ _ _).trans (if_neg (by decide))).trans (hup h0)
    case downRate => intro _; exact (get_put c _ _ _).trans (if_pos rfl)
    all_goals close

theorem step_line (hP : P.Fits) {past left : List Bytes} {l : Bytes} (h : At P (.down3 past (l :: left)) iv c said rate) (env : Env) :
    Steps P (.down3 past (l :: left)) iv c said (fr 5 l) ((Phase.down3 (past ++ [l]) left).rest P) env := by
  have hl : P.lines = past ++ (l :: left) := h.split _ _ rfl
  have hm : l ∈ P.lines := by rw [hl]; simp
  fields h
  obtain ⟨k, v, rest, h1, -⟩ := split_line (hP.lines l hm)
  have he : entryOf l = (k, .text (trim v)) := by unfold entryOf; rw [h1]
  have hn := hP.names l hm
  rw [he] at hn
  refine ⟨{ c.put k (.text (trim v)) with active := some (.s2c .msgOrFinish) }, [], .down3 (past ++ [l]) left, rate, ?_, rfl, ?_⟩
  · rw [onMessage_fr]
    simp [dispatch, hactive, testMessage, downloadMessage, asText, h1, bind, Except.bind, Except.map]
  · constructor
    case split => intro a b hab; cases hab; simp [hl]
    case shown =>
      have : notRate (k, .text (trim v)) = true := by simpa [notRate] using hn
      simp only [put_results, List.filter_cons, this, if_true, hshown, Phase.shown, List.map_append, List.map_cons, List.map_nil, List.reverse_append, List.reverse_cons,
        List.reverse_nil, List.nil_append, he, List.singleton_append]
    case upRate => intro h0; exact ((get_put c _ _ _).trans (if_neg hn.1)).trans (hup h0)
    case downRate => intro h0; exact ((get_put c _ _ _).trans (if_neg hn.2)).trans (hdown h0)
    all_goals close

theorem step_down3 {past : List Bytes} (h : At P (.down3 past []) iv c said rate) (env : Env) :
    Steps P (.down3 past []) iv c said (fr 6 []) (Phase.meta0.rest P) env := by
  have hl : P.lines = past ++ [] := h.split _ _ rfl
  rw [List.append_nil] at hl
  fields h
  refine ⟨{ c.change (str "finished_s2c") with active := none }, [], .meta0, rate, ?_, rfl, ?_⟩
  · rw [onMessage_fr]
    simp [dispatch, hactive, testMessage, downloadMessage, bind, Except.bind, Except.map]
  · constructor
    case shown => rw [show (Phase.meta0).shown P = (P.lines.map entryOf).reverse from rfl, hl]; exact hshown
    all_goals close

theorem step_meta0 (h : At P .meta0 iv c said rate) (env : Env) : Steps P .meta0 iv c said (fr 3 []) (Phase.meta1.rest P) env := by
  fields h
  refine ⟨{ c.change (str "preparing_meta") with toRun := [], active := some (.metadata .start) }, [], .meta1, rate, ?_, rfl, ?_⟩
  · rw [onMessage_fr]
    simp [dispatch, hactive, htoRun, testMessage, metaMessage, bind, Except.bind, Except.map, Client.change]
  · constructor <;> close

theorem step_meta1 (h : At P .meta1 iv c said rate) (env : Env) : Steps P .meta1 iv c said (fr 4 []) (Phase.meta2.rest P) env := by
  fields h
  refine ⟨{ c.change (str "running_meta") with active := some (.metadata .finalize) },
    [makeNdtMessage 5 (str "client.os.name:NDTjs"), makeNdtMessage 5 []], .meta2, rate, ?_, rfl, ?_⟩
  · rw [onMessage_fr]
    simp [dispatch, hactive, testMessage, metaMessage, bind, Except.bind, Except.map]
  · constructor <;> close

theorem step_meta2 (h : At P .meta2 iv c said rate) (env : Env) : Steps P .meta2 iv c said (fr 6 []) (Phase.results.rest P) env := by
  fields h
  refine ⟨{ c.change (str "finished_meta") with active := none }, [], .results, rate, ?_, rfl, ?_⟩
  · rw [onMessage_fr]
    simp [dispatch, hactive, testMessage, metaMessage, bind, Except.bind, Except.map]
  · constructor <;> close

theorem step_results (hP : P.Fits) (h : At P .results iv c said rate) (env : Env) : Steps P .results iv c said (fr 8 P.closing) (Phase.logout.rest P) env := by
  fields h
  obtain ⟨hc, hn⟩ := hP.closing
  have hs : split [10] P.closing = [P.closing] := split_absent fun hb => (hc _ hb).2.1 rfl
  have hs2 : split (str ": ") P.closing = [P.closing] := split_absent (x := 58) (sep := [32]) fun hb => (hc _ hb).2.2 rfl
  refine ⟨c.put P.closing .undef, [], .logout, rate, ?_, rfl, ?_⟩
  · rw [onMessage_fr, seen_ascii fun b hb => (hc b hb).1]
    simp [dispatch, hactive, htoRun, coordinate, hstate, asText, bind, Except.bind, hs, putLines, hs2]
  · constructor
    case shown =>
      have : notRate (P.closing, .undef) = true := by simpa [notRate] using hn
      simp only [put_results, List.filter_cons, this, if_true, hshown, Phase.shown]
    case upRate => intro h0; exact ((get_put c _ _ _).trans (if_neg hn.1)).trans (hup h0)
    case downRate => intro h0; exact ((get_put c _ _ _).trans (if_neg hn.2)).trans (hdown h0)
    all_goals close

theorem step_logout (h : At P .logout iv c said rate) (env : Env) : Steps P .logout iv c said (fr 9 []) (Phase.over.rest P) env := by
  fields h
  refine ⟨{ c.change (str "finished_all") with finished := true }, [], .over, rate, ?_, rfl, ?_⟩
  · rw [onMessage_fr]
    simp [dispatch, hactive, htoRun, coordinate, hstate]
  · constructor <;> close

/-- The page handles the next message of the script. -/
theorem step (hP : P.Fits) {ph : Phase} (h : At P ph iv c said rate) {f : Bytes} {rest : List Bytes} (hr : ph.rest P = f :: rest) (env : Env) (he : RateText env.rate) :
    Steps P ph iv c said f rest env := by
  cases ph with
  | down3 past left =>
    cases left with
    | nil => injection hr with h1 h2; subst h1 h2; exact step_down3 h env
    | cons l left => injection hr with h1 h2; subst h1 h2; exact step_line hP h env
  | queue => injection hr with h1 h2; subst h1 h2; exact step_queue h env
  | version => injection hr with h1 h2; subst h1 h2; exact step_version h env
  | ids => injection hr with h1 h2; subst h1 h2; exact step_ids h env
  | up0 => injection hr with h1 h2; subst h1 h2; exact step_up0 hP h env
  | up1 => injection hr with h1 h2; subst h1 h2; exact step_up1 h env
  | up2 => injection hr with h1 h2; subst h1 h2; exact step_up2 h env
  | up3 => injection hr with h1 h2; subst h1 h2; exact step_up3 h env
  | down0 => injection hr with h1 h2; subst h1 h2; exact step_down0 hP h env
  | down1 => injection hr with h1 h2; subst h1 h2; exact step_down1 h env
  | down2 => injection hr with h1 h2; subst h1 h2; exact step_down2 h env he
  | meta0 => injection hr with h1 h2; subst h1 h2; exact step_meta0 h env
  | meta1 => injection hr with h1 h2; subst h1 h2; exact step_meta1 h env
  | meta2 => injection hr with h1 h2; subst h1 h2; exact step_meta2 h env
  | results => injection hr with h1 h2; subst h1 h2; exact step_results hP h env
  | logout => injection hr with h1 h2; subst h1 h2; exact step_logout h env
  | over => cases hr

theorem step_idle {ph : Phase} (h : At P ph iv c said rate) {i : Idle} {c' : Client} (hi : idle c i = some c') : At P ph iv c' said rate := by
  cases i with
  | opened =>
    simp only [idle] at hi
    cases hu : c.upload with
    | none => rw [hu] at hi; cases hi
    | some u =>
      rw [hu] at hi
      cases hi
      obtain ⟨a1, a2, a3, a4, a5, a6, a7, a8, a9, a10, a11, a12, a13⟩ := h
      exact ⟨a1, a2, a3, a4, a5, a6, a7, a8, a9, a10, a11, a12, a13⟩
  | timer env =>
    simp only [idle] at hi
    cases hu : c.upload with
    | none => rw [hu] at hi; cases hi
    | some u =>
      rw [hu] at hi
      simp only at hi
      split at hi
      · cases hi
        obtain ⟨k1, k2, k3, k4, k5, k6, k7, k8, k9⟩ := keepSendingData_same c u env
        obtain ⟨a1, a2, a3, a4, a5, a6, a7, a8, a9, a10, a11, a12, a13⟩ := h
        exact ⟨a1, k1.trans a2, k2.trans a3, k3.trans a4, k4.trans a5, k5.trans a6, k6.trans a7, by rw [k7]; exact a8, k8.trans a9,
          fun h0 => (get_eq (k9 (k1 ▸ h0)) _).trans (a10 (k1 ▸ h0)), fun h0 => (get_eq (k9 (k1 ▸ h0)) _).trans (a11 (k1 ▸ h0)), a12, a13⟩
      · cases hi
  | received r =>
    simp only [idle] at hi
    split at hi
    · rename_i hne
      cases hi
      obtain ⟨a1, a2, a3, a4, a5, a6, a7, a8, a9, a10, a11, a12, a13⟩ := h
      exact ⟨a1, a2, a3, a4, a5, a6, a7, a8, (filter_put (.inr rfl)).trans a9, fun h0 => absurd h0 hne, fun h0 => absurd h0 hne, a12, a13⟩
    · cases hi

end Verif.Web
