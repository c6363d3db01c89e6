import Mathlib.Data.List.Forall2
import Verif.Spec.ClientView
import Verif.Props.Session
import Verif.Props.Messages
import Verif.Props.Archive

/-!
# C86: what the client of an ndt5 session reads
-/

namespace Verif.Props
open Verif.Go Verif.Ndt5 Verif.Spec

variable {cfg : Cfg} {evs : List Ev} {out : Outcome Unit}

private theorem quoteChunk_le (c : Chunk) (h : c.WF) : (quoteChunk c).length ≤ 6 * c.raw.length := by
  cases c with
  | ascii b =>
    simp only [quoteChunk, Chunk.raw, List.length_singleton]
    repeat' split
    all_goals simp
  | multi bs =>
    simp only [quoteChunk, Chunk.raw]
    split
    · rename_i h; simp [h]
    · split
      · rename_i h; simp [h]
      · omega
  | bad b => simp [quoteChunk, Chunk.raw]

private theorem flatMap_quote_le (cs : List Chunk) (h : ∀ c ∈ cs, c.WF) : (cs.flatMap quoteChunk).length ≤ 6 * (cs.flatMap Chunk.raw).length := by
  induction cs with
  | nil => simp
  | cons c cs ih =>
    simp only [List.flatMap_cons, List.length_append]
    have := quoteChunk_le c (h c (by simp))
    have := ih (fun c hc => h c (by simp [hc]))
    omega

private theorem quoteBody_le (s : Bytes) : (quoteBody s).length ≤ 6 * s.length := by
  have := flatMap_quote_le (chunks s) chunks_wf
  rwa [chunks_raw] at this

private theorem marshal_le (s : Bytes) (h : s.length ≤ 10000) : (JsonMessage.marshal { msg := s }).length < 65536 := by
  have := quoteBody_le s
  have h5 : (quote (str "msg")).length = 5 := by decide
  simp [JsonMessage.marshal, objectOfStrings, join, h5, quote] at *
  omega

private theorem isFrame_tlv (t : MsgType) (p : Bytes) (h : p.length < 65536) : IsFrame (tlvFrame t p) t p := C01_wire_format t p h

theorem carries_frame (m : Messager) (t : MsgType) (s : Bytes) (h : s.length ≤ 10000) : Carries m (m.frame t s) t s := by
  cases m with
  | tlv => exact isFrame_tlv t s (by omega)
  | json =>
    obtain ⟨s', h1, h2⟩ := C05_json_document s
    exact ⟨_, s', isFrame_tlv t _ (marshal_le s h), h1, h2⟩

private theorem shows_number (m : Messager) (t : MsgType) (n : Int) (h : InInt64 n) : Shows m (m.frame t (itoa n)) (t, .number n) :=
  ⟨itoa n, (atoi_iff.1 (atoi_itoa h)).1, carries_frame m t _ (by have := itoa_length h; omega)⟩

private theorem shows_results (m : Messager) (a b c : Int) (ha : InInt64 a) (hb : InInt64 b) (hc : InInt64 c) :
    Shows m (m.s2cFrame a b c) (5, .results a b c) := by
  cases m with
  | json =>
    refine ⟨itoa a, itoa b, itoa c, (atoi_iff.1 (atoi_itoa ha)).1, (atoi_iff.1 (atoi_itoa hb)).1, (atoi_iff.1 (atoi_itoa hc)).1,
      s2cResultJson a b c, isFrame_tlv 5 _ (s2cResultJson_length ha hb hc), ?_⟩
    rw [← parseJson_iff]
    unfold s2cResultJson
    rw [parseJson_objectOfStrings (by simp)]
    simp only [List.map_cons, List.map_nil, toValid_itoa]
    have e1 : toValid (str "ThroughputValue") = str "ThroughputValue" := by decide
    have e2 : toValid (str "UnsentDataAmount") = str "UnsentDataAmount" := by decide
    have e3 : toValid (str "TotalSentByte") = str "TotalSentByte" := by decide
    rw [e1, e2, e3]
  | tlv =>
    refine ⟨itoa a, itoa b, itoa c, (atoi_iff.1 (atoi_itoa ha)).1, (atoi_iff.1 (atoi_itoa hb)).1, (atoi_iff.1 (atoi_itoa hc)).1, ?_⟩
    have := isFrame_tlv 5 (itoa a ++ 32 :: itoa b ++ 32 :: itoa c) (by
      have := itoa_length ha; have := itoa_length hb; have := itoa_length hc
      simp; omega)
    simpa [Messager.s2cFrame, MsgType.testMsg] using this

private theorem int64_of {n : Int} (h : -9223372036854775808 ≤ n ∧ n ≤ 9223372036854775807) : InInt64 n := by unfold InInt64; omega

private theorem shows_entry (m : Messager) (name : Bytes) (n : Int) (h : Short (5, .entry name n)) :
    Shows m (m.frame 5 (name ++ str ": " ++ itoa n ++ [10])) (5, .entry name n) := by
  have hn := int64_of h.2
  refine ⟨itoa n, (atoi_iff.1 (atoi_itoa hn)).1, carries_frame m 5 _ ?_⟩
  have := itoa_length hn
  have := h.1
  simp [str]
  omega

private theorem shows_textEntry (m : Messager) (name s : Bytes) (h : Short (5, .textEntry name s)) :
    Shows m (m.frame 5 (name ++ str ": " ++ s ++ [10])) (5, .textEntry name s) := by
  refine carries_frame m 5 _ ?_
  have := h.1
  have := h.2
  simp [str]
  omega

/-- The text of an entry. -/
private def entryLine : Shown → Bytes
  | .entry name n => name ++ str ": " ++ itoa n ++ [10]
  | .textEntry name s => name ++ str ": " ++ s ++ [10]
  | _ => []

private theorem lines_metrics (lib : Lib) (w : Metrics) (r : S2CRecord) : resultLines lib w r = (shownMetrics lib w r).map entryLine := by
  have hz : natDec 0 = itoa 0 := rfl
  have hn : ∀ n : Nat, natDec n = itoa (n : Int) := fun n => by simp [itoa]
  have pre : ∀ s : String, str "NDTResult.S2C." ++ str s = str ("NDTResult.S2C." ++ s) := fun s => by simp [str]
  have hl : metricLines (str "TCPInfo.") w.tcpInfo.reflected = ((metricEntries (str "TCPInfo.") w.tcpInfo.reflected).map (fun e => Shown.textEntry e.1 e.2)).map entryLine := by
    rw [metricLines_entries, List.map_map]; rfl
  unfold resultLines shownMetrics
  rw [List.map_append, List.map_append, ← hl]
  have ht : str "TCPInfo" ++ str "." = str "TCPInfo." := rfl
  simp only [Metrics.reflect, S2CRecord.reflect, numField, metricLines, metricLine, List.nil_append, List.append_nil, List.cons_append, List.map_cons, List.map_nil, entryLine, hn, ht,
    List.append_assoc]
  rfl

private theorem shows_metrics (m : Messager) (lib : Lib) (w : Metrics) (r : S2CRecord) (h : ∀ x ∈ shownMetrics lib w r, Short (5, x)) :
    List.Forall₂ (Shows m) ((resultLines lib w r).map (m.frame MsgType.testMsg)) ((shownMetrics lib w r).map fun x => (5, x)) := by
  rw [lines_metrics]
  have hk : ∀ x ∈ shownMetrics lib w r, (∃ n i, x = .entry n i) ∨ ∃ n s, x = .textEntry n s := by
    intro x hx
    simp only [shownMetrics, List.mem_append, List.mem_map, List.mem_cons, List.not_mem_nil, or_false] at hx
    rcases hx with (hx | ⟨e, _, rfl⟩) | hx
    · rcases hx with rfl | rfl | rfl | rfl | rfl | rfl | rfl | rfl | rfl | rfl | rfl | rfl | rfl | rfl | rfl | rfl | rfl | rfl | rfl | rfl | rfl <;> exact .inl ⟨_, _, rfl⟩
    · exact .inr ⟨_, _, rfl⟩
    · rcases hx with rfl | rfl | rfl | rfl | rfl | rfl | rfl | rfl | rfl | rfl | rfl | rfl <;> first | exact .inl ⟨_, _, rfl⟩ | exact .inr ⟨_, _, rfl⟩
  generalize shownMetrics lib w r = xs at h hk
  induction xs with
  | nil => exact .nil
  | cons x xs ih =>
    refine .cons ?_ (ih (fun y hy => h y (by simp [hy])) fun y hy => hk y (by simp [hy]))
    rcases hk x (by simp) with ⟨n, i, rfl⟩ | ⟨n, s, rfl⟩
    · exact shows_entry m n i (h _ (by simp))
    · exact shows_textEntry m n s (h _ (by simp))

/-- Frames and messages agree, part by part. -/
private theorem shows_script {lib : Lib} {m : Messager} {n : Int} (h : ∀ x ∈ sessionView lib m n evs, Short x) :
    List.Forall₂ (Shows m) (sessionScript lib m n evs) (sessionView lib m n evs) := by
  unfold sessionView at h
  unfold sessionScript sessionView
  have app : ∀ {a c : List Bytes} {b d : List (UInt8 × Shown)}, List.Forall₂ (Shows m) a b → List.Forall₂ (Shows m) c d → List.Forall₂ (Shows m) (a ++ c) (b ++ d) :=
    fun h1 h2 => List.rel_append h1 h2
  have txt : ∀ (t : MsgType) (s : Bytes), Short (t, .text s) → Shows m (m.frame t s) (t, .text s) := fun t s h => carries_frame m t s h
  have emp : ∀ t : MsgType, Shows m (m.frame t []) (t, .text []) := fun t => txt t [] (by simp [Short])
  refine app ?_ (app ?_ (app ?_ (app ?_ ?_)))
  · refine .cons (txt 1 _ (show _ ≤ 10000 by decide)) (.cons (txt 2 _ (show _ ≤ 10000 by decide)) (.cons (txt 2 _ (h _ (by simp))) .nil))
  · split
    · rename_i hc
      rw [if_pos hc] at h
      exact .cons (shows_number m 3 _ (int64_of (h (3, .number _) (by simp [uploadView])))) (.cons (emp 4)
        (.cons (shows_number m 5 _ (int64_of (h (5, .number _) (by simp [uploadView])))) (.cons (emp 6) .nil)))
    · exact .nil
  · split
    · rename_i hc
      rw [if_pos hc] at h
      unfold downloadScript s2cScript downloadView
      have hr := h (5, .results (measuredDownload evs).toInt64 0 (downloadKernel evs).tcpInfo.bytesAcked) (by simp [downloadView])
      refine app (app (.cons (shows_number m 3 _ (int64_of (h (3, .number (portOf .s2c evs)) (by simp [downloadView])))) (.cons (emp 4)
        (.cons (shows_results m _ _ _ (int64_of hr.1) (int64_of hr.2.1) (int64_of hr.2.2)) .nil))) ?_) (.cons (emp 6) .nil)
      refine shows_metrics m lib _ _ fun x hx => h (5, x) ?_
      simp [downloadView, hx]
    · exact .nil
  · split
    · exact .cons (emp 3) (.cons (emp 4) (.cons (emp 6) .nil))
    · exact .nil
  · exact .cons (txt 8 _ (h _ (by simp))) (.cons (emp 9) .nil)

/-- C86: on a connection whose login is served, what the client reads is a beginning of the messages of the requested tests, with the types of the NDT protocol
and the contents described in `Spec/ClientView`; and all of them, if the connection is counted as okay. -/
theorem C86_client_view (h : Exec (HandleControlChannel cfg) () evs out ()) {m : Messager} {n : Int} (hs : Served cfg.kind evs m n)
    (hshort : ∀ x ∈ sessionView cfg.lib m n evs, Short x) :
    ∃ seen, List.Forall₂ (Shows m) (sent evs) seen ∧ seen <+: sessionView cfg.lib m n evs ∧
      (countedOkay (labelText cfg.kind) evs → seen = sessionView cfg.lib m n evs) := by
  have hsc := C12_script h hs
  have hall := shows_script hshort
  have hpre : sent evs <+: sessionScript cfg.lib m n evs := by
    rcases hsc.failStop with h | ⟨f, h⟩
    · rw [← h]; exact hsc.isPrefix
    · exact (List.prefix_append _ _).trans (h ▸ hsc.isPrefix)
  refine ⟨(sessionView cfg.lib m n evs).take (sent evs).length, ?_, List.take_prefix _ _, ?_⟩
  · rw [List.prefix_iff_eq_take.1 hpre]
    have := List.forall₂_take (sent evs).length hall
    rwa [← List.prefix_iff_eq_take.1 hpre] at this ⊢
  · intro hok
    rw [hsc.complete hok, hall.length_eq, List.take_length]

/-- The meta session is an example: its frames, read one by one. -/
example : (∀ x ∈ sessionView plainCfg.lib .tlv 57 metaSession, Short x) ∧ sent metaSession ≠ [] ∧
    List.Forall₂ (Shows .tlv) (sent metaSession) [(1, .text (str "0")), (2, .text (str "v5.0-NDTinGO")), (2, .text (str "32")), (3, .text []), (4, .text []),
      (6, .text []), (8, .text (str "You uploaded at 0.0000 and downloaded at 0.0000")), (9, .text [])] := by
  have hv : sessionView plainCfg.lib .tlv 57 metaSession = [(1, .text (str "0")), (2, .text (str "v5.0-NDTinGO")), (2, .text (str "32")), (3, .text []), (4, .text []),
      (6, .text []), (8, .text (str "You uploaded at 0.0000 and downloaded at 0.0000")), (9, .text [])] := by
    have r1 : requested 57 1 = false := by decide +kernel
    have r2 : requested 57 2 = false := by decide +kernel
    have r5 : requested 57 5 = true := by decide +kernel
    have ha : announced 57 = str "32" := by decide +kernel
    have hc : closingText (.fin 0) (.fin 0) = str "You uploaded at 0.0000 and downloaded at 0.0000" := by decide +kernel
    simp [sessionView, r1, r2, r5, ha, metaView, uploadRate, downloadRate, hc]
  have hs : ∀ x ∈ sessionView plainCfg.lib .tlv 57 metaSession, Short x := by
    rw [hv]
    simp [Short, str]
  refine ⟨hs, by decide +kernel, ?_⟩
  obtain ⟨seen, h1, -, h2⟩ := C86_client_view metaSession_exec (m := .tlv) (n := 57)
    ⟨_, rfl, .inl ⟨rfl, ⟨57, ⟨0, 1, rfl, rfl⟩, rfl⟩, rfl⟩, by decide +kernel⟩ hs
  rw [h2 (by unfold countedOkay; decide +kernel), hv] at h1
  exact h1

/-- So is a download: a session whose messages all meet `Short`, among them the metrics. -/
example : (sessionView plainCfg.lib .tlv 20 nanSession.1).all (fun x => match x with
      | (_, .text s) => s.length ≤ 10000
      | (_, .number n) => -9223372036854775808 ≤ n ∧ n ≤ 9223372036854775807
      | (_, .results a b c) => (-9223372036854775808 ≤ a ∧ a ≤ 9223372036854775807) ∧ (-9223372036854775808 ≤ b ∧ b ≤ 9223372036854775807) ∧
          (-9223372036854775808 ≤ c ∧ c ≤ 9223372036854775807)
      | (_, .entry name n) => name.length ≤ 1000 ∧ -9223372036854775808 ≤ n ∧ n ≤ 9223372036854775807
      | (_, .textEntry name s) => name.length ≤ 1000 ∧ s.length ≤ 8000) = true ∧ 38 ≤ (sent nanSession.1).length := by decide +kernel

end Verif.Props
