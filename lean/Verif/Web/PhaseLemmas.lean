import Verif.Web.StageLemmas

/-! # The page follows the script of the server -/

namespace Verif.Web
open Verif.Go Verif.Spec

set_option maxRecDepth 20000

/-- What the frames of a session depend on. -/
structure Plan where
  upPort : Nat
  upKbps : Int
  downPort : Nat
  downKbps : Int
  acked : Int
  lines : List Bytes
  closing : Bytes

/-- Conditions under which the page understands the session. -/
structure Plan.Fits (P : Plan) : Prop where
  upPort : P.upPort ≤ 65535
  downPort : P.downPort ≤ 65535
  lines : ∀ l ∈ P.lines, IsLine l
  names : ∀ l ∈ P.lines, (entryOf l).1 ≠ str "c2sRate" ∧ (entryOf l).1 ≠ str "s2cRate"
  closing : (∀ b ∈ P.closing, b < 0x80 ∧ b ≠ 10 ∧ b ≠ 58) ∧ P.closing ≠ str "c2sRate" ∧ P.closing ≠ str "s2cRate"

/-- A frame with a text. -/
abbrev fr (t : UInt8) (s : Bytes) : Bytes := Ndt5.Messager.json.frame t s

/-- Where the page is in the session. -/
inductive Phase
  | queue | version | ids
  | up0 | up1 | up2 | up3
  | down0 | down1 | down2
  | down3 (past left : List Bytes)
  | meta0 | meta1 | meta2
  | results | logout | over

/-- From the meta test on. -/
def Plan.fromMeta (P : Plan) : List Bytes := [fr 3 [], fr 4 [], fr 6 [], fr 8 P.closing, fr 9 []]

/-- From the results of the download on. -/
def Plan.fromDown (P : Plan) : List Bytes :=
  [fr 3 (itoa P.downPort), fr 4 [], Ndt5.Messager.json.s2cFrame P.downKbps 0 P.acked] ++ (P.lines.map (fr 5) ++ fr 6 [] :: P.fromMeta)

/-- The frames of the session. -/
def Plan.script (P : Plan) : List Bytes :=
  [fr 1 (str "0"), fr 2 (str "v5.0-NDTinGO"), fr 2 (str "2 4 32")] ++ ([fr 3 (itoa P.upPort), fr 4 [], fr 5 (itoa P.upKbps), fr 6 []] ++ P.fromDown)

/-- The frames that are still to come. -/
def Phase.rest (P : Plan) : Phase → List Bytes
  | .over => []
  | .logout => P.fromMeta.drop 4
  | .results => P.fromMeta.drop 3
  | .meta2 => P.fromMeta.drop 2
  | .meta1 => P.fromMeta.drop 1
  | .meta0 => P.fromMeta
  | .down3 _ left => left.map (fr 5) ++ fr 6 [] :: P.fromMeta
  | .down2 => P.fromDown.drop 2
  | .down1 => P.fromDown.drop 1
  | .down0 => P.fromDown
  | .up3 => P.script.drop 6
  | .up2 => P.script.drop 5
  | .up1 => P.script.drop 4
  | .up0 => P.script.drop 3
  | .ids => P.script.drop 2
  | .version => P.script.drop 1
  | .queue => P.script

/-- The state of the coordinator. -/
def Phase.state : Phase → Coordinator
  | .queue | .version => .loginSent
  | .ids => .testIds
  | _ => .results

/-- The active test. -/
def Phase.active : Phase → Option Test
  | .up1 => some (.c2s .start)
  | .up2 => some (.c2s .msg)
  | .up3 => some (.c2s .finalize)
  | .down1 => some (.s2c .start)
  | .down2 => some (.s2c .firstMsg)
  | .down3 _ _ => some (.s2c .msgOrFinish)
  | .meta1 => some (.metadata .start)
  | .meta2 => some (.metadata .finalize)
  | _ => none

/-- The tests that are to come. -/
def Phase.toRun : Phase → List Test
  | .up0 => [.c2s .prepare, .s2c .prepare, .metadata .prepare]
  | .up1 | .up2 | .up3 | .down0 => [.s2c .prepare, .metadata .prepare]
  | .down1 | .down2 | .down3 _ _ | .meta0 => [.metadata .prepare]
  | _ => []

/-- How many of the changes were announced. -/
def Phase.changes : Phase → Nat
  | .queue | .version | .ids | .up0 => 0
  | .up1 => 1
  | .up2 | .up3 => 2
  | .down0 => 3
  | .down1 => 4
  | .down2 | .down3 _ _ => 5
  | .meta0 => 6
  | .meta1 => 7
  | .meta2 => 8
  | .results | .logout => 9
  | .over => 10

/-- The ports that were opened. -/
def Phase.ports (P : Plan) : Phase → List Nat
  | .queue | .version | .ids | .up0 => []
  | .up1 | .up2 | .up3 | .down0 => [P.upPort]
  | _ => [P.upPort, P.downPort]

/-- Entries other than the rates. -/
def Phase.shown (P : Plan) : Phase → List (Bytes × Val)
  | .down3 past _ => (past.map entryOf).reverse
  | .meta0 | .meta1 | .meta2 | .results => (P.lines.map entryOf).reverse
  | .logout | .over => (P.closing, .undef) :: (P.lines.map entryOf).reverse
  | _ => []

/-- The upload rate without callbacks. -/
def Phase.upRate (P : Plan) : Phase → Val
  | .queue | .version | .ids | .up0 | .up1 | .up2 => .undef
  | _ => .number (itoa P.upKbps)

/-- The download rate without callbacks. -/
def Phase.downRate (rate : Bytes) : Phase → Val
  | .down3 _ _ | .meta0 | .meta1 | .meta2 | .results | .logout | .over => .own rate
  | _ => .undef

/-- What the page has sent since its login. -/
def Phase.said (rate : Bytes) : Phase → List Bytes
  | .down3 _ _ | .meta0 | .meta1 => [makeNdtMessage 5 rate]
  | .meta2 | .results | .logout | .over => [makeNdtMessage 5 rate, makeNdtMessage 5 (str "client.os.name:NDTjs"), makeNdtMessage 5 []]
  | _ => []

/-- Neither of the rates. -/
def notRate (p : Bytes × Val) : Bool := p.1 ≠ str "c2sRate" ∧ p.1 ≠ str "s2cRate"

/-- The page is at this phase. -/
structure At (P : Plan) (ph : Phase) (interval : Int) (c : Client) (said : List Bytes) (rate : Bytes) : Prop where
  split : ∀ past left, ph = .down3 past left → P.lines = past ++ left
  interval : c.interval = interval
  state : c.state = ph.state
  active : c.active = ph.active
  toRun : c.toRun = ph.toRun
  changes : c.changes = allChanges.take ph.changes
  ports : c.ports = ph.ports P
  finished : c.finished = true ↔ ph = .over
  shown : c.results.filter notRate = ph.shown P
  upRate : c.interval = 0 → c.get (str "c2sRate") = ph.upRate P
  downRate : c.interval = 0 → c.get (str "s2cRate") = ph.downRate rate
  said : said = ph.said rate
  rate : RateText rate

theorem get_put (c : Client) (n m : Bytes) (v : Val) : (c.put n v).get m = if n = m then v else c.get m := by
  unfold Client.get Client.put
  by_cases h : n = m
  · simp [h]
  · simp [List.find?_cons, h]

/-- What the page does with a message once it is read. -/
def dispatch (c : Client) (t : Option UInt8) (msg : Option Json) (env : Env) : Except Thrown (Client × List Bytes) :=
  match c.active, c.toRun with
  | some test, _ => testMessage c test t msg env
  | none, test :: rest => testMessage { c with toRun := rest } test t msg env
  | none, [] => coordinate c t msg

theorem onMessage_fr (c : Client) (t : UInt8) (s : Bytes) (env : Env) : onMessage c (fr t s) env = dispatch c (some t) (some (.str (seen s))) env := by
  obtain ⟨h1, h2⟩ := parse_frame t s
  unfold onMessage
  rw [h1, h2]
  simp [msgOf, dispatch]
  rfl

theorem seen_itoa (n : Int) : seen (itoa n) = itoa n := by
  refine seen_ascii fun b hb => ?_
  rcases itoa_chars b hb with ⟨h1, h2⟩ | rfl
  · exact Nat.lt_of_le_of_lt h2 (by decide)
  · decide

theorem onMessage_s2c (c : Client) (a b d : Int) (env : Env) : onMessage c (Ndt5.Messager.json.s2cFrame a b d) env = dispatch c (some 5) none env := by
  have h1 : (Ndt5.Messager.json.s2cFrame a b d).head? = some 5 := rfl
  have h2 : parseJson (fromCharCodes ((Ndt5.Messager.json.s2cFrame a b d).drop 3)) =
      some (.obj [(str "ThroughputValue", .str (itoa a)), (str "UnsentDataAmount", .str (itoa b)), (str "TotalSentByte", .str (itoa d))]) := by
    have e : (Ndt5.Messager.json.s2cFrame a b d).drop 3 = Ndt5.s2cResultJson a b d := rfl
    rw [e, fromCharCodes_ascii, Ndt5.s2cResultJson, parseJson_objectOfStrings (by simp)]
    · simp only [List.map_cons, List.map_nil, Ndt5.toValid_itoa]
      rfl
    · have hq : ∀ n : Int, ∀ x ∈ quote (itoa n), x < 0x80 := by
        intro n x hx
        simp only [quote, Ndt5.quoteBody_plain Ndt5.itoa_plain, List.mem_append, List.mem_cons, List.not_mem_nil, or_false] at hx
        rcases hx with (rfl | hx) | rfl
        · decide
        · exact Ndt5.plain_lt (Ndt5.itoa_plain _ hx)
        · decide
      have hk : ∀ x ∈ quote (str "ThroughputValue") ++ quote (str "UnsentDataAmount") ++ quote (str "TotalSentByte"), x < 0x80 := by decide
      intro x hx
      simp only [Ndt5.s2cResultJson, objectOfStrings, List.map_cons, List.map_nil, join, List.mem_append, List.mem_cons, List.not_mem_nil, or_false] at hx hk
      have h58 : (58 : UInt8) < 0x80 := by decide
      have h44 : (44 : UInt8) < 0x80 := by decide
      have h123 : (123 : UInt8) < 0x80 := by decide
      have h125 : (125 : UInt8) < 0x80 := by decide
      have hqa := hq a x
      have hqb := hq b x
      have hqd := hq d x
      have hkx := hk x
      rcases hx with (rfl | hx) | rfl
      · decide
      · rcases hx with ((h | rfl | h) | rfl) | ((h | rfl | h) | rfl) | h | rfl | h <;> first | assumption | tauto
      · decide
  unfold onMessage
  rw [h1, h2]
  have : msgOf (.obj [(str "ThroughputValue", .str (itoa a)), (str "UnsentDataAmount", .str (itoa b)), (str "TotalSentByte", .str (itoa d))]) = .ok none := by
    have h1 : (str "ThroughputValue" = str "msg") = False := by simp only [eq_iff_iff, iff_false]; decide
    have h2 : (str "UnsentDataAmount" = str "msg") = False := by simp only [eq_iff_iff, iff_false]; decide
    have h3 : (str "TotalSentByte" = str "msg") = False := by simp only [eq_iff_iff, iff_false]; decide
    simp [msgOf, List.filter, h1, h2, h3]
  simp only [this]
  rfl

theorem port_read {n : Nat} (h : n ≤ 65535) : portOfMsg (some (.str (itoa n))) = .ok n := by
  have : atoi (itoa n) = some (n : Int) := atoi_itoa ⟨by omega, by omega⟩
  simp only [portOfMsg, this]
  rw [if_pos (by omega)]
  rfl

theorem testIds_read : (split (str " ") (str "2 4 32")) = [str "2", str "4", str "32"] := by decide

theorem seen_lit {s : Bytes} (h : (s.all fun b => b < 0x80) = true) : seen s = s :=
  seen_ascii fun b hb => by simpa using List.all_eq_true.1 h b hb

theorem filter_put {c : Client} {n : Bytes} {v : Val} (h : n = str "c2sRate" ∨ n = str "s2cRate") : (c.put n v).results.filter notRate = c.results.filter notRate := by
  unfold Client.put
  have : notRate (n, v) = false := by
    rcases h with rfl | rfl <;> simp [notRate]
  simp [List.filter_cons, this]

theorem put_results (c : Client) (n : Bytes) (v : Val) : (c.put n v).results = (n, v) :: c.results := rfl

theorem keepSendingData_same (c : Client) (u : Upload) (env : Env) :
    (keepSendingData c u env).interval = c.interval ∧ (keepSendingData c u env).state = c.state ∧ (keepSendingData c u env).active = c.active ∧
    (keepSendingData c u env).toRun = c.toRun ∧ (keepSendingData c u env).changes = c.changes ∧ (keepSendingData c u env).ports = c.ports ∧
    (keepSendingData c u env).finished = c.finished ∧ (keepSendingData c u env).results.filter notRate = c.results.filter notRate ∧
    (c.interval = 0 → (keepSendingData c u env).results = c.results) := by
  unfold keepSendingData
  split
  · rename_i h
    exact ⟨rfl, rfl, rfl, rfl, rfl, rfl, rfl, filter_put (.inl rfl), fun h0 => absurd h0 h.2.1⟩
  · exact ⟨rfl, rfl, rfl, rfl, rfl, rfl, rfl, rfl, fun _ => rfl⟩

theorem get_eq {c c' : Client} (h : c'.results = c.results) (n : Bytes) : c'.get n = c.get n := by unfold Client.get; rw [h]

end Verif.Web
