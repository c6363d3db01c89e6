import Verif.Spec.Places

/-!
# C106: the pages that the server ships find the services they need
-/

namespace Verif.Props
open Verif.Go Verif.Main Verif.Web Verif.Ndt5 Verif.Spec

/-! ## URLs -/

private theorem takeWhile_all {p : UInt8 → Bool} {l : Bytes} (h : ∀ b ∈ l, p b = true) (c : UInt8) (r : Bytes) (hc : p c = false) :
    (l ++ c :: r).takeWhile p = l ∧ (l ++ c :: r).dropWhile p = c :: r := by
  induction l with
  | nil => simp [hc]
  | cons b l ih =>
    have h1 := h b List.mem_cons_self
    have h2 := ih fun b hb => h b (List.mem_cons_of_mem _ hb)
    simp [h1, h2.1, h2.2]

private theorem takeWhile_whole {p : UInt8 → Bool} {l : Bytes} (h : ∀ b ∈ l, p b = true) : l.takeWhile p = l := by
  induction l with
  | nil => rfl
  | cons b l ih => simp [h b List.mem_cons_self, ih fun b hb => h b (List.mem_cons_of_mem _ hb)]

private theorem digit {b : UInt8} (h : 48 ≤ b ∧ b ≤ 57) : b ≠ 47 ∧ b ≠ 63 ∧ b ≠ 58 ∧ b ≠ 93 := by
  refine ⟨?_, ?_, ?_, ?_⟩ <;> rintro rfl <;> revert h <;> decide

private theorem hostAndPort_with {secure : Bool} {h p : Bytes} (hp : PortNumber p) : hostAndPort secure (h ++ 58 :: p) = (h, p) := by
  have hl : (h ++ 58 :: p).getLast? ≠ some 93 := by
    rw [List.getLast?_append, List.getLast?_cons]
    cases hq : p.getLast? with
    | none => exact absurd (List.getLast?_eq_none_iff.1 hq) hp.nonempty
    | some b =>
      have := (digit (hp.digits b (List.mem_of_getLast? hq))).2.2.2
      simpa using this
  have hr : (h ++ 58 :: p).reverse = p.reverse ++ 58 :: h.reverse := by simp
  have := takeWhile_all (p := fun b => decide (b ≠ 58)) (l := p.reverse) (fun b hb => by
    simpa using (digit (hp.digits b (List.mem_reverse.1 hb))).2.2.1) 58 h.reverse (by simp)
  unfold hostAndPort
  rw [if_neg (fun h => h.elim hl fun h => h (by simp)), hr, this.1, this.2]
  simp

private theorem hostAndPort_without {secure : Bool} {h : Bytes} (hh : HostName h) : hostAndPort secure h = (h, usualPort secure) := by
  unfold hostAndPort
  rw [if_pos]
  by_cases hc : 58 ∈ h
  · exact .inl (hh.colons hc)
  · exact .inr hc

private theorem placeAfter_eq {secure : Bool} {a path tail : Bytes} (ha : ∀ b ∈ a, b ≠ 47 ∧ b ≠ 63) (hp : ∀ b ∈ path, b ≠ 63) (ht : tail = [] ∨ ∃ q, tail = 63 :: q) :
    placeAfter secure (a ++ 47 :: path ++ tail) = ⟨secure, (hostAndPort secure a).1, (hostAndPort secure a).2, 47 :: path⟩ := by
  have h1 := takeWhile_all (p := fun b => decide (b ≠ 47) && decide (b ≠ 63)) (l := a) (fun b hb => by simpa using ha b hb) 47 (path ++ tail) (by simp)
  have h2 : (47 :: (path ++ tail)).takeWhile (fun b => decide (b ≠ 63)) = 47 :: path := by
    rcases ht with rfl | ⟨q, rfl⟩
    · rw [List.append_nil]
      exact takeWhile_whole (by
        intro b hb
        rcases List.mem_cons.1 hb with rfl | hb
        · decide
        · simpa using hp b hb)
    · exact (takeWhile_all (l := 47 :: path) (by
        intro b hb
        rcases List.mem_cons.1 hb with rfl | hb
        · decide
        · simpa using hp b hb) 63 q (by simp)).1
  unfold placeAfter
  rw [List.append_assoc, List.cons_append]
  dsimp only
  rw [h1.1, h1.2, h2]

private theorem placeOf_eq {secure : Bool} {s : Bytes} : placeOf ((if secure then str "wss" else str "ws") ++ str "://" ++ s) = some (placeAfter secure s) := by
  cases secure
  · have h1 : ¬ str "wss://" <+: str "ws" ++ str "://" ++ s := by
      rw [show str "wss://" = 119 :: 115 :: 115 :: str "://" from rfl, show str "ws" ++ str "://" ++ s = 119 :: 115 :: 58 :: 47 :: 47 :: s from rfl]
      simp
    have h2 : str "ws://" <+: str "ws" ++ str "://" ++ s := ⟨s, rfl⟩
    simp only [Bool.false_eq_true, if_false, placeOf, h1, h2, if_true]
    rfl
  · have h2 : str "wss://" <+: str "wss" ++ str "://" ++ s := ⟨s, rfl⟩
    simp only [placeOf, h2, if_true]
    rfl

/-- C106: the tests of html/ndt7.html, loaded from any port of any host, with or without TLS, go to the same port of the same host, in the same way. -/
theorem C106_ndt7_urls {secure : Bool} {hostname port : Bytes} (hh : HostName hostname) (hp : PortNumber port) :
    placeOf (htmlURLs (loadedFrom secure hostname port)).1 = some ⟨secure, hostname, port, str "/ndt/v7/download"⟩ ∧
    placeOf (htmlURLs (loadedFrom secure hostname port)).2 = some ⟨secure, hostname, port, str "/ndt/v7/upload"⟩ := by
  have hd : ∀ b ∈ str "ndt/v7/download", b ≠ 63 := by decide
  have hu : ∀ b ∈ str "ndt/v7/upload", b ≠ 63 := by decide
  have key : ∀ q : Bytes, ∀ path : Bytes, (∀ b ∈ path, b ≠ 63) →
      placeAfter secure ((loadedFrom secure hostname port).host ++ 47 :: path ++ 63 :: q) = ⟨secure, hostname, port, 47 :: path⟩ := by
    intro q path hpath
    by_cases hu : port = usualPort secure
    · have : (loadedFrom secure hostname port).host = hostname := by simp [loadedFrom, Location.host, hu]
      rw [this, placeAfter_eq hh.plain hpath (.inr ⟨q, rfl⟩), hostAndPort_without hh, hu]
    · have : (loadedFrom secure hostname port).host = hostname ++ 58 :: port := by
        simp only [loadedFrom, Location.host, if_neg hu, if_neg hp.nonempty]
        simp [show str ":" = [58] from rfl]
      rw [this, placeAfter_eq ?_ hpath (.inr ⟨q, rfl⟩), hostAndPort_with hp]
      intro b hb
      rcases List.mem_append.1 hb with hb | hb
      · exact hh.plain b hb
      · rcases List.mem_cons.1 hb with rfl | hb
        · decide
        · exact ⟨(digit (hp.digits b hb)).1, (digit (hp.digits b hb)).2.1⟩
  constructor
  · have := @placeOf_eq secure ((loadedFrom secure hostname port).host ++ 47 :: str "ndt/v7/download" ++ 63 :: searchParams (pageMetadata [(str "client_name", str "ndt-server-example")]))
    rw [key _ _ hd] at this
    rw [show str "/ndt/v7/download" = 47 :: str "ndt/v7/download" from rfl, ← this]
    simp only [htmlURLs, serverURLs, List.append_assoc]
    rfl
  · have := @placeOf_eq secure ((loadedFrom secure hostname port).host ++ 47 :: str "ndt/v7/upload" ++ 63 :: searchParams (pageMetadata [(str "client_name", str "ndt-server-example")]))
    rw [key _ _ hu] at this
    rw [show str "/ndt/v7/upload" = 47 :: str "ndt/v7/upload" from rfl, ← this]
    simp only [htmlURLs, serverURLs, List.append_assoc]
    rfl

/-- C106: the widget, loaded from any port of any host, opens its connections to the same host in the same way, and at the path of ndt5: the control connection to port 3010 with TLS and
to port 3001 without, and a test to the port that the server announced. -/
theorem C106_widget_urls {secure : Bool} {hostname port : Bytes} (hh : HostName hostname) :
    placeOf (widgetURL (loadedFrom secure hostname port) (widgetPort (loadedFrom secure hostname port))) =
      some ⟨secure, hostname, if secure then str "3010" else str "3001", str "/ndt_protocol"⟩ ∧
    ∀ test, PortNumber test → placeOf (widgetURL (loadedFrom secure hostname port) test) = some ⟨secure, hostname, test, str "/ndt_protocol"⟩ := by
  have hd : ∀ b ∈ str "ndt_protocol", b ≠ 63 := by decide
  have key : ∀ test, PortNumber test → placeOf (widgetURL (loadedFrom secure hostname port) test) = some ⟨secure, hostname, test, str "/ndt_protocol"⟩ := by
    intro test ht
    have h1 := @placeOf_eq secure (hostname ++ 58 :: test ++ 47 :: str "ndt_protocol" ++ [])
    rw [placeAfter_eq ?_ hd (.inl rfl), hostAndPort_with ht] at h1
    · rw [show str "/ndt_protocol" = 47 :: str "ndt_protocol" from rfl, ← h1]
      simp only [widgetURL, widgetProtocol, loadedFrom, List.append_assoc, List.append_nil]
      rfl
    · intro b hb
      rcases List.mem_append.1 hb with hb | hb
      · exact hh.plain b hb
      · rcases List.mem_cons.1 hb with rfl | hb
        · decide
        · exact ⟨(digit (ht.digits b hb)).1, (digit (ht.digits b hb)).2.1⟩
  refine ⟨?_, key⟩
  have h10 : PortNumber (str "3010") := ⟨by decide, by decide⟩
  have h01 : PortNumber (str "3001") := ⟨by decide, by decide⟩
  cases secure
  · exact key _ h01
  · exact key _ h10

/-! ## Services -/

section
variable {f : Flags} {ver : Bytes} {evs : List (Event mainSig)} {x : Exit}

private theorem raw_listens (h : Prog.Runs (main f ver) evs x) (hw : .emit .wait ∈ evs) {a ws : Bytes} :
    (∃ dir md tx, .call (.listenRaw a dir ws md tx) (.ok none) ∈ evs) ↔ a = f.ndt5Addr ∧ ws = f.ndt5WsAddr := by
  constructor
  · rintro ⟨dir, md, tx, hm⟩
    obtain ⟨h1, -, h2, -⟩ := C61_raw f ver evs x h _ _ _ _ _ _ hm
    exact ⟨h1, h2⟩
  · rintro ⟨rfl, rfl⟩
    obtain ⟨⟨dir, md, ac, hm, -⟩, -⟩ := C61_always f ver evs x h hw
    exact ⟨dir, md, ac, hm⟩

private theorem not_local {p : Bytes} : str ":" ++ p ≠ str "127.0.0.1:3002" ∧ str ":" ++ p ≠ str "127.0.0.1:8000" := by
  constructor <;>
  · rw [show str ":" ++ p = 58 :: p from rfl]
    intro h
    have := congrArg List.head? h
    revert this
    simp [str]

private theorem colon_inj {p q : Bytes} : str ":" ++ p = str ":" ++ q ↔ p = q := List.append_right_inj _

/-- C106: with the addresses of the flags' defaults, exactly what answers at each port, for clients anywhere: the raw port's websocket server without access control at 3001, ndt7 at 80 and,
with TLS, at 443, and ndt5 over secure websockets at 3010; all of them serve the pages at other paths. -/
theorem C106_answers (ha : UsualAddresses f) (h : Prog.Runs (main f ver) evs x) (hw : .emit .wait ∈ evs) (p : Place) (passed : List Access) (leaf : Leaf) :
    Answers evs p passed leaf ↔
      (p.secure = false ∧ p.port = str "3001" ∧ passed = [] ∧
        RoutesTo f.htmlDir [(str "/ndt_protocol", .ndt5WS (f.dataDir ++ str "/ndt5") (f.labels.map fun l => ⟨l.1, l.2⟩))] p.path leaf) ∨
      (((p.secure = false ∧ p.port = str "80") ∨
          (p.secure = true ∧ p.port = str "443" ∧ ((f.certFile ≠ [] ∧ f.keyFile ≠ []) ∨ (f.autocertEnabled = true ∧ f.autocertHostname ≠ [])))) ∧
        passed = [⟨f.tokenRequired7, f.tokenMachine, [str "/ndt/v7/download"], [str "/ndt/v7/download", str "/ndt/v7/upload"]⟩] ∧
        RoutesTo f.htmlDir [(str "/ndt/v7/download", .ndt7Download f.dataDir f.ndt7Addr f.ndt7AddrCleartext (f.labels.map fun l => ⟨l.1, l.2⟩) f.compress),
          (str "/ndt/v7/upload", .ndt7Upload f.dataDir f.ndt7Addr f.ndt7AddrCleartext (f.labels.map fun l => ⟨l.1, l.2⟩) f.compress)] p.path leaf) ∨
      (p.secure = true ∧ p.port = str "3010" ∧ (f.certFile ≠ [] ∧ f.keyFile ≠ []) ∧
        passed = [⟨f.tokenRequired5, f.tokenMachine, [str "/ndt_protocol"], [str "/ndt_protocol"]⟩] ∧
        RoutesTo f.htmlDir [(str "/ndt_protocol", .ndt5WSS (f.dataDir ++ str "/ndt5") f.certFile f.keyFile (f.labels.map fun l => ⟨l.1, l.2⟩))] p.path leaf) := by
  have e7 : ∀ q : Bytes, str ":" ++ q = f.ndt7Addr ↔ q = str "443" := fun q => by
    rw [ha.ndt7, show Flags.defaults.ndt7Addr = str ":" ++ str "443" from rfl, colon_inj]
  have ec : ∀ q : Bytes, str ":" ++ q = f.ndt7AddrCleartext ↔ q = str "80" := fun q => by
    rw [ha.cleartext, show Flags.defaults.ndt7AddrCleartext = str ":" ++ str "80" from rfl, colon_inj]
  have er : ∀ q : Bytes, str ":" ++ q = f.ndt5Addr ↔ q = str "3001" := fun q => by
    rw [ha.raw, show Flags.defaults.ndt5Addr = str ":" ++ str "3001" from rfl, colon_inj]
  have es : ∀ q : Bytes, str ":" ++ q = f.ndt5WssAddr ↔ q = str "3010" := fun q => by
    rw [ha.wss, show Flags.defaults.ndt5WssAddr = str ":" ++ str "3010" from rfl, colon_inj]
  have ew : ∀ q : Bytes, ¬ str ":" ++ q = f.ndt5WsAddr := fun q => by rw [ha.ws]; exact not_local.1
  have eh : ∀ q : Bytes, ¬ str ":" ++ q = f.healthAddr := fun q => by rw [ha.health]; exact not_local.2
  have w7 : f.ndt5WsAddr ≠ f.ndt7AddrCleartext ∧ f.ndt5WsAddr ≠ f.healthAddr := by rw [ha.ws, ha.cleartext, ha.health]; decide
  have hraw : (∃ dir ws md tx, .call (.listenRaw (str ":" ++ p.port) dir ws md tx) (.ok none) ∈ evs ∧ Offers evs false ws p.path passed leaf) ↔
      p.port = str "3001" ∧ Offers evs false f.ndt5WsAddr p.path passed leaf := by
    constructor
    · rintro ⟨dir, ws, md, tx, h1, h2⟩
      obtain ⟨h3, rfl⟩ := (raw_listens h hw).1 ⟨dir, md, tx, h1⟩
      exact ⟨(er _).1 h3, h2⟩
    · rintro ⟨h1, h2⟩
      obtain ⟨dir, md, tx, h3⟩ := (raw_listens h hw).2 ⟨(er _).2 h1, rfl⟩
      exact ⟨dir, _, md, tx, h3, h2⟩
  unfold Answers
  rw [hraw, C61_offers f ver evs x h hw, C61_offers f ver evs x h hw]
  simp only [e7, ec, es, ew, eh, w7.1, w7.2, false_and, and_false, false_or, or_false, true_and, Bool.false_eq_true]
  constructor
  · rintro ((⟨h1, h2⟩ | h1) | ⟨h1, h2, h3⟩)
    · exact .inr (.inl ⟨h1, h2⟩)
    · exact .inr (.inr h1)
    · exact .inl ⟨h1, h2, h3⟩
  · rintro (⟨h1, h2, h3⟩ | h1 | h1)
    · exact .inr ⟨h1, h2, h3⟩
    · exact .inl (.inl h1)
    · exact .inl (.inr h1)

/-- C106: html/ndt7.html, loaded from port 80 or, with TLS, from port 443, finds both tests, whatever the other flags. -/
theorem C106_ndt7_partial (ha : UsualAddresses f) (h : Prog.Runs (main f ver) evs x) (hw : .emit .wait ∈ evs) {secure : Bool} {hostname : Bytes} (hh : HostName hostname)
    {passed : List Access} (hp : Answers evs ⟨secure, hostname, usualPort secure, str "/ndt7.html"⟩ passed (.files f.htmlDir)) :
    ∃ down up, placeOf (htmlURLs (loadedFrom secure hostname (usualPort secure))).1 = some down ∧ placeOf (htmlURLs (loadedFrom secure hostname (usualPort secure))).2 = some up ∧
      (∀ l leaf, Answers evs down l leaf ↔ l = passed ∧ leaf = .ndt7Download f.dataDir f.ndt7Addr f.ndt7AddrCleartext (f.labels.map fun l => ⟨l.1, l.2⟩) f.compress) ∧
      (∀ l leaf, Answers evs up l leaf ↔ l = passed ∧ leaf = .ndt7Upload f.dataDir f.ndt7Addr f.ndt7AddrCleartext (f.labels.map fun l => ⟨l.1, l.2⟩) f.compress) := by
  have hn : PortNumber (usualPort secure) := by cases secure <;> exact ⟨by decide, by decide⟩
  obtain ⟨h1, h2⟩ := C106_ndt7_urls (secure := secure) hh hn
  refine ⟨_, _, h1, h2, ?_, ?_⟩
  all_goals
    intro l leaf
    rw [C106_answers ha h hw] at hp ⊢
    have d1 : str "/ndt/v7/download" ≠ str "/ndt/v7/upload" := by decide
    have d2 : str "80" ≠ str "3001" ∧ str "443" ≠ str "3010" := by decide
    cases secure <;> simp [usualPort, d2.1, d2.2] at hp ⊢
    all_goals simp [RoutesTo, d1, d1.symm, hp]

/-- C106: html/ndt7.html is also served at the ports of ndt5, 3001 and, with TLS, 3010; but loaded from there it does not find the tests: its requests are taken for files. -/
theorem C106_ndt7_elsewhere (ha : UsualAddresses f) (h : Prog.Runs (main f ver) evs x) (hw : .emit .wait ∈ evs) {secure : Bool} {hostname : Bytes} (hh : HostName hostname)
    {port : Bytes} (hport : port = if secure then str "3010" else str "3001") :
    ((secure = true → f.certFile ≠ [] ∧ f.keyFile ≠ []) → ∃ passed, Answers evs ⟨secure, hostname, port, str "/ndt7.html"⟩ passed (.files f.htmlDir)) ∧
    ∃ down up, placeOf (htmlURLs (loadedFrom secure hostname port)).1 = some down ∧ placeOf (htmlURLs (loadedFrom secure hostname port)).2 = some up ∧
      (∀ l leaf, Answers evs down l leaf → leaf = .files f.htmlDir) ∧ (∀ l leaf, Answers evs up l leaf → leaf = .files f.htmlDir) := by
  have hn : PortNumber port := by subst hport; cases secure <;> exact ⟨by decide, by decide⟩
  obtain ⟨h1, h2⟩ := C106_ndt7_urls (secure := secure) hh hn
  have d1 : str "/ndt_protocol" ≠ str "/ndt7.html" ∧ str "/ndt_protocol" ≠ str "/ndt/v7/download" ∧ str "/ndt_protocol" ≠ str "/ndt/v7/upload" := by decide
  have d2 : str "3001" ≠ str "80" ∧ str "3010" ≠ str "443" := by decide
  refine ⟨fun hc => ?_, _, _, h1, h2, ?_, ?_⟩
  · cases secure
    · refine ⟨[], (C106_answers ha h hw _ _ _).2 (.inl ⟨rfl, hport, rfl, .inr ⟨?_, rfl, rfl⟩⟩)⟩
      simpa using d1.1
    · refine ⟨_, (C106_answers ha h hw _ _ _).2 (.inr (.inr ⟨rfl, hport, hc rfl, rfl, .inr ⟨?_, rfl, rfl⟩⟩))⟩
      simpa using d1.1
  all_goals
    intro l leaf hp
    rw [C106_answers ha h hw] at hp
    subst hport
    cases secure <;> simp [d2.1, d2.2, RoutesTo, d1.2.1.symm, d1.2.2.symm] at hp
    · exact hp.2.2.2
    · exact hp.2.2.2.2

/-- C106: the widget, loaded without TLS from anywhere, finds the ndt5 test over websockets, through the raw port and without access control; loaded with TLS, with certificate and key in
files, it finds the ndt5 test over secure websockets, behind the ndt5 access controller. -/
theorem C106_widget_partial (ha : UsualAddresses f) (h : Prog.Runs (main f ver) evs x) (hw : .emit .wait ∈ evs) {secure : Bool} {hostname port : Bytes} (hh : HostName hostname) :
    ∃ control, placeOf (widgetURL (loadedFrom secure hostname port) (widgetPort (loadedFrom secure hostname port))) = some control ∧
      (secure = false → ∀ l leaf, Answers evs control l leaf ↔ l = [] ∧ leaf = .ndt5WS (f.dataDir ++ str "/ndt5") (f.labels.map fun l => ⟨l.1, l.2⟩)) ∧
      (secure = true → ∀ l leaf, Answers evs control l leaf ↔ (f.certFile ≠ [] ∧ f.keyFile ≠ []) ∧
        l = [⟨f.tokenRequired5, f.tokenMachine, [str "/ndt_protocol"], [str "/ndt_protocol"]⟩] ∧
        leaf = .ndt5WSS (f.dataDir ++ str "/ndt5") f.certFile f.keyFile (f.labels.map fun l => ⟨l.1, l.2⟩)) := by
  refine ⟨_, (C106_widget_urls hh).1, ?_, ?_⟩
  all_goals
    rintro rfl l leaf
    rw [C106_answers ha h hw]
    have d2 : str "3001" ≠ str "80" ∧ str "3010" ≠ str "443" := by decide
    simp [d2.1, d2.2, RoutesTo]

end

private def exampleHost : HostName (str "ndt.example.org") := ⟨by decide, by decide, by decide⟩
private def exampleAddress : HostName (str "[2001:db8::1]") := ⟨by decide, by decide, by decide⟩

private theorem usual_defaults : UsualAddresses Flags.defaults := ⟨rfl, rfl, rfl, rfl, rfl, rfl⟩

/-- C106 as stated fails for html/ndt7.html: it may be loaded from a port at which its tests are not offered. -/
theorem C106_ndt7_false : ¬ ∀ (f : Flags) (ver : Bytes) (evs : List (Event mainSig)) (x : Exit), UsualAddresses f → Prog.Runs (main f ver) evs x → .emit .wait ∈ evs →
    ∀ secure hostname port passed, HostName hostname → PortNumber port → Answers evs ⟨secure, hostname, port, str "/ndt7.html"⟩ passed (.files f.htmlDir) →
    ∃ down l a b c d e, placeOf (htmlURLs (loadedFrom secure hostname port)).1 = some down ∧ Answers evs down l (.ndt7Download a b c d e) := by
  intro hall
  obtain ⟨evs, h1, h2⟩ := C61_up Flags.defaults []
  obtain ⟨⟨passed, h3⟩, down, up, h4, -, h5, -⟩ := C106_ndt7_elsewhere (secure := false) usual_defaults h1 h2 exampleHost rfl |>.imp_left (· (by simp))
  obtain ⟨down', l, a, b, c, d, e, h6, h7⟩ := hall _ _ _ _ usual_defaults h1 h2 _ _ _ _ exampleHost ⟨by decide, by decide⟩ h3
  rw [h4] at h6
  cases h6
  cases h5 _ _ h7

/-- C106 as stated fails for the widget: with certificates from autocert the page is served with TLS, but nothing answers where it looks for the test. -/
theorem C106_widget_false : ¬ ∀ (f : Flags) (ver : Bytes) (evs : List (Event mainSig)) (x : Exit), UsualAddresses f → Prog.Runs (main f ver) evs x → .emit .wait ∈ evs →
    ∀ secure hostname port passed, HostName hostname → PortNumber port → Answers evs ⟨secure, hostname, port, str "/widget.html"⟩ passed (.files f.htmlDir) →
    ∃ control l leaf, placeOf (widgetURL (loadedFrom secure hostname port) (widgetPort (loadedFrom secure hostname port))) = some control ∧ Answers evs control l leaf := by
  intro hall
  let f : Flags := { Flags.defaults with autocertEnabled := true, autocertHostname := str "ndt.example.org" }
  have ha : UsualAddresses f := ⟨rfl, rfl, rfl, rfl, rfl, rfl⟩
  obtain ⟨evs, h1, h2⟩ := C61_up f []
  have d : str "/ndt/v7/download" ≠ str "/widget.html" ∧ str "/ndt/v7/upload" ≠ str "/widget.html" := by decide
  obtain ⟨control, l, leaf, h3, h4⟩ := hall _ _ _ _ ha h1 h2 true (str "ndt.example.org") (str "443") _ exampleHost ⟨by decide, by decide⟩
    ((C106_answers ha h1 h2 _ _ _).2 (.inr (.inl ⟨.inr ⟨rfl, rfl, .inr ⟨rfl, by decide⟩⟩, rfl, .inr ⟨by simp [d.1, d.2], rfl, rfl⟩⟩)))
  obtain ⟨control', h5, -, h6⟩ := C106_widget_partial ha h1 h2 (secure := true) (hostname := str "ndt.example.org") (port := str "443") exampleHost
  rw [h3] at h5
  cases h5
  exact ((h6 rfl l leaf).1 h4).1.1 rfl

/-- C106: pages of a host named by an IPv6 address, one at a port that is not the usual one. -/
example : placeOf (htmlURLs (loadedFrom false (str "[2001:db8::1]") (str "8080"))).1 = some ⟨false, str "[2001:db8::1]", str "8080", str "/ndt/v7/download"⟩ ∧
    htmlURLs (loadedFrom true (str "[2001:db8::1]") (str "443")) =
      (str "wss://[2001:db8::1]/ndt/v7/download?client_name=ndt-server-example&client_library_name=ndt7-js&client_library_version=0.0.6",
        str "wss://[2001:db8::1]/ndt/v7/upload?client_name=ndt-server-example&client_library_name=ndt7-js&client_library_version=0.0.6") ∧
    widgetURL (loadedFrom false (str "ndt.example.org") (str "80")) (widgetPort (loadedFrom false (str "ndt.example.org") (str "80"))) =
      str "ws://ndt.example.org:3001/ndt_protocol" :=
  ⟨(C106_ndt7_urls exampleAddress ⟨by decide, by decide⟩).1, by decide +kernel, by decide +kernel⟩

/-- C106: the defaults, with a certificate and a key: both pages, loaded with TLS from port 443, find their tests. -/
example : ∃ f evs x, UsualAddresses f ∧ Prog.Runs (main f []) evs x ∧ .emit .wait ∈ evs ∧
    ∃ passed, Answers evs ⟨true, str "ndt.example.org", str "443", str "/ndt7.html"⟩ passed (.files f.htmlDir) ∧ f.certFile ≠ [] ∧ f.keyFile ≠ [] := by
  let f : Flags := { Flags.defaults with certFile := str "cert.pem", keyFile := str "key.pem" }
  have ha : UsualAddresses f := ⟨rfl, rfl, rfl, rfl, rfl, rfl⟩
  obtain ⟨evs, h1, h2⟩ := C61_up f []
  have d : str "/ndt/v7/download" ≠ str "/ndt7.html" ∧ str "/ndt/v7/upload" ≠ str "/ndt7.html" := by decide
  exact ⟨f, evs, _, ha, h1, h2, _, (C106_answers ha h1 h2 _ _ _).2 (.inr (.inl ⟨.inr ⟨rfl, rfl, .inl ⟨by decide, by decide⟩⟩, rfl, .inr ⟨by simp [d.1, d.2], rfl, rfl⟩⟩)),
    by decide, by decide⟩

end Verif.Props
