import Verif.Web.Ndt5Client
import Verif.Spec.GoodSession

/-!
# Specification: a session of the server with the page that it ships

The control connection between them: what either sends is delivered in order, as whole messages, but at any later time.
-/

namespace Verif.Spec
open Verif.Go Verif.Ndt5 Verif.Web

/-- The page: its client, or the exception that left a handler. -/
inductive Page
  | running (c : Client)
  | crashed (e : Thrown)

/-- What `String` makes of a number: digits, letters (`e`, `NaN`, `Infinity`), dots and signs. -/
def RateText (s : Bytes) : Prop :=
  s ≠ [] ∧ s.length ≤ 30 ∧ ∀ b ∈ s, (48 ≤ b ∧ b ≤ 57) ∨ (97 ≤ b ∧ b ≤ 122) ∨ (65 ≤ b ∧ b ≤ 90) ∨ b = 43 ∨ b = 45 ∨ b = 46

/-- The messages are sent or received by the server on the control connection. -/
def exchanges : Ev → Bool
  | .call (.send _) _ => true
  | .call .recv (.ok (.ok _)) => true
  | _ => false

/-- The page, with the messages on their way to it and to the server, runs side by side with the server, which has these events. At the end there are a page and messages on
their way again. -/
inductive Plays : Page → List Bytes → List Bytes → List Ev → Page → List Bytes → List Bytes → Prop
  | done (p : Page) (down up : List Bytes) : Plays p down up [] p down up
  /-- the page handles a message, and may send others -/
  | handle {c c' : Client} {f : Bytes} {down up out : List Bytes} {evs : List Ev} {p' : Page} {down' up' : List Bytes} (env : Env) : RateText env.rate →
      onMessage c f env = .ok (c', out) → Plays (.running c') down (up ++ out) evs p' down' up' → Plays (.running c) (f :: down) up evs p' down' up'
  /-- the page fails to handle a message … -/
  | throws {c : Client} {e : Thrown} {f : Bytes} {down up : List Bytes} {evs : List Ev} {p' : Page} {down' up' : List Bytes} (env : Env) : RateText env.rate →
      onMessage c f env = .error e → Plays (.crashed e) down up evs p' down' up' → Plays (.running c) (f :: down) up evs p' down' up'
  /-- … and does not handle others any more -/
  | ignores {e : Thrown} {f : Bytes} {down up : List Bytes} {evs : List Ev} {p' : Page} {down' up' : List Bytes} :
      Plays (.crashed e) down up evs p' down' up' → Plays (.crashed e) (f :: down) up evs p' down' up'
  /-- something else happens on the page -/
  | idle {c c' : Client} {down up : List Bytes} {evs : List Ev} {p' : Page} {down' up' : List Bytes} (i : Idle) :
      Web.idle c i = some c' → Plays (.running c') down up evs p' down' up' → Plays (.running c) down up evs p' down' up'
  /-- the server sends a message -/
  | sends {p : Page} {f : Bytes} {r : Outcome (Option Err)} {down up : List Bytes} {evs : List Ev} {p' : Page} {down' up' : List Bytes} :
      Plays p (down ++ [f]) up evs p' down' up' → Plays p down up (.call (.send f) r :: evs) p' down' up'
  /-- the server fails to send a message -/
  | loses {p : Page} {f : Bytes} {r : Outcome (Option Err)} {down up : List Bytes} {evs : List Ev} {p' : Page} {down' up' : List Bytes} : r ≠ .ok none →
      Plays p down up evs p' down' up' → Plays p down up (.call (.send f) r :: evs) p' down' up'
  /-- the server receives a message -/
  | receives {p : Page} {f : Bytes} {down up : List Bytes} {evs : List Ev} {p' : Page} {down' up' : List Bytes} :
      Plays p down up evs p' down' up' → Plays p down (f :: up) (.call .recv (.ok (.ok f)) :: evs) p' down' up'
  /-- the server does something else -/
  | other {p : Page} {x : Ev} {down up : List Bytes} {evs : List Ev} {p' : Page} {down' up' : List Bytes} : exchanges x = false →
      Plays p down up evs p' down' up' → Plays p down up (x :: evs) p' down' up'

/-- The page opened its control connection and sent its login (ndt-browser-client.js:491-498), and then the server had these events. -/
def PlaysFrom (interval : Int) (evs : List Ev) (p : Page) (down up : List Bytes) : Prop :=
  Plays (.running { interval := interval }) [] [makeLoginMessage (2 ||| 4 ||| 32)] evs p down up

/-- Ports are numbers of 16 bits. -/
def Ports (evs : List Ev) : Prop := ∀ d port, .call (.listen d) (.ok (.ok port)) ∈ evs → port ≤ 65535

/-- The web100 variables that every download shows. -/
def web100Shown (w : Metrics) : List (Bytes × Int) :=
  [(str "MaxRTT", w.maxRTT.toNat), (str "MinRTT", w.minRTT.toNat), (str "SumRTT", w.sumRTT.toNat), (str "CurRTO", 0), (str "SndLimTimeCwnd", 0),
   (str "SndLimTimeRwin", 0), (str "SndLimTimeSender", 0), (str "DataBytesOut", 0), (str "DupAcksIn", 0), (str "PktsOut", w.pktsOut.toNat), (str "PktsRetrans", 0),
   (str "Timeouts", 0), (str "CountRTT", w.countRTT.toNat), (str "CongestionSignals", 0), (str "AckPktsIn", 0), (str "MaxCwnd", 0), (str "MaxRwinRcvd", 0),
   (str "CurMSS", w.curMSS.toNat), (str "Sndbuf", 0), (str "RcvWinScale", 0), (str "SndWinScale", 0)]

/-- The states that a page announces in a whole session. -/
def allChanges : List Bytes :=
  [str "preparing_c2s", str "running_c2s", str "finished_c2s", str "preparing_s2c", str "running_s2c", str "finished_s2c", str "preparing_meta", str "running_meta",
   str "finished_meta", str "finished_all"]

/-- The message that was received. -/
def gotOf : Ev → Option Bytes
  | .call .recv (.ok (.ok f)) => some f
  | _ => none

/-- The connection to the client did not fail. -/
def Connected (evs : List Ev) : Prop := ∀ e, .call .recv (.ok (.error e)) ∉ evs

/-- The machine worked, the connection did not fail, and the browser uploaded for long enough. -/
structure GoodPage (evs : List Ev) : Prop where
  calls : ∀ x ∈ evs, worked x
  connected : Connected evs
  upload : uploadTooShort evs = false

/-- What the page shows at the end: it went through all tests, connected to the ports of the server, and shows the kernel's variables of the download. -/
structure PageShows (evs : List Ev) (c : Client) : Prop where
  finished : c.finished = true
  states : c.changes = allChanges
  ports : c.ports = [portOf .c2s evs, portOf .s2c evs]
  kernel : ∀ v ∈ web100Shown (downloadKernel evs), c.get v.1 = .text (itoa v.2)

end Verif.Spec
