import Verif.Go.Json

/-!
# The ndt5 client that the server ships for browsers

`html/ndt-browser-client.js`, handler by handler.  JavaScript strings are the bytes of their UTF-8 encoding; `JSON.parse` is `parseJson`, which differs only for lone surrogates and for values nested
more than 10000 deep.  Times are whole milliseconds.  An exception that leaves a handler is a value of `Thrown`; where JavaScript would go on with `NaN` or with an object where a text is expected, the
model throws as well.  Logging, `checkBrowserSupport` and the handlers `onerror` are left out.
-/

namespace Verif.Web
open Verif.Go

/-- The character with the code of the byte, as `String.fromCharCode` makes it (ndt-browser-client.js:159), in UTF-8. -/
def latin1 (b : UInt8) : Bytes := if b < 0x80 then [b] else [0xC0 + b / 64, 0x80 + b % 64]

/-- `String.fromCharCode.apply(null, bytes)` (ndt-browser-client.js:155-166). -/
def fromCharCodes (s : Bytes) : Bytes := s.flatMap latin1

/-- What is before and after the first occurrence of a separator. -/
def cutAt (sep : Bytes) : Bytes → Option (Bytes × Bytes)
  | [] => none
  | c :: cs => if sep.isPrefixOf (c :: cs) then some ([], (c :: cs).drop sep.length) else (cutAt sep cs).map fun p => (c :: p.1, p.2)

/-- `String.prototype.split`, with as many cuts as the number allows. -/
def splitF (sep : Bytes) : Nat → Bytes → List Bytes
  | 0, s => [s]
  | f + 1, s => match cutAt sep s with
    | none => [s]
    | some (a, b) => a :: splitF sep f b

/-- `s.split(sep)`. Every cut makes the text shorter, so its length is enough. -/
def split (sep s : Bytes) : List Bytes := splitF sep s.length s

/-- White space. Only that of ASCII is modelled. -/
def isSpace (b : UInt8) : Bool := b = 32 || (9 ≤ b && b ≤ 13)

/-- `String.prototype.trim`. -/
def trim (s : Bytes) : Bytes := ((s.dropWhile isSpace).reverse.dropWhile isSpace).reverse

/-- Why a handler did not come to its end. -/
inductive Thrown
  /-- `JSON.parse` refused the text -/
  | syntaxError
  /-- a property of null or undefined, or a method of something that is not a text -/
  | typeError
  /-- `new WebSocket` refused the URL, because of its port -/
  | badPort
  /-- `TestFailureException` -/
  | failure (msg : Bytes)
  deriving DecidableEq, Repr

/-- Entries of the results that the page shows: undefined, `Number(text)`, a text, or a rate that the client computed itself. -/
inductive Val
  | undef
  | number (text : Bytes)
  | text (s : Bytes)
  | own (rate : Bytes)
  deriving DecidableEq, Repr

/-- `makeLoginMessage` (ndt-browser-client.js:108-124). The text `XXX` of the source is overwritten with the header. -/
def makeLoginMessage (desired : Nat) : Bytes :=
  let text := str " { \"msg\": \"v3.5.5\", \"tests\": \"" ++ natDec (desired ||| 16) ++ str "\" }"
  11 :: 0 :: UInt8.ofNat text.length :: text

/-- `makeNdtMessage` (ndt-browser-client.js:135-148). -/
def makeNdtMessage (t : UInt8) (content : Bytes) : Bytes :=
  let body := str "{ \"msg\": \"" ++ content ++ str "\" } "
  t :: UInt8.ofNat (body.length >>> 8) :: UInt8.ofNat body.length :: body

/-- The states of the closure of the upload (ndt-browser-client.js:239-329). -/
inductive UpState | prepare | start | msg | finalize | done
  deriving DecidableEq, Repr

/-- The states of the closure of the download (ndt-browser-client.js:338-431). -/
inductive DownState | prepare | start | firstMsg | msgOrFinish
  deriving DecidableEq, Repr

/-- The states of the closure of the meta test (ndt-browser-client.js:441-472). -/
inductive MetaState | prepare | start | finalize
  deriving DecidableEq, Repr

/-- A test that was announced. -/
inductive Test
  | c2s (s : UpState)
  | s2c (s : DownState)
  | metadata (s : MetaState)
  deriving DecidableEq, Repr

/-- The states of the coordinator (ndt-browser-client.js:477-591); it is made when the login is sent. -/
inductive Coordinator | loginSent | testIds | results
  deriving DecidableEq, Repr

/-- The variables of the closure of the upload that `keepSendingData` uses (ndt-browser-client.js:240-247): when it began, when the next callback is due after that, whether the connection is open, and
whether `setTimeout` has been called. If an upload were announced twice, the model would keep these of the last one. -/
structure Upload where
  start : Int
  next : Int
  isOpen : Bool
  scheduled : Bool
  deriving DecidableEq, Repr

/-- The state of the client: `updateInterval` in milliseconds (zero is `false`), the variables of `startTest` (ndt-browser-client.js:478-479), `results` (newest first), the ports of the test connections
that were opened, the calls of `onstatechange`, and whether `onfinish` was called. -/
structure Client where
  interval : Int := 0
  state : Coordinator := .loginSent
  active : Option Test := none
  toRun : List Test := []
  results : List (Bytes × Val) := []
  upload : Option Upload := none
  ports : List Nat := []
  changes : List Bytes := []
  finished : Bool := false
  deriving DecidableEq, Repr

/-- What a handler gets from the browser: the time, the time when it is read again, and the rate that it computes from the bytes and times of its own connection, as text. -/
structure Env where
  now : Int
  later : Int
  rate : Bytes

/-- `that.results[name] = value`. -/
def Client.put (c : Client) (name : Bytes) (v : Val) : Client := { c with results := (name, v) :: c.results }

/-- `that.results[name]`. -/
def Client.get (c : Client) (name : Bytes) : Val := ((c.results.find? fun p => p.1 = name).map Prod.snd).getD .undef

/-- `that.callbacks.onstatechange(state, that.results)`. -/
def Client.change (c : Client) (state : Bytes) : Client := { c with changes := c.changes ++ [state] }

/-- `messageContent.msg`: the last member of that name; undefined if there is none or the value is not an object. -/
def msgOf : Json → Except Thrown (Option Json)
  | .null => .error .typeError
  | .obj kvs => .ok (((kvs.filter fun kv => kv.1 = str "msg").getLast?).map Prod.snd)
  | _ => .ok none

/-- A method of a text is called. This server sends nothing but texts; on other values the model always throws, while `Number` of ndt-browser-client.js:315 would not. -/
def asText : Option Json → Except Thrown Bytes
  | some (.str s) => .ok s
  | _ => .error .typeError

/-- `messageContent.msg === text`. -/
def isText (msg : Option Json) (text : Bytes) : Bool :=
  match msg with
  | some (.str s) => s == text
  | _ => false

/-- `Number(messageContent.msg)` used as port in a URL. -/
def portOfMsg (msg : Option Json) : Except Thrown Nat :=
  match msg with
  | some (.str s) => match atoi s with
    | some n => if 0 ≤ n ∧ n ≤ 65535 then .ok n.toNat else .error .badPort
    | none => .error .badPort
  | _ => .error .badPort

/-- `keepSendingData` (ndt-browser-client.js:258-283): with the connection open, data is sent, which does not matter here, and `c2sRate` is set if a callback is due. -/
def keepSendingData (c : Client) (u : Upload) (env : Env) : Client :=
  if u.isOpen ∧ c.interval ≠ 0 ∧ env.now - 100 > u.start + u.next then
    { c.put (str "c2sRate") (.own env.rate) with upload := some { u with next := u.next + c.interval, scheduled := env.later < u.start + 10000 } }
  else
    { c with upload := some { u with scheduled := env.now < u.start + 10000 } }

/-- The closure of the upload handles a message (ndt-browser-client.js:289-328). The last component says whether the test is complete. -/
def uploadMessage (c : Client) (s : UpState) (t : Option UInt8) (msg : Option Json) (env : Env) : Except Thrown (Client × Test × Bool) :=
  if s = .prepare ∧ t = some 3 then do
    let port ← portOfMsg msg
    .ok ({ c.change (str "preparing_c2s") with ports := c.ports ++ [port], upload := some ⟨0, c.interval, false, false⟩ }, .c2s .start, false)
  else if s = .start ∧ t = some 4 then
    let c := c.change (str "running_c2s")
    let u := c.upload.getD ⟨0, c.interval, false, false⟩
    .ok (keepSendingData c { u with start := env.now } env, .c2s .msg, false)
  else if s = .msg ∧ t = some 5 then do
    let text ← asText msg
    .ok (c.put (str "c2sRate") (.number text), .c2s .finalize, false)
  else if s = .finalize ∧ t = some 6 then
    .ok (c.change (str "finished_c2s"), .c2s .done, true)
  else .ok (c, .c2s s, false)

/-- The closure of the download handles a message (ndt-browser-client.js:349-430). -/
def downloadMessage (c : Client) (s : DownState) (t : Option UInt8) (msg : Option Json) (env : Env) : Except Thrown (Client × Test × List Bytes × Bool) :=
  if s = .prepare ∧ t = some 3 then do
    let port ← portOfMsg msg
    .ok ({ c.change (str "preparing_s2c") with ports := c.ports ++ [port] }, .s2c .start, [], false)
  else if s = .start ∧ t = some 4 then
    .ok (c.change (str "running_s2c"), .s2c .firstMsg, [], false)
  else if s = .firstMsg ∧ t = some 5 then
    .ok (c.put (str "s2cRate") (.own env.rate), .s2c .msgOrFinish, [makeNdtMessage 5 env.rate], false)
  else if s = .msgOrFinish ∧ t = some 5 then do
    let text ← asText msg
    match split (str ": ") text with
    | name :: value :: _ => .ok (c.put name (.text (trim value)), .s2c .msgOrFinish, [], false)
    | _ => .error .typeError
  else if s = .msgOrFinish ∧ t = some 6 then
    .ok (c.change (str "finished_s2c"), .s2c .msgOrFinish, [], true)
  else .ok (c, .s2c s, [], false)

/-- The closure of the meta test handles a message (ndt-browser-client.js:446-471). -/
def metaMessage (c : Client) (s : MetaState) (t : Option UInt8) : Except Thrown (Client × Test × List Bytes × Bool) :=
  if s = .prepare ∧ t = some 3 then .ok (c.change (str "preparing_meta"), .metadata .start, [], false)
  else if s = .start ∧ t = some 4 then
    .ok (c.change (str "running_meta"), .metadata .finalize, [makeNdtMessage 5 (str "client.os.name:NDTjs"), makeNdtMessage 5 []], false)
  else if s = .finalize ∧ t = some 6 then .ok (c.change (str "finished_meta"), .metadata .finalize, [], true)
  else .error (.failure (str "Bad state and message combo for META test"))

/-- The active test handles a message (ndt-browser-client.js:516-524). -/
def testMessage (c : Client) (test : Test) (t : Option UInt8) (msg : Option Json) (env : Env) : Except Thrown (Client × List Bytes) := do
  let (c, test, out, complete) ← (match test with
    | .c2s s => (uploadMessage c s t msg env).map fun r => (r.1, r.2.1, [], r.2.2)
    | .s2c s => downloadMessage c s t msg env
    | .metadata s => metaMessage c s t)
  .ok ({ c with active := if complete then none else some test }, out)

/-- The tests that the server announced, in the order of the announcement (ndt-browser-client.js:555-567; the loop pushes them from the last to the first onto a stack). -/
def testsOf : List Bytes → Except Thrown (List Test)
  | [] => .ok []
  | id :: ids => do
    let rest ← testsOf ids
    if id = str "2" then .ok (.c2s .prepare :: rest)
    else if id = str "4" then .ok (.s2c .prepare :: rest)
    else if id = str "32" then .ok (.metadata .prepare :: rest)
    else if id = [] then .ok rest
    else .error (.failure (str "Unknown test type"))

/-- The lines of MsgResults become results (ndt-browser-client.js:572-579). -/
def putLines (c : Client) : List Bytes → Client
  | [] => c
  | line :: lines => match split (str ": ") line with
    | [] => putLines c lines
    | [name] => putLines (c.put name .undef) lines
    | name :: value :: _ => putLines (c.put name (.text value)) lines

/-- The coordinator handles a message while no test is active (ndt-browser-client.js:528-590). -/
def coordinate (c : Client) (t : Option UInt8) (msg : Option Json) : Except Thrown (Client × List Bytes) :=
  match c.state with
  | .loginSent =>
    if t = some 1 then
      if isText msg (str "9990") then .ok (c, [makeNdtMessage 10 []])
      else if isText msg (str "9977") then .error (.failure (str "Server terminated test with SRV_QUEUE 9977"))
      else .ok (c, [])
    else if t = some 2 then do
      let _ ← asText msg
      .ok ({ c with state := .testIds }, [])
    else .error (.failure (str "Expected type 1 (SRV_QUEUE) or 2 (MSG_LOGIN)"))
  | .testIds =>
    if t = some 2 then do
      let text ← asText msg
      let tests ← testsOf (split (str " ") text)
      .ok ({ c with toRun := tests, state := .results }, [])
    else .error (.failure (str "No handler for message"))
  | .results =>
    if t = some 8 then do
      let text ← asText msg
      .ok (putLines c (split [10] text), [])
    else if t = some 9 then .ok ({ c.change (str "finished_all") with finished := true }, [])
    else .error (.failure (str "No handler for message"))

/-- `ndtSocket.onmessage` (ndt-browser-client.js:504-591): the new state and what is sent to the server. -/
def onMessage (c : Client) (frame : Bytes) (env : Env) : Except Thrown (Client × List Bytes) :=
  match parseJson (fromCharCodes (frame.drop 3)) with
  | none => .error .syntaxError
  | some content => do
    let msg ← msgOf content
    match c.active, c.toRun with
    | some test, _ => testMessage c test frame.head? msg env
    | none, test :: rest => testMessage { c with toRun := rest } test frame.head? msg env
    | none, [] => coordinate c frame.head? msg

/-- What can happen in the browser between messages: the upload connection opens (ndt-browser-client.js:301-303), the timer of the upload runs out, or data of the download arrives
and a callback is due (ndt-browser-client.js:362-381; that the time has come is not checked here). -/
inductive Idle
  | opened
  | timer (env : Env)
  | received (rate : Bytes)

/-- The client after that; `none` if it cannot happen. -/
def idle (c : Client) : Idle → Option Client
  | .opened => c.upload.map fun u => { c with upload := some { u with isOpen := true } }
  | .timer env => match c.upload with
    | some u => if u.scheduled then some (keepSendingData c u env) else none
    | none => none
  | .received rate => if c.interval ≠ 0 then some (c.put (str "s2cRate") (.own rate)) else none

end Verif.Web
