import Verif.Web.Ndt7Upload
import Verif.Go.Json

/-!
# The main thread of the ndt7 client for browsers: html/ndt7.js

`runNDT7Worker` waits for three things: the URLs, messages of its worker, and a timeout. Each is one step. `worker.terminate()` also drops messages of the worker that are not handled yet, as the HTML standard has it, so a
terminated worker is silent. The workers post nothing that has no `MsgType`; `Worker` has no `onerror`, so a worker that cannot be loaded is a silent one. The callbacks of the user return, except that `error` may throw, as its
default does. Promises are always settled after the event that settles them.
-/

namespace Verif.Web
open Verif.Go

/-- Calls of the callbacks of the user; `measurement` with what `Data` is. -/
inductive Call
  | error
  | start (start : Rat) («end» : Option Rat)
  | client (elapsed : Rat) (numBytes : Int)
  | server (data : Json)
  /-- `complete`, with the last measurements, if there are any -/
  | complete (client : Option (Rat × Int)) (server : Option Json)

/-- What `runNDT7Worker` waits for. -/
inductive Waits
  /-- the URLs -/
  | urls
  /-- the worker, which has been started -/
  | worker
  /-- nothing: there are no URLs -/
  | failed
deriving DecidableEq

/-- The variables of `runNDT7Worker` (ndt7.js:124-214). -/
structure Main where
  waits : Waits
  /-- the timeout is set (ndt7.js:161) -/
  timer : Bool
  /-- `worker.terminate()` has not been called -/
  alive : Bool
  /-- what `workerPromise` was resolved with first -/
  code : Option Nat
  lastClient : Option (Rat × Int)
  lastServer : Option Json
  calls : List Call

inductive MainAct
  /-- the URLs are known -/
  | urls
  /-- they cannot be had -/
  | noUrls
  /-- a message of the worker -/
  | message (p : Post)
  /-- the timeout of 12 seconds -/
  | timeout

/-- `worker.resolve` (ndt7.js:144-153). -/
def Main.resolve (s : Main) (code : Nat) : Main :=
  { s with calls := if code = 0 then s.calls ++ [.complete s.lastClient s.lastServer] else s.calls, alive := false, code := s.code.or (some code) }

/-- `worker.onmessage` (ndt7.js:166-194). A `ServerMessage` that is not JSON throws, so that nothing happens. -/
def Main.onmessage (s : Main) : Post → Main
  | .error => let s := { s with timer := false }.resolve 1; { s with calls := s.calls ++ [.error] }
  | .start a b => { s with calls := s.calls ++ [.start a b] }
  | .server m =>
    match parseJson m with
    | none => s
    | some j => { s with lastServer := some j, calls := s.calls ++ [.server j] }
  | .client e n => { s with lastClient := some (e, n), calls := s.calls ++ [.client e n] }
  | .complete => { s with timer := false }.resolve 0

/-- One step: ndt7.js:161 for the timeout, 166-194 for messages, 198-206 for the URLs. -/
def mainStep (s : Main) : MainAct → Option Main
  | .timeout => if s.timer then some ({ s with timer := false }.resolve 0) else none
  | .urls => if s.waits = .urls then some { s with waits := .worker } else none
  | .noUrls => if s.waits = .urls then some { ({ s with timer := false }.resolve 2) with waits := .failed } else none
  | .message p => if s.waits = .worker ∧ s.alive then some (s.onmessage p) else none

/-- `runNDT7Worker` from the moment at which it has made the worker (ndt7.js:138). -/
def runWorker : LTS Main MainAct where
  init := ⟨.urls, true, true, none, none, none, []⟩
  step := mainStep

/-- How an asynchronous function ends: it returns a value or throws. -/
inductive Settled (α : Type)
  | returned (a : α)
  | thrown
deriving DecidableEq

/-- How `runNDT7Worker` has ended in this state, if it has (ndt7.js:198-209). -/
def Main.settled (s : Main) : Option (Settled Nat) :=
  match s.waits with
  | .urls => none
  | .worker => s.code.map .returned
  | .failed => some .thrown

/-- What the user says about the data policy, and whether their `error` throws. -/
structure UserConfig where
  userAcceptedDataPolicy : Bool
  mlabDataPolicyInapplicable : Bool
  errorThrows : Bool

/-- `runNDT7Worker` (ndt7.js:124-214), in which the part after the check of the policy ends in this state: the calls of the callbacks, whether there was a worker, and the end. -/
def runNDT7Worker (c : UserConfig) (s : Main) : List Call × Bool × Option (Settled Nat) :=
  if c.userAcceptedDataPolicy = false ∧ c.mlabDataPolicyInapplicable = false then ([.error], false, some (if c.errorThrows then .thrown else .returned 1))
  else (s.calls, true, s.settled)

/-- The numbers of JavaScript that there are here, and undefined. -/
inductive JsVal
  | num (n : Nat)
  | undefined
  | nan
deriving DecidableEq

/-- `+` (as in ndt7.js:289). -/
def JsVal.add : JsVal → JsVal → JsVal
  | .num a, .num b => .num (a + b)
  | _, _ => .nan

/-- `<< 4` (as in ndt7.js:266), for small numbers: undefined and NaN are converted to 0. -/
def JsVal.shift4 : JsVal → JsVal
  | .num a => .num (a * 16)
  | .undefined => .num 0
  | .nan => .num 0

/-- `.catch((err) => { callbacks.error(err); })` (ndt7.js:237-239, 263-265). -/
def caught (c : UserConfig) (r : List Call × Bool × Option (Settled Nat)) : List Call × Option (Settled JsVal) :=
  match r.2.2 with
  | none => (r.1, none)
  | some (.returned n) => (r.1, some (.returned (.num n)))
  | some .thrown => (r.1 ++ [.error], some (if c.errorThrows then .thrown else .returned .undefined))

/-- `downloadTest` (ndt7.js:227-240). -/
def downloadTest (c : UserConfig) (s : Main) : List Call × Option (Settled JsVal) := caught c (runNDT7Worker c s)

/-- `uploadTest` (ndt7.js:253-267). -/
def uploadTest (c : UserConfig) (s : Main) : List Call × Option (Settled JsVal) :=
  let r := caught c (runNDT7Worker c s)
  (r.1, r.2.map fun
    | .returned v => .returned v.shift4
    | .thrown => .thrown)

/-- `test` (ndt7.js:281-290) after the start of the discovery: the calls for the download, those for the upload, and the end. An exception of the first one ends it. -/
def ndt7Test (c : UserConfig) (down up : Main) : List Call × List Call × Option (Settled JsVal) :=
  let d := downloadTest c down
  match d.2 with
  | none => (d.1, [], none)
  | some .thrown => (d.1, [], some .thrown)
  | some (.returned a) =>
    let u := uploadTest c up
    (d.1, u.1, u.2.map fun
      | .returned b => .returned (a.add b)
      | .thrown => .thrown)

end Verif.Web
