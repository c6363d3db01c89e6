import Verif.Web.Ndt7Main
import Verif.Ndt7.Test

/-!
# The page html/ndt7.html

It runs `ndt7.test` with callbacks of which two, `downloadComplete` and `uploadComplete`, throw if a measurement is missing. As they are called in the middle of `worker.resolve` (ndt7.js:144-153), the worker is then neither
terminated nor its promise resolved. What the page writes into its elements and into the log is not modelled.
-/

namespace Verif.Web
open Verif.Go
open Verif.Ndt7 (Subtest)

/-- `j[name]` for a value of `JSON.parse`, where it is neither `undefined` nor `null`. (Of several members of the same name the last one counts. The names used here are not names of prototypes' properties.) -/
def jsMember (j : Json) (name : Bytes) : Option Json :=
  match j with
  | .obj kvs =>
    match kvs.reverse.find? (·.1 = name) with
    | some (_, .null) => none
    | some (_, v) => some v
    | none => none
  | _ => none

/-- Whether the `complete` callback throws, given the last measurements of the client and of the server: `downloadComplete` (ndt7.html:56-65) reads `LastServerMeasurement.BBRInfo.BW` and
`LastClientMeasurement.MeanClientMbps`, `uploadComplete` (ndt7.html:72-81) reads `LastServerMeasurement.TCPInfo.BytesReceived` and `.ElapsedTime`. -/
def completeThrows (k : Subtest) (client : Option (Rat × Int)) (server : Option Json) : Bool :=
  match k with
  | .download => (server.bind (jsMember · (str "BBRInfo"))).isNone || client.isNone
  | .upload => (server.bind (jsMember · (str "TCPInfo"))).isNone

/-- `worker.resolve` (ndt7.js:144-153) with these callbacks. -/
def Main.resolveHtml (k : Subtest) (s : Main) (code : Nat) : Main :=
  if code = 0 ∧ completeThrows k s.lastClient s.lastServer then { s with calls := s.calls ++ [.complete s.lastClient s.lastServer] } else s.resolve code

/-- One step of a subtest on the page; `mainStep` (ndt7.js:161-206) with these callbacks. -/
def htmlStep (k : Subtest) (s : Main) : MainAct → Option Main
  | .timeout => if s.timer then some ({ s with timer := false }.resolveHtml k 0) else none
  | .message .complete => if s.waits = .worker ∧ s.alive then some ({ s with timer := false }.resolveHtml k 0) else none
  | a => mainStep s a

/-- A subtest on the page. -/
def htmlWorker (k : Subtest) : LTS Main MainAct where
  init := runWorker.init
  step := htmlStep k

/-- The configuration of the page (ndt7.html:32-43): `userAcceptedDataPolicy` is true, and `error` logs. -/
def htmlConfig : UserConfig := ⟨true, false, false⟩

end Verif.Web
