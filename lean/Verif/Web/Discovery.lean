import Verif.Web.Ndt7Urls
import Verif.Web.Ndt7Main

/-!
# How the ndt7 client for browsers finds a server: html/ndt7.js, `discoverServerURLs` (ndt7.js:59-112)

With a server in the configuration, with a load balancer, or with neither. Simplified: callbacks of the user return; the answer of the load balancer is read with the JSON parser of the model (`Go/Json`), which is that of Go.
-/

namespace Verif.Web
open Verif.Go

/-- The part of the user's configuration that matters here. -/
structure Finding where
  /-- `config.metadata` -/
  metadata : JsObj := []
  /-- `config.protocol` -/
  protocol : Option Bytes := none
  /-- `config.server` -/
  server : Option Bytes := none
  /-- `config.loadbalancer`: `some none` is a text that is not a URL, `some (some base)` a URL, without its query and its fragment -/
  loadbalancer : Option (Option Bytes) := none
  /-- whether the user has a callback `error`; without one, the default throws (ndt7.js:41-43) -/
  hasError : Bool := false

/-- What the load balancer does. -/
inductive LbAnswer
  /-- `fetch` fails -/
  | failed
  /-- an answer, of any status, with this body -/
  | body (b : Bytes)

/-- What can be observed of the discovery: calls of the user's callbacks, and the request. -/
inductive Seen
  | discovery (url : Bytes)
  | fetch (url : Bytes)
  | error
  /-- `serverChosen`; `none` is `undefined` -/
  | chosen (c : Option Json)

/-- The two URLs, whatever kind of value they are; `none` is `undefined`. -/
structure Urls where
  download : Option Json
  upload : Option Json

/-- `kvs.name` for the object that `JSON.parse` makes of these members: the last one counts. -/
def lastMember (name : Bytes) (kvs : List (Bytes × Json)) : Option Json := ((kvs.filter fun kv => kv.1 = name).getLast?).map Prod.snd

/-- `v.name`: the outer `none` is a `TypeError`, the inner one `undefined`. -/
def propOf (name : Bytes) : Option Json → Option (Option Json)
  | none => none
  | some .null => none
  | some (.obj kvs) => some (lastMember name kvs)
  | some _ => some none

/-- `'name' in v` (ndt7.js:94): `none` is a `TypeError`, for what is not an object. -/
def hasMember (name : Bytes) : Json → Option Bool
  | .obj kvs => some (lastMember name kvs).isSome
  | .arr _ => some false
  | _ => none

/-- `v[0]` (ndt7.js:106); the outer `none` is a `TypeError`. Of a text it is the first character (here: its first byte). -/
def firstOf : Option Json → Option (Option Json)
  | none => none
  | some .null => none
  | some (.arr vs) => some vs.head?
  | some (.obj kvs) => some (lastMember (str "0") kvs)
  | some (.str s) => some (s.head?.map fun b => .str [b])
  | some _ => some none

/-- The URL of the locate service (ndt7.js:88). -/
def locateURL : Bytes := str "https://locate.measurementlab.net/v2/nearest/ndt/ndt7"

/-- `protocol` (ndt7.js:67-70). -/
def protocolOf (f : Finding) : Bytes := f.protocol.getD (str "wss")

/-- From the chosen result to the URLs (ndt7.js:107-111); `none` is a `TypeError`. -/
def urlsOf (protocol : Bytes) (choice : Option Json) : Option Urls :=
  match propOf (str "urls") choice with
  | none => none
  | some urls =>
    match propOf (protocol ++ str ":///ndt/v7/download") urls, propOf (protocol ++ str ":///ndt/v7/upload") urls with
    | some d, some u => some ⟨d, u⟩
    | _, _ => none

/-- From the answer on (ndt7.js:90-111). -/
def readAnswer (f : Finding) : LbAnswer → List Seen × Settled Urls
  | .failed => ([], .thrown)
  | .body b => match parseJson b with
    | none => ([], .thrown)
    | some js => match hasMember (str "results") js with
      | none => ([], .thrown)
      | some false => ([.error], if f.hasError then .returned ⟨none, none⟩ else .thrown)
      | some true => match (propOf (str "results") (some js)).bind firstOf with
        | none => ([], .thrown)
        | some choice => match urlsOf (protocolOf f) choice with
          | none => ([.chosen choice], .thrown)
          | some urls => ([.chosen choice], .returned urls)

/-- `discoverServerURLs(config, userCallbacks)` (ndt7.js:59-112), where the browser lists the metadata in the order of `ps`. -/
def discoverServerURLs (f : Finding) (ps : JsObj) (answer : LbAnswer) : List Seen × Settled Urls :=
  match f.server with
  | some server =>
    let urls := serverURLs (protocolOf f) server ps
    ([], .returned ⟨some (.str urls.1), some (.str urls.2)⟩)
  | none => match f.loadbalancer.getD (some locateURL) with
    | none => ([], .thrown)
    | some base =>
      let url := base ++ str "?" ++ searchParams ps
      let r := readAnswer f answer
      (.discovery url :: .fetch url :: r.1, r.2)

end Verif.Web
