import Verif.Web.Ndt7Urls

/-!
# Where the shipped pages look for the server: html/ndt7.html, html/script.js, html/ndt-wrapper.js, html/ndt-browser-client.js
-/

namespace Verif.Web
open Verif.Go

/-- The properties of `window.location` that the pages use: whether `protocol` is `https:`, `hostname`, and `port`, which is empty for the default port of the protocol. -/
structure Location where
  https : Bool
  hostname : Bytes
  port : Bytes

/-- `location.host`. -/
def Location.host (l : Location) : Bytes := if l.port = [] then l.hostname else l.hostname ++ str ":" ++ l.port

/-- The URLs of the tests of html/ndt7.html: its configuration (ndt7.html:33-42) put through `discoverServerURLs`. -/
def htmlURLs (l : Location) : Bytes × Bytes :=
  serverURLs (if l.https then str "wss" else str "ws") l.host (pageMetadata [(str "client_name", str "ndt-server-example")])

/-- `_protocol` of the wrapper (ndt-wrapper.js:34). -/
def widgetProtocol (l : Location) : Bytes := if l.https then str "wss" else str "ws"

/-- `_port` of the wrapper (ndt-wrapper.js:33), as it is written into the URL. -/
def widgetPort (l : Location) : Bytes := if l.https then str "3010" else str "3001"

/-- The URL that `createWebsocket` opens (ndt-browser-client.js:207-214) with the wrapper's host name (script.js:36-37 and 558, unless the page sets `ndtServer`) and path
(ndt-wrapper.js:35): for the control connection with `widgetPort` (ndt-browser-client.js:485), for a test with the port that the server announced (299 and 356). -/
def widgetURL (l : Location) (port : Bytes) : Bytes := widgetProtocol l ++ str "://" ++ l.hostname ++ str ":" ++ port ++ str "/ndt_protocol"

end Verif.Web
