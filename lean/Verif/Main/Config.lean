import Verif.Go.Prog
import Verif.Ndt5.World

/-!
# Configuration and start of the server (ndt-server.go)
-/

namespace Verif.Main
open Verif.Go Verif.Ndt5

/-- The flags, ndt-server.go:37-79. `labels` is `deploymentLabels.Get()` in the order in which the map is iterated. -/
structure Flags where
  ndt7Addr : Bytes
  ndt7AddrCleartext : Bytes
  ndt5Addr : Bytes
  ndt5WsAddr : Bytes
  ndt5WssAddr : Bytes
  healthAddr : Bytes
  certFile : Bytes
  keyFile : Bytes
  tlsVersion : Bytes
  autocertEnabled : Bool
  autocertHostname : Bytes
  dataDir : Bytes
  htmlDir : Bytes
  compress : Bool
  labels : List (Bytes × Bytes)
  tokenRequired5 : Bool
  tokenRequired7 : Bool
  tokenMachine : Bytes
  eventSocket : Bytes

/-- The defaults of the flags, ndt-server.go:39-63, 72-79. -/
def Flags.defaults : Flags :=
  { ndt7Addr := str ":443", ndt7AddrCleartext := str ":80", ndt5Addr := str ":3001", ndt5WsAddr := str "127.0.0.1:3002", ndt5WssAddr := str ":3010",
    healthAddr := str "127.0.0.1:8000", certFile := [], keyFile := [], tlsVersion := [], autocertEnabled := false, autocertHostname := [],
    dataDir := str "/var/spool/ndt", htmlDir := str "html", compress := true, labels := [], tokenRequired5 := false, tokenRequired7 := false, tokenMachine := [],
    eventSocket := [] }

/-! ## Labels -/

/-- The loop of `parseDeploymentLabels`, ndt-server.go:159-170: array, index and `version.Version`. `none` is the panic of an index out of range. -/
def labelLoop : List (Bytes × Bytes) → List NameValue → Nat → Bytes → Option (List NameValue × Bytes)
  | [], arr, _, ver => some (arr, ver)
  | (k, v) :: rest, arr, i, ver =>
    if i < arr.length then
      labelLoop rest (arr.set i ⟨k, v⟩) (i + 1) (if k = str "deployment" ∧ v = str "canary" then ver ++ str "-canary" else ver)
    else none

/-- `parseDeploymentLabels`, ndt-server.go:154-173, with the map in iteration order; also the new `version.Version`. -/
def parseDeploymentLabels (labels : List (Bytes × Bytes)) (ver : Bytes) : Option (List NameValue × Bytes) :=
  labelLoop labels (List.replicate labels.length ⟨[], []⟩) 0 ver

/-! ## HTTP servers -/

/-- `tls.Config` as far as it is set: `MinVersion` (0 is the library's default), `NextProtos`, and for which host `GetCertificate` obtains certificates. -/
structure TlsConfig where
  minVersion : Nat := 0
  nextProtos : List Bytes := []
  autocertFor : Option Bytes := none
deriving DecidableEq

/-- An access controller, the arguments of `controller.Setup`: ndt-server.go:238-239. -/
structure Access where
  tokenRequired : Bool
  machine : Bytes
  txPaths : List Bytes
  tokenPaths : List Bytes
deriving DecidableEq

/-- What finally answers a request. -/
inductive Leaf
  /-- `http.FileServer(http.Dir(dir))` -/
  | files (dir : Bytes)
  /-- `ndt5handler.NewWS(dataDir, metadata)` -/
  | ndt5WS (dataDir : Bytes) (metadata : List NameValue)
  /-- `ndt5handler.NewWSS(dataDir, cert, key, metadata)` -/
  | ndt5WSS (dataDir cert key : Bytes) (metadata : List NameValue)
  /-- `ndt7Handler.Download` with the fields of the handler: data directory, secure port, insecure port, metadata, compression -/
  | ndt7Download (dataDir securePort insecurePort : Bytes) (metadata : List NameValue) (compress : Bool)
  /-- `ndt7Handler.Upload` -/
  | ndt7Upload (dataDir securePort insecurePort : Bytes) (metadata : List NameValue) (compress : Bool)
  /-- `handleHealth` -/
  | health

/-- An `http.Handler`. -/
inductive Handler
  /-- `http.ServeMux` -/
  | mux (routes : List (Bytes × Leaf))
  /-- `logging.MakeAccessLogHandler`, logging/logging.go:29 -/
  | log (h : Handler)
  /-- `ac.Then(h)` -/
  | access (ac : Access) (h : Handler)

/-- An `http.Server`, with timeouts in nanoseconds. `http2` is false if `TLSNextProto` is a non-nil map without entry for HTTP/2. -/
structure HttpServer where
  addr : Bytes
  handler : Handler
  tls : TlsConfig
  readTimeout : Int
  writeTimeout : Int
  http2 : Bool

/-- `httpServer`, ndt-server.go:115-149. 0x0304 is TLS 1.3 and 0x0303 is TLS 1.2; `acme.ALPNProto` is "acme-tls/1". -/
def httpServer (f : Flags) (addr : Bytes) (handler : Handler) : HttpServer :=
  let tlsconf : TlsConfig :=
    if f.tlsVersion = str "1.3" then { minVersion := 0x0304 }
    else if f.tlsVersion = str "1.2" then { minVersion := 0x0303 }
    else {}
  let tlsconf := if f.autocertEnabled then { tlsconf with nextProtos := tlsconf.nextProtos ++ [str "acme-tls/1"] } else tlsconf
  { addr := addr, handler := handler, tls := tlsconf, readTimeout := 60000000000, writeTimeout := 60000000000, http2 := false }

/-- The `http.Server` of an ndt5 test over websockets, ndt5/singleserving/server.go:105-113: `listenWS` sets neither `TLSConfig` nor `TLSNextProto`, also for
`ListenWSS` (148-168). The handler is that of one test. -/
def singleServer (handler : Handler) : HttpServer :=
  { addr := [], handler := handler, tls := {}, readTimeout := 60000000000, writeTimeout := 60000000000, http2 := true }

/-! ## main -/

/-- spec.DownloadURLPath, ndt7/spec/spec.go:7 -/
def downloadPath : Bytes := str "/ndt/v7/download"
/-- spec.UploadURLPath, ndt7/spec/spec.go:10 -/
def uploadPath : Bytes := str "/ndt/v7/upload"
/-- ndt-server.go:226 -/
def ndt5Path : Bytes := str "/ndt_protocol"

/-- `ac5`, ndt-server.go:225-227 and 238. -/
def access5 (f : Flags) : Access := ⟨f.tokenRequired5, f.tokenMachine, [ndt5Path], [ndt5Path]⟩
/-- `ac7`, ndt-server.go:229-236 and 239. -/
def access7 (f : Flags) : Access := ⟨f.tokenRequired7, f.tokenMachine, [downloadPath], [downloadPath, uploadPath]⟩

/-- What `main` does that can fail. -/
inductive MainCall
  /-- `flagx.ArgsFromEnv` -/
  | argsFromEnv
  /-- `token.NewVerifier` -/
  | newVerifier
  /-- `eventSrv.Listen()` -/
  | eventListen (file : Bytes)
  /-- `ndt5Server.ListenAndServe(ctx, addr, tx)` of a raw server with its data directory and forwarding address -/
  | listenRaw (addr dataDir wsAddr : Bytes) (metadata : List NameValue) (tx : Access)
  /-- `listener.ListenAndServeAsync(server)` -/
  | listen (server : HttpServer)
  /-- `listener.ListenAndServeTLSAsync(server, cert, key)` -/
  | listenTLS (server : HttpServer) (cert key : Bytes)

/-- Notifications. -/
inductive MainNote
  /-- `main` waits for the end of the context: ndt-server.go:340 -/
  | wait
  /-- the deferred `Close` of the server listening on the address -/
  | close (addr : Bytes)

/-- The environment of `main`: every call answers with an error or none. -/
abbrev mainSig : Sig := ⟨MainCall, fun _ => Option Err, MainNote⟩

/-- How `main` ends. -/
inductive Exit
  /-- returned -/
  | ok
  /-- `rtx.Must` ended the process -/
  | fatal
  /-- panic -/
  | crash
deriving DecidableEq

/-- `rtx.Must(call, …)`. -/
def must (q : MainCall) (k : Prog mainSig Exit) : Prog mainSig Exit :=
  .call q fun r => match r with
    | .ok none => k
    | .ok (some _) => .ret .fatal
    | .panic _ => .ret .crash

/-- The deferred calls, last first. -/
def closeAll : List Bytes → Prog mainSig Exit
  | [] => .ret .ok
  | a :: as => .emit (.close a) (closeAll as)

/-- `ndt5WsServer`, ndt-server.go:250-258. -/
def wsServer (f : Flags) (md : List NameValue) : HttpServer :=
  httpServer f f.ndt5WsAddr (.log (.mux [(str "/", .files f.htmlDir), (ndt5Path, .ndt5WS (f.dataDir ++ str "/ndt5") md)]))

/-- `ndt7Mux`, ndt-server.go:264-275. -/
def ndt7Mux (f : Flags) (md : List NameValue) : Handler :=
  .mux [(str "/", .files f.htmlDir), (downloadPath, .ndt7Download f.dataDir f.ndt7Addr f.ndt7AddrCleartext md f.compress),
    (uploadPath, .ndt7Upload f.dataDir f.ndt7Addr f.ndt7AddrCleartext md f.compress)]

/-- `ndt7ServerCleartext`, ndt-server.go:276-279. -/
def cleartextServer (f : Flags) (md : List NameValue) : HttpServer :=
  httpServer f f.ndt7AddrCleartext (.access (access7 f) (.log (ndt7Mux f md)))

/-- `ndt5WssServer`, ndt-server.go:286-292. -/
def wssServer (f : Flags) (md : List NameValue) : HttpServer :=
  httpServer f f.ndt5WssAddr (.access (access5 f) (.log (.mux [(str "/", .files f.htmlDir),
    (ndt5Path, .ndt5WSS (f.dataDir ++ str "/ndt5") f.certFile f.keyFile md)])))

/-- `ndt7Server`, ndt-server.go:298-301 and 316-319. -/
def ndt7Server (f : Flags) (md : List NameValue) : HttpServer :=
  httpServer f f.ndt7Addr (.access (access7 f) (.log (ndt7Mux f md)))

/-- `healthServer`, ndt-server.go:330-335. -/
def healthServer (f : Flags) : HttpServer := httpServer f f.healthAddr (.mux [(str "/health", .health)])

/-- The end of `main`, ndt-server.go:329-340, with the deferred calls. -/
def mainEnd (f : Flags) (deferred : List Bytes) : Prog mainSig Exit :=
  must (.listen (healthServer f)) (.emit .wait (closeAll (f.healthAddr :: deferred)))

/-- The services with TLS, ndt-server.go:284-327. With autocert, `ListenAndServeTLSAsync` gets the names of certificate and key file that are not both given. -/
def mainTLS (f : Flags) (md : List NameValue) (deferred : List Bytes) : Prog mainSig Exit :=
  if f.certFile ≠ [] ∧ f.keyFile ≠ [] then
    must (.listenTLS (wssServer f md) f.certFile f.keyFile) <|
    must (.listenTLS (ndt7Server f md) f.certFile f.keyFile) <|
    mainEnd f (f.ndt7Addr :: f.ndt5WssAddr :: deferred)
  else if f.autocertEnabled = true ∧ f.autocertHostname ≠ [] then
    let s := ndt7Server f md
    must (.listenTLS { s with tls := { s.tls with autocertFor := some f.autocertHostname } } f.certFile f.keyFile) <|
    mainEnd f (f.ndt7Addr :: deferred)
  else mainEnd f deferred

/-- `main`, ndt-server.go:191-341. Left out: parsing of the command line, the signal handler (Main/Signal.lean), the metrics server of the library, logging, and
starting the event server. An index out of range in `parseDeploymentLabels` is a crash. -/
def main (f : Flags) (ver : Bytes) : Prog mainSig Exit :=
  must .argsFromEnv <|
  match parseDeploymentLabels f.labels ver with
  | none => .ret .crash
  | some (md, _) =>
    .call .newVerifier fun r => match r with
      | .panic _ => .ret .crash
      | .ok err =>
        if (f.tokenRequired5 || f.tokenRequired7) && err.isSome then .ret .fatal
        else
          must (.eventListen f.eventSocket) <|
          must (.listenRaw f.ndt5Addr (f.dataDir ++ str "/ndt5") f.ndt5WsAddr md (access5 f)) <|
          must (.listen (wsServer f md)) <|
          must (.listen (cleartextServer f md)) <|
          mainTLS f md [f.ndt7AddrCleartext, f.ndt5WsAddr]

/-- `serveTLS` (ndt7/listener/listener.go:58-63) ends the process for lack of a certificate. `http.Server.ServeTLS` loads the key pair unless the configuration provides
certificates and both names are empty; a file with an empty name cannot be read, and the error is fatal. -/
def serveTLSDies (s : HttpServer) (cert key : Bytes) : Prop :=
  (s.tls.autocertFor = none ∨ cert ≠ [] ∨ key ≠ []) ∧ (cert = [] ∨ key = [])

/-! ## Routing -/

/-- The routes of an `http.ServeMux` that match a path: a pattern ending in a slash matches all paths that begin with it, any other pattern only itself. (Paths
that are not clean are redirected by the library and reach no handler.) -/
def Matches (pattern path : Bytes) : Prop := pattern = path ∨ (pattern.getLast? = some 47 ∧ pattern <+: path)

/-- A request for `path` reaches the leaf and passes these access controllers; of several routes the most specific one is taken. -/
inductive Serves (path : Bytes) : Handler → List Access → Leaf → Prop
  | mux (routes : List (Bytes × Leaf)) (pattern : Bytes) (leaf : Leaf) : (pattern, leaf) ∈ routes → Matches pattern path →
      (∀ r ∈ routes, Matches r.1 path → r.1.length ≤ pattern.length) → Serves path (.mux routes) [] leaf
  | log (h : Handler) (l : List Access) (leaf : Leaf) : Serves path h l leaf → Serves path (.log h) l leaf
  | access (ac : Access) (h : Handler) (l : List Access) (leaf : Leaf) : Serves path h l leaf → Serves path (.access ac h) (ac :: l) leaf

end Verif.Main
