import Verif.Ndt7.Results

/-!
# ndt7/handler/handler.go
-/

namespace Verif.Ndt7
open Verif.Go Verif.Ndt5 Verif.Netx

/-- The message of an index panic. -/
def indexPanic : Bytes := str "runtime error: index out of range [0] with length 0"

/-- `validateEarlyExit` (handler.go:267-288). The error of `ParseInt` is ignored there; it then returns zero (for a syntax error). -/
def validateEarlyExit : Query → Outcome (Except Err Params)
  | [] => .ok (.ok { isEarlyExit := false })
  | (name, values) :: rest =>
    if name ≠ earlyExitName then validateEarlyExit rest
    else match values with
      | [] => .panic indexPanic
      | value :: _ =>
        if validEarlyExit.contains value = false then
          .ok (.error (str "invalid " ++ name ++ str " parameter value " ++ value))
        else .ok (.ok { isEarlyExit := true, maxBytes := (atoi value).getD 0 * 1000000 })

/-- `excludeKeyRe` (handler.go:248): `^server_` matches the names that start with `server_`. -/
def excluded (name : Bytes) : Bool := hasPrefix name (str "server_")

/-- `appendClientMetadata` (handler.go:252-264), starting with metadata `acc`. -/
def appendClientMetadata (acc : List NameValue) : Query → Outcome (List NameValue)
  | [] => .ok acc
  | (name, values) :: rest =>
    if excluded name then appendClientMetadata acc rest
    else match values with
      | [] => .panic indexPanic
      | value :: _ => appendClientMetadata (acc ++ [{ name := name, value := value }]) rest

/-- The common part of `upRate` and `downRate` (handler.go:227-245). -/
def rateOf (bytes : TcpInfo → Int) (m : List Measurement) : F64 :=
  match m.getLast? with
  | none => .fin 0
  | some last =>
    match last.tcp with
    | none => .fin 0
    | some t => F64.div (F64.mul (F64.ofInt 8) (F64.ofInt (bytes t.info))) (F64.ofInt t.elapsed)

/-- `upRate` (handler.go:227-235). -/
def upRate (m : List Measurement) : F64 := rateOf (·.bytesReceived) m

/-- `downRate` (handler.go:237-245). -/
def downRate (m : List Measurement) : F64 := rateOf (·.bytesAcked) m

/-- `metrics.GetResultLabel` (metrics/metrics.go:35-45). -/
def resultLabel (err : Option Err) (rate : F64) : Bytes :=
  (if err.isSome then str "error" else str "okay") ++ (if rate.isZero then str "-without-rate" else str "-with-rate")

/-- `ndt7metrics.ConnLabel` (ndt7/metrics/metrics.go:46-56) on the text of the local address. -/
def ndt7Label (addr : Bytes) : Bytes :=
  if hasSuffix addr (str "443") then str "ndt7+wss"
  else if hasSuffix addr (str "80") then str "ndt7+ws"
  else str "ndt7+unknown"

/-- What a request is handled with: `Handler` (handler.go:38-51) and build information. -/
structure Server where
  dataDir : Bytes
  serverMetadata : List NameValue
  compress : Bool
  gitShortCommit : Bytes
  version : Bytes
  lib : Lib

/-- The request: its query in some enumeration order for each of the two loops over it, and the first
`Sec-WebSocket-Protocol` header. -/
structure Request where
  query : Query
  /-- the same map, enumerated for `appendClientMetadata` -/
  query2 : Query
  protocol : Bytes

/-- `warnAndClose` (handler.go:55-60). -/
def warnAndClose : P Result Unit := note (.respond 400)

/-- `setupConn` (handler.go:149-172): is there a connection. -/
def setupConn (protocol : Bytes) : P Result Bool := do
  if protocol ≠ subprotocol then
    warnAndClose
    pure false
  else
    let err ← Ask.upgrade
    pure err.isNone

/-- The address used when there is none (handler.go:180, 184). -/
def noAddr : TcpAddr := { ip := str "::1", port := 1 }

/-- `setupResult` (handler.go:175-202): it sets the result and returns the flow identifier. -/
def setupResult (h : Server) : P Result SockId := do
  let c ← Ask.remoteAddr
  let s ← Ask.localAddr
  let client := c.getD noAddr
  let server := s.getD noAddr
  M.modify fun _ => { gitShortCommit := h.gitShortCommit, version := h.version, clientIP := client.ip, clientPort := client.port,
                      serverIP := server.ip, serverPort := server.port }
  pure { srcIP := server.ip, dstIP := client.ip, sPort := UInt16.ofInt server.port, dPort := UInt16.ofInt client.port, cookie := -1 }

/-- `Handler.writeResult` (handler.go:204-212). -/
def writeResult (h : Server) (uuid : Bytes) (kind : Subtest) : P Result Unit := do
  let r ← M.get
  match ← newFile h.lib h.dataDir kind.name uuid h.compress with
  | .error e => must (some e) "results.NewFile failed"
  | .ok f =>
    let err ← f.writeResult r
    must err "failed to write result"
    let _ ← f.close
    pure ()

/-- `fmt.Sprintf("%t", b)`. -/
def boolText (b : Bool) : Bytes := if b then str "true" else str "false"

/-- The body of the subtest (handler.go:127-145), with the archival data as far as it was set before. -/
def runSubtest (kind : Subtest) (params : Params) (d : ArchivalData) : P Result Unit := do
  M.modify fun r => match kind with
    | .download => { r with download := some d }
    | .upload => { r with upload := some d }
  let e ← Ask.subtest kind (match kind with
    | .download => some params
    | .upload => none)
  let d := { d with startTime := e.startTime, endTime := e.endTime, serverMeasurements := e.serverMeasurements,
                    clientMeasurements := e.clientMeasurements }
  M.modify fun r => match kind with
    | .download => { r with download := some d }
    | .upload => { r with upload := some d }
  match e.crash with
  | some msg => M.panic msg
  | none =>
    let rate := match kind with
      | .download => downRate d.serverMeasurements
      | .upload => upRate d.serverMeasurements
    let proto := ndt7Label (← Ask.localText)
    note (.testResult proto kind.name (resultLabel e.err rate))
    if F64.lt (.fin 0) rate then
      let mon ← Ask.isMonitoring
      note (.testRate proto kind.name (boolText mon) rate)
    else pure ()

/-- From the point on where a result is guaranteed (handler.go:109-145). -/
def measureAndSave (h : Server) (kind : Subtest) (req : Request) (params : Params) (uuid : Bytes) : P Result Unit := do
  note (.connection kind.name (str "result"))
  match appendClientMetadata [] req.query2 with
  | .panic msg => M.panic msg
  | .ok md =>
    let d : ArchivalData := { uuid := uuid, clientMetadata := md, serverMetadata := h.serverMetadata }
    let id ← setupResult h
    let t ← M.now
    M.modify fun r => { r with startTime := t }
    note (.flowCreated t uuid id)
    M.defer (do
        let t' ← M.now
        M.modify fun r => { r with endTime := t' }
        writeResult h uuid kind
        note (.flowDeleted t' uuid))
      (runSubtest kind params d)

/-- `runMeasurement` (handler.go:74-146). The local state is the result under construction. -/
def runMeasurement (h : Server) (kind : Subtest) (req : Request) : P Result Unit := do
  match validateEarlyExit req.query with
  | .panic msg => M.panic msg
  | .ok (.error _) => warnAndClose
  | .ok (.ok params) =>
    let ok ← setupConn req.protocol
    if ok = false then note (.connection kind.name (str "websocket-error"))
    else
      M.defer (note .cancel) do
        note .startCloser
        match ← Ask.uuid with
        | .error _ => note (.connection kind.name (str "uuid-error"))
        | .ok uuid => measureAndSave h kind req params uuid

end Verif.Ndt7
