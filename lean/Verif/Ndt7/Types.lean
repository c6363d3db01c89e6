import Verif.Go.Prog
import Verif.Go.Float
import Verif.Netx.Info

/-!
# Data types of ndt7: ndt7/spec/spec.go, ndt7/model, data/result.go
-/

namespace Verif.Ndt7
open Verif.Go Verif.Ndt5 Verif.Netx

/-- `spec.SubtestKind` (spec.go:70-79). -/
inductive Subtest | download | upload
deriving DecidableEq, Repr

/-- The string values of spec.go:75 and 78. -/
def Subtest.name : Subtest → Bytes
  | .download => str "download"
  | .upload => str "upload"

/-- `spec.SecWebSocketProtocol` (spec.go:13). -/
def subprotocol : Bytes := str "net.measurementlab.ndt.v7"

/-- `spec.EarlyExitParameterName` (spec.go:32). -/
def earlyExitName : Bytes := str "early_exit"

/-- `spec.ValidEarlyExitValues` (spec.go:28). -/
def validEarlyExit : List Bytes := [str "250"]

/-- `spec.MaxScaledMessageSize` (spec.go:23). -/
def maxScaledMessageSize : Nat := 2 ^ 20

/-- `spec.ScalingFraction` (spec.go:45). -/
def scalingFraction : Nat := 16

/-- `sender.Params` (download/sender/sender.go:20-23). -/
structure Params where
  isEarlyExit : Bool := false
  maxBytes : Int := 0
deriving DecidableEq, Repr

/-- `model.AppInfo`. -/
structure AppInfo where
  numBytes : Int
  elapsed : Int

/-- `model.ConnectionInfo`; times are nanoseconds, zones minutes from UTC. The zone matters only for times that clients send;
the server's zone (measurer.go:89) is taken to be UTC. -/
structure ConnectionInfo where
  client : Bytes
  server : Bytes
  uuid : Bytes
  startTime : Int
  startZone : Int := 0
deriving DecidableEq

/-- `model.BBRInfo`. -/
structure BbrSample where
  info : BbrInfo
  elapsed : Int

/-- `model.TCPInfo`. -/
structure TcpSample where
  info : TcpInfo
  elapsed : Int

/-- `model.Measurement`. -/
structure Measurement where
  app : Option AppInfo := none
  conn : Option ConnectionInfo := none
  bbr : Option BbrSample := none
  tcp : Option TcpSample := none

/-- `model.ArchivalData`. -/
structure ArchivalData where
  uuid : Bytes := []
  startTime : Int := 0
  endTime : Int := 0
  serverMeasurements : List Measurement := []
  clientMeasurements : List Measurement := []
  clientMetadata : List NameValue := []
  serverMetadata : List NameValue := []

/-- `data.NDT7Result` (data/result.go:51-73). -/
structure Result where
  gitShortCommit : Bytes := []
  version : Bytes := []
  serverIP : Bytes := []
  serverPort : Int := 0
  clientIP : Bytes := []
  clientPort : Int := 0
  startTime : Int := 0
  endTime : Int := 0
  upload : Option ArchivalData := none
  download : Option ArchivalData := none

/-- `inetdiag.SockID` as filled in by `setupResult` (handler.go:193-199). -/
structure SockId where
  srcIP : Bytes
  dstIP : Bytes
  sPort : UInt16
  dPort : UInt16
  cookie : Int
deriving DecidableEq

/-- A `net.TCPAddr`: the text of the IP address and the port. -/
structure TcpAddr where
  ip : Bytes
  port : Int
deriving DecidableEq

/-- A `url.Values` map in the order in which one `range` loop happens to enumerate it. -/
abbrev Query := List (Bytes × List Bytes)

/-- What `URL.Query()` guarantees: the names are distinct and every name has at least one value. -/
structure Query.WF (q : Query) : Prop where
  distinct : (q.map Prod.fst).Nodup
  nonempty : ∀ e ∈ q, e.2 ≠ []

end Verif.Ndt7
