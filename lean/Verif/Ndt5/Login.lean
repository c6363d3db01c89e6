import Verif.Ndt5.Protocol
import Verif.Go.Outcome

/-!
# ndt5 login: `LoginCeremony` of the raw server and of the websocket handlers
-/

namespace Verif.Ndt5
open Verif.Go

/-- Error text of `strconv.Atoi`; the quoted input is left out. -/
def atoiError : Err := str "strconv.Atoi: parsing failed"

/-- `strconv.Atoi` with an error value. -/
def atoiE (b : Bytes) : Except Err Int :=
  match atoi b with
  | some n => .ok n
  | none => .error atoiError

/-- The `Tests` field after `json.Unmarshal(v, &msg)` into a `JSONMessage` value (plain.go:185-190):
the document `null` leaves the message empty. -/
def unmarshalTests (payload : Bytes) : Except Err Bytes :=
  match unmarshal payload with
  | .failed => .error jsonError
  | .null => .ok []
  | .ok m => .ok m.tests

/-- `plainServer.LoginCeremony` (plain.go:173-200): the encoding set on the connection afterwards
(initially unknown) and the result. The type assertion of plain.go:174 always succeeds because
`HandleControlChannel` is only called with `AdaptNetConn` connections by the raw server (plain.go:128). -/
def plainLogin (received : Except Err Bytes) : Encoding × Except Err Int :=
  match readTLV received [MsgType.msgLogin, MsgType.msgExtendedLogin] with
  | .error e => (.unknown, .error e.text)
  | .ok (v, t) =>
    if t = MsgType.msgExtendedLogin then
      (.json, match unmarshalTests v with
        | .error e => .error e
        | .ok tests => atoiE tests)
    else if t = MsgType.msgLogin then
      (.tlv, match v with
        | [b] => .ok (b.toNat : Int)
        | _ => .error (str "MsgLogin requires a 1-byte message"))
    else (.unknown, .error (str "Unknown message type"))

/-- `httpHandler.LoginCeremony` (wshandler.go:45-52). `msg.Tests` dereferences the pointer returned by
`ReceiveJSONMessage`, which may be nil without an error. -/
def wsLogin (received : Except Err Bytes) : Outcome (Except Err Int) :=
  match receiveJSON received MsgType.msgExtendedLogin with
  | (_, some e) => .ok (.error e)
  | (some msg, none) => .ok (atoiE msg.tests)
  | (none, none) => .panic nilDeref

end Verif.Ndt5
