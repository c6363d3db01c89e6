import Verif.Go.Json

/-!
# ndt5/protocol: message types, TLV framing, JSON messages, messagers

Models ndt5/protocol/protocol.go and ndt5/protocol/messager.go.
-/

namespace Verif.Ndt5
open Verif.Go

/-- `MessageType` (protocol.go:26) is a byte. -/
abbrev MsgType := UInt8

namespace MsgType
/-! The constants of protocol.go:28-54. -/
/-- protocol.go:31 -/ def msgUnknown : MsgType := 0
/-- protocol.go:33 -/ def srvQueue : MsgType := 1
/-- protocol.go:35 -/ def msgLogin : MsgType := 2
/-- protocol.go:37 -/ def testPrepare : MsgType := 3
/-- protocol.go:39 -/ def testStart : MsgType := 4
/-- protocol.go:41 -/ def testMsg : MsgType := 5
/-- protocol.go:43 -/ def testFinalize : MsgType := 6
/-- protocol.go:45 -/ def msgError : MsgType := 7
/-- protocol.go:47 -/ def msgResults : MsgType := 8
/-- protocol.go:49 -/ def msgLogout : MsgType := 9
/-- protocol.go:51 -/ def msgWaiting : MsgType := 10
/-- protocol.go:53 -/ def msgExtendedLogin : MsgType := 11

/-- Upper-case hexadecimal digit, as printed by `%X`. -/
def hexUp (n : Nat) : UInt8 := if n < 10 then UInt8.ofNat (48 + n) else UInt8.ofNat (55 + n)

/-- `fmt.Sprintf("%X", byte)`: no leading zero. -/
def hexByte (b : UInt8) : Bytes :=
  if b.toNat < 16 then [hexUp b.toNat] else [hexUp (b.toNat / 16), hexUp (b.toNat % 16)]

/-- `MessageType.String` (protocol.go:56-83). -/
def name (m : MsgType) : Bytes :=
  if m = srvQueue then str "SrvQueue"
  else if m = msgLogin then str "MsgLogin"
  else if m = testPrepare then str "TestPrepare"
  else if m = testStart then str "TestStart"
  else if m = testMsg then str "TestMsg"
  else if m = testFinalize then str "TestFinalize"
  else if m = msgError then str "MsgError"
  else if m = msgResults then str "MsgResults"
  else if m = msgLogout then str "MsgLogout"
  else if m = msgWaiting then str "MsgWaiting"
  else if m = msgExtendedLogin then str "MsgExtendedLogin"
  else str "UnknownMessage(0x" ++ hexByte m ++ str ")"
end MsgType

/-- The frame `WriteTLVMessage` hands to `WriteMessage` (protocol.go:366-379): type byte,
`byte((len>>8) & 0xFF)`, `byte(len & 0xFF)`, payload. Logging is left out. -/
def tlvFrame (t : MsgType) (payload : Bytes) : Bytes :=
  t :: UInt8.ofNat ((payload.length >>> 8) &&& 0xFF) :: UInt8.ofNat (payload.length &&& 0xFF) :: payload

/-- Why `ReadTLVMessage` failed (the texts of protocol.go:347, 354, 359; the transport's own
error is passed through). -/
inductive TlvErr
  | transport (e : Err)
  | tooShort
  | wrongType (got : MsgType)
  | badLength (declared actual : Nat)
  deriving DecidableEq, Repr

/-- `ReadTLVMessage` (protocol.go:341-363) applied to what `ReadMessage` returned. The message type
returned along with an error is part of the error value here, since no caller uses it. -/
def readTLV (received : Except Err Bytes) (expected : List MsgType) : Except TlvErr (Bytes × MsgType) :=
  match received with
  | .error e => .error (.transport e)
  | .ok inbuff =>
    match inbuff with
    | t :: hi :: lo :: payload =>
      if t ∈ expected then
        if hi.toNat * 256 + lo.toNat = payload.length then .ok (payload, t)
        else .error (.badLength (hi.toNat * 256 + lo.toNat) payload.length)
      else .error (.wrongType t)
    | _ => .error .tooShort

/-- The text of the errors of `ReadTLVMessage`. Simplified: the list of wanted types, the `%q` quoting
and the numbers are left out of the text. -/
def TlvErr.text : TlvErr → Err
  | .transport e => e
  | .tooShort => str "Message is too short"
  | .wrongType _ => str "Read wrong message type."
  | .badLength _ _ => str "Message length does not match length of data received"

/-- `JSONMessage` (protocol.go:384-387). -/
structure JsonMessage where
  msg : Bytes := []
  tests : Bytes := []
  deriving DecidableEq, Repr

/-- `JSONMessage.String` (protocol.go:390-393): `json.Marshal`, with `tests` omitted when empty. -/
def JsonMessage.marshal (m : JsonMessage) : Bytes :=
  objectOfStrings ((str "msg", m.msg) :: (if m.tests = [] then [] else [(str "tests", m.tests)]))

/-- `foldName` of encoding/json: object keys match struct fields case-insensitively. ASCII
letters are folded to upper case, and U+017F (long s) folds to `S`. Other runes cannot fold to a letter of
`msg` or `tests` and are left alone. -/
def foldKey : Bytes → Bytes
  | 0xC5 :: 0xBF :: t => 83 :: foldKey t
  | b :: t => (if 97 ≤ b ∧ b ≤ 122 then b - 32 else b) :: foldKey t
  | [] => []

/-- The field a key selects: exact name first, then the folded name (decode.go `object`). -/
inductive Field | msg | tests | other
  deriving DecidableEq, Repr

/-- Which field of `JSONMessage` an object key selects. -/
def fieldOf (k : Bytes) : Field :=
  if foldKey k = str "MSG" then .msg
  else if foldKey k = str "TESTS" then .tests
  else .other

/-- Storing one object member into a `JSONMessage` (decode.go `literalStore` and friends): a string is stored,
`null` leaves the field alone, anything else is an `UnmarshalTypeError` that is remembered while
decoding goes on. The boolean says whether there was an error. -/
def storeMember (acc : JsonMessage × Bool) (kv : Bytes × Json) : JsonMessage × Bool :=
  match fieldOf kv.1, kv.2 with
  | .other, _ => acc
  | _, .null => acc
  | .msg, .str s => ({ acc.1 with msg := s }, acc.2)
  | .tests, .str s => ({ acc.1 with tests := s }, acc.2)
  | _, _ => (acc.1, true)

/-- Result of `json.Unmarshal` into a `JSONMessage`. -/
inductive Unmarshalled
  /-- syntax error or type error -/
  | failed
  /-- the document is `null`: no error, and nothing is stored (for `**JSONMessage` the pointer becomes nil) -/
  | null
  | ok (m : JsonMessage)
  deriving DecidableEq, Repr

/-- `json.Unmarshal(data, &msg)` for a zero `JSONMessage`. -/
def unmarshal (data : Bytes) : Unmarshalled :=
  match parseJson data with
  | none => .failed
  | some .null => .null
  | some (.obj kvs) =>
    let r := kvs.foldl storeMember ({}, false)
    if r.2 then .failed else .ok r.1
  | some _ => .failed

/-- Error text of a failed `json.Unmarshal`; the position information of the real text is left out. -/
def jsonError : Err := str "json: cannot unmarshal message"

/-- `ReceiveJSONMessage` (protocol.go:396-407): the returned pointer (`none` = nil) and error.
`json.Unmarshal` gets a `**JSONMessage`, so the document `null` makes the pointer nil without an error. -/
def receiveJSON (received : Except Err Bytes) (expected : MsgType) : Option JsonMessage × Option Err :=
  match readTLV received [expected] with
  | .error e => (none, some e.text)
  | .ok (payload, _) =>
    match unmarshal payload with
    | .failed => (some { msg := payload }, some jsonError)
    | .null => (none, none)
    | .ok m => (some m, none)

/-- `Encoding` (messager.go:13-22), a Go int. -/
abbrev EncodingInt := Int

/-- The three encodings of messager.go:18-22. -/
inductive Encoding | unknown | json | tlv
  deriving DecidableEq, Repr

/-- The integer values of the encodings (`iota`, messager.go:19-21). -/
def Encoding.toInt : Encoding → Int
  | .unknown => 0
  | .json => 1
  | .tlv => 2

/-- `Encoding.String` (messager.go:24-34) on an arbitrary Go int. -/
def encodingName (e : EncodingInt) : Bytes :=
  if e = 0 then str "Unknown"
  else if e = 1 then str "JSON"
  else if e = 2 then str "TLV"
  else str "Bad Encoding value: " ++ itoa e

/-- The message encodings for which `Encoding.Messager` (messager.go:38-50) returns a messager. -/
inductive Messager | json | tlv
  deriving DecidableEq, Repr

/-- `Encoding.Messager` (messager.go:38-50); `none` is a nil `Messager`. -/
def Encoding.messager : Encoding → Option Messager
  | .unknown => none
  | .json => some .json
  | .tlv => some .tlv

/-- `Messager.Encoding` (messager.go:102-104, 126-128). -/
def Messager.encoding : Messager → Encoding
  | .json => .json
  | .tlv => .tlv

/-- The frame written by `SendMessage` (messager.go:78-80 with protocol.go:410-413; messager.go:112-114). -/
def Messager.frame (m : Messager) (t : MsgType) (contents : Bytes) : Bytes :=
  match m with
  | .json => tlvFrame t (JsonMessage.marshal { msg := contents })
  | .tlv => tlvFrame t contents

/-- The JSON document of `s2cResult` (messager.go:67-76). -/
def s2cResultJson (kbps unsent total : Int) : Bytes :=
  objectOfStrings [(str "ThroughputValue", itoa kbps), (str "UnsentDataAmount", itoa unsent), (str "TotalSentByte", itoa total)]

/-- The frame written by `SendS2CResults` (messager.go:82-89 and 116-119). -/
def Messager.s2cFrame (m : Messager) (kbps unsent total : Int) : Bytes :=
  match m with
  | .json => tlvFrame MsgType.testMsg (s2cResultJson kbps unsent total)
  | .tlv => tlvFrame MsgType.testMsg (itoa kbps ++ 32 :: itoa unsent ++ 32 :: itoa total)

/-- `ReceiveMessage` (messager.go:91-100 and 121-124): contents (`none` = nil slice) and error. -/
def Messager.receive (m : Messager) (received : Except Err Bytes) (kind : MsgType) : Option Bytes × Option Err :=
  match m with
  | .json =>
    match receiveJSON received kind with
    | (none, none) => (none, some (str "empty message received without error"))
    | (none, some e) => (none, some e)
    | (some msg, e) => (some msg.msg, e)
  | .tlv =>
    match readTLV received [kind] with
    | .error e => (none, some e.text)
    | .ok (payload, _) => (some payload, none)

end Verif.Ndt5
