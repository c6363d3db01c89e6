import Verif.Ndt7.Handler

/-!
# The websocket handshakes

`websocket.Upgrader.Upgrade` of gorilla/websocket, modelled from knowledge of the library up to the point where the connection is taken over from the HTTP server, and the two ways in which the code uses it: ndt5/ws/ws.go and ndt7/handler/handler.go. Not modelled: the taking over itself, which can fail, and the header `Sec-WebSocket-Accept`.
-/

namespace Verif.Go

/-- A request: its method, and the lines of each header under its canonical name. -/
structure HttpReq where
  method : Bytes
  header : Bytes → List Bytes

/-- `http.Header.Get`. -/
def HttpReq.get (r : HttpReq) (name : Bytes) : Bytes := (r.header name).headD []

/-- Space and tab (`skipSpace` of the library). -/
def isBlank (b : UInt8) : Bool := b == 32 || b == 9

/-- The characters of tokens (`isTokenOctet`). -/
def isTokenByte (b : UInt8) : Bool :=
  (48 ≤ b && b ≤ 57) || (65 ≤ b && b ≤ 90) || (97 ≤ b && b ≤ 122) || (str "!#$%&'*+-.^_`|~").contains b

/-- The lower case of a character of ASCII. -/
def lowerByte (b : UInt8) : UInt8 := if 65 ≤ b && b ≤ 90 then b + 32 else b

/-- `tokenListContainsValue` for one line of the header: it is read as a list of tokens, until something else is found. -/
def tokenList (t : Bytes) (s : Bytes) : Bool :=
  let s1 := s.dropWhile isBlank
  let tok := s1.takeWhile isTokenByte
  if tok = [] then false
  else
    match _h : (s1.dropWhile isTokenByte).dropWhile isBlank with
    | [] => tok.map lowerByte = t.map lowerByte
    | b :: rest => if b ≠ 44 then false else tok.map lowerByte = t.map lowerByte || tokenList t rest
termination_by s.length
decreasing_by
  have h1 : rest.length + 1 ≤ s1.length := by
    have : (b :: rest).length ≤ s1.length := by
      rw [← _h]
      exact Nat.le_trans (List.dropWhile_sublist _).length_le (List.dropWhile_sublist _).length_le
    simpa using this
  have h2 : s1.length ≤ s.length := (List.dropWhile_sublist _).length_le
  omega

/-- White space as trimmed by `strings.TrimSpace`. Simplified: only that of ASCII. -/
def isTrimmed (b : UInt8) : Bool := b == 32 || (9 ≤ b && b ≤ 13)

/-- `strings.TrimSpace`. -/
def trimmed (s : Bytes) : Bytes := ((s.dropWhile isTrimmed).reverse.dropWhile isTrimmed).reverse

/-- `strings.Split(s, ",")`. -/
def commas : Bytes → List Bytes
  | [] => [[]]
  | b :: bs => if b = 44 then [] :: commas bs else
    match commas bs with
    | [] => [[b]]
    | x :: xs => (b :: x) :: xs

/-- `websocket.Subprotocols`: what the client offers. -/
def offers (r : HttpReq) : List Bytes :=
  let h := trimmed (r.get (str "Sec-Websocket-Protocol"))
  if h = [] then [] else (commas h).map trimmed

/-- The settings of an `Upgrader` that matter for the decision. -/
structure Upgrader where
  subprotocols : Option (List Bytes)
  checkOrigin : HttpReq → Bool

/-- The outcome: an error response, or a connection with a subprotocol (empty for none). -/
inductive Shake
  | refused (status : Nat)
  | upgraded (subprotocol : Bytes)
  deriving DecidableEq

/-- `selectSubprotocol`; `response` is the subprotocol in the header given to `Upgrade`, if there is one. -/
def Upgrader.select (u : Upgrader) (r : HttpReq) (response : Option Bytes) : Bytes :=
  match u.subprotocols with
  | some ps => ((offers r).find? fun c => ps.contains c).getD []
  | none => response.getD []

/-- `Upgrade`, up to the taking over of the connection. `validKey` says which keys the library accepts (those that are 16 bytes in base64). -/
def Upgrader.upgrade (u : Upgrader) (validKey : Bytes → Bool) (r : HttpReq) (response : Option Bytes) : Shake :=
  if !(r.header (str "Connection")).any (tokenList (str "upgrade")) then .refused 400
  else if !(r.header (str "Upgrade")).any (tokenList (str "websocket")) then .refused 400
  else if r.method ≠ str "GET" then .refused 405
  else if !(r.header (str "Sec-Websocket-Version")).any (tokenList (str "13")) then .refused 400
  else if !u.checkOrigin r then .refused 403
  else if !validKey (r.get (str "Sec-Websocket-Key")) then .refused 400
  else .upgraded (u.select r response)

end Verif.Go

namespace Verif.Ndt5
open Verif.Go

/-- `ws.Upgrader(protocol)` (ndt5/ws/ws.go:12-25). -/
def wsUpgrader (protocol : Bytes) : Upgrader where
  subprotocols := some [protocol]
  checkOrigin := fun _ => true

/-- The handshake of the control connection (ndt5/handler/wshandler.go:64-69), for which the protocol is "ndt". -/
def controlShake (validKey : Bytes → Bool) (r : HttpReq) : Shake := (wsUpgrader (str "ndt")).upgrade validKey r none

/-- The handshake of the connection of a test (ndt5/singleserving/server.go:32-37), for which it is the direction, c2s or s2c. -/
def testShake (direction : Bytes) (validKey : Bytes → Bool) (r : HttpReq) : Shake := (wsUpgrader direction).upgrade validKey r none

end Verif.Ndt5

namespace Verif.Ndt7
open Verif.Go

/-- The handshake of ndt7 (`setupConn`, ndt7/handler/handler.go:149-172). -/
def shake (validKey : Bytes → Bool) (r : HttpReq) : Shake :=
  if r.get (str "Sec-Websocket-Protocol") ≠ subprotocol then .refused 400
  else ({ subprotocols := none, checkOrigin := fun _ => true } : Upgrader).upgrade validKey r (some subprotocol)

end Verif.Ndt7
