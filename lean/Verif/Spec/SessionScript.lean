import Verif.Ndt5.Control
import Verif.Spec.Download
import Verif.Spec.Login
import Verif.Spec.Meta

/-!
# The whole NDT5 session

What a login asks for and what the server then has to send.
-/

namespace Verif.Spec
open Verif.Go Verif.Ndt5

/-- Bit `k` of the requested tests, as a 64-bit two's complement number. -/
def requested (tests : Int) (k : Nat) : Bool := tests / 2 ^ k % 2 = 1

/-- The login asks for `tests` and fixes the encoding of all messages: raw servers accept both kinds of login, websocket servers
only extended ones. -/
def LoggedIn (kind : Kind) (frame : Bytes) (m : Messager) (tests : Int) : Prop :=
  (kind = .plain ∧ LegacyLogin frame tests ∧ m = .tlv) ∨ (ExtendedLogin frame tests ∧ m = .json)

/-- What was first read from the control connection. -/
def firstRead (evs : List Ev) : Option (Except Err Bytes) := evs.findSome? recvAnswer

/-- The client logged in with a request that the server serves: the status bit is set. -/
def Served (kind : Kind) (evs : List Ev) (m : Messager) (tests : Int) : Prop :=
  ∃ frame, firstRead evs = some (.ok frame) ∧ LoggedIn kind frame m tests ∧ requested tests 4 = true

/-- The announced tests: their numbers in increasing order, separated by spaces. -/
def announced (tests : Int) : Bytes :=
  [32].intercalate ((if requested tests 1 then [str "2"] else []) ++ (if requested tests 2 then [str "4"] else []) ++
    (if requested tests 5 then [str "32"] else []))

/-- The uploaded rate of a session in Mbit/s: zero without an upload. -/
def uploadRate (tests : Int) (evs : List Ev) : F64 := if requested tests 1 then (uploadRecord evs).mean else .fin 0

/-- The downloaded rate of a session in Mbit/s: zero without a download. -/
def downloadRate (lib : Lib) (m : Messager) (tests : Int) (evs : List Ev) : F64 :=
  if requested tests 2 then (downloadRecord lib m evs).mean else .fin 0

/-- The closing message: both rates in kbit/s with four decimals. -/
def closingText (up down : F64) : Bytes :=
  str "You uploaded at " ++ F64.fmt4 (.mul up (.ofInt 1000)) ++ str " and downloaded at " ++ F64.fmt4 (.mul down (.ofInt 1000))

/-- All frames of a session. -/
def sessionScript (lib : Lib) (m : Messager) (tests : Int) (evs : List Ev) : List Bytes :=
  [m.frame MsgType.srvQueue (str "0"), m.frame MsgType.msgLogin (str "v5.0-NDTinGO"), m.frame MsgType.msgLogin (announced tests)] ++
  ((if requested tests 1 then c2sScript m (portOf .c2s evs) (measuredUpload evs).toInt64 else []) ++
  ((if requested tests 2 then downloadScript lib m evs else []) ++
  ((if requested tests 5 then metaScript m else []) ++
  [m.frame MsgType.msgResults (closingText (uploadRate tests evs) (downloadRate lib m tests evs)), m.frame MsgType.msgLogout []])))

end Verif.Spec
