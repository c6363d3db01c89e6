import Verif.Web.Places
import Verif.Props.Config

/-!
# What it means that a page finds the server: the reading of a URL, and what answers at a place
-/

namespace Verif.Spec
open Verif.Go Verif.Main Verif.Web Verif.Ndt5

/-- Where a request goes. -/
structure Place where
  secure : Bool
  hostname : Bytes
  port : Bytes
  path : Bytes
deriving DecidableEq

/-- The port that a URL without one means. -/
def usualPort (secure : Bool) : Bytes := if secure then str "443" else str "80"

/-- Host name and port of an authority without user information: what follows the last colon is the port, unless the authority ends with the bracket of an IPv6 address. -/
def hostAndPort (secure : Bool) (a : Bytes) : Bytes × Bytes :=
  if a.getLast? = some 93 ∨ 58 ∉ a then (a, usualPort secure)
  else (((a.reverse.dropWhile (· ≠ 58)).drop 1).reverse, (a.reverse.takeWhile (· ≠ 58)).reverse)

/-- What follows `//` in a URL: the authority ends at the first slash or question mark, the path at the first question mark. -/
def placeAfter (secure : Bool) (s : Bytes) : Place :=
  let hp := hostAndPort secure (s.takeWhile fun b => b ≠ 47 && b ≠ 63)
  ⟨secure, hp.1, hp.2, (s.dropWhile fun b => b ≠ 47 && b ≠ 63).takeWhile (· ≠ 63)⟩

/-- The place that the URL of a websocket names. -/
def placeOf (url : Bytes) : Option Place :=
  if str "wss://" <+: url then some (placeAfter true (url.drop 6))
  else if str "ws://" <+: url then some (placeAfter false (url.drop 5))
  else none

/-- A name or address of a host as it stands in a URL: without slash and question mark, and with colons only in brackets. -/
structure HostName (h : Bytes) : Prop where
  nonempty : h ≠ []
  plain : ∀ b ∈ h, b ≠ 47 ∧ b ≠ 63
  colons : 58 ∈ h → h.getLast? = some 93

/-- A port in decimal. -/
structure PortNumber (p : Bytes) : Prop where
  nonempty : p ≠ []
  digits : ∀ b ∈ p, 48 ≤ b ∧ b ≤ 57

/-- `window.location` of a page that was loaded from this port of the host. -/
def loadedFrom (secure : Bool) (hostname port : Bytes) : Location := ⟨secure, hostname, if port = usualPort secure then [] else port⟩

/-- The request for this place, made by a client anywhere, passes these access controllers and is answered by this: by the server that listens on the port on all interfaces, or, if the
raw ndt5 server does that, by the server that it forwards to. -/
def Answers (evs : List (Event mainSig)) (p : Place) (passed : List Access) (leaf : Leaf) : Prop :=
  Props.Offers evs p.secure (str ":" ++ p.port) p.path passed leaf ∨
  (p.secure = false ∧ ∃ dir ws md tx, .call (.listenRaw (str ":" ++ p.port) dir ws md tx) (.ok none) ∈ evs ∧ Props.Offers evs false ws p.path passed leaf)

/-- The addresses are those that the flags have by default. -/
structure UsualAddresses (f : Flags) : Prop where
  ndt7 : f.ndt7Addr = Flags.defaults.ndt7Addr
  cleartext : f.ndt7AddrCleartext = Flags.defaults.ndt7AddrCleartext
  raw : f.ndt5Addr = Flags.defaults.ndt5Addr
  ws : f.ndt5WsAddr = Flags.defaults.ndt5WsAddr
  wss : f.ndt5WssAddr = Flags.defaults.ndt5WssAddr
  health : f.healthAddr = Flags.defaults.healthAddr

end Verif.Spec
