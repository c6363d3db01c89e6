import Verif.Go.Handshake
import Mathlib.Data.List.Forall2

/-!
# Specification: requests for a websocket (RFC 6455, 4.1 and 4.2.1)
-/

namespace Verif.Spec
open Verif.Go

/-- Spaces and tabs. -/
def Blanks (s : Bytes) : Prop := ∀ b ∈ s, b = 32 ∨ b = 9

/-- A token: letters, digits and some other characters, at least one. -/
def IsToken (t : Bytes) : Prop :=
  t ≠ [] ∧ ∀ b ∈ t, (48 ≤ b ∧ b ≤ 57) ∨ (65 ≤ b ∧ b ≤ 90) ∨ (97 ≤ b ∧ b ≤ 122) ∨ b ∈ str "!#$%&'*+-.^_`|~"

/-- The text `s`, of any case, is the lower case text `t`. -/
def IsCaseless (s t : Bytes) : Prop := List.Forall₂ (fun x y => x = y ∨ (65 ≤ x ∧ x ≤ 90 ∧ y = x + 32)) s t

/-- An element of a list: a token with blanks around it. -/
def Element (e tok : Bytes) : Prop := ∃ a c, Blanks a ∧ Blanks c ∧ IsToken tok ∧ e = a ++ tok ++ c

/-- The line begins with a list of tokens, separated by commas, and the last one of them is `t`; after it, the line ends or goes on with a comma and anything. -/
def Lists (t line : Bytes) : Prop :=
  ∃ (es : List (Bytes × Bytes)) (e tok rest : Bytes), (∀ p ∈ es, Element p.1 p.2) ∧ Element e tok ∧ IsCaseless tok t ∧ (rest = [] ∨ ∃ more, rest = 44 :: more) ∧
    line = (es.flatMap fun p => p.1 ++ [44]) ++ e ++ rest

/-- A request for a websocket. -/
structure AsksWebsocket (validKey : Bytes → Bool) (r : HttpReq) : Prop where
  get : r.method = str "GET"
  connection : ∃ line ∈ r.header (str "Connection"), Lists (str "upgrade") line
  upgrade : ∃ line ∈ r.header (str "Upgrade"), Lists (str "websocket") line
  version : ∃ line ∈ r.header (str "Sec-Websocket-Version"), Lists (str "13") line
  key : validKey (r.get (str "Sec-Websocket-Key")) = true

/-- White space. -/
def Spaces (s : Bytes) : Prop := ∀ b ∈ s, b = 32 ∨ (9 ≤ b ∧ b ≤ 13)

/-- The subprotocol `p` is one of those in the line, separated by commas, with white space around them. -/
def Offered (p line : Bytes) : Prop :=
  ∃ before a c after, line = before ++ a ++ p ++ c ++ after ∧ Spaces a ∧ Spaces c ∧ (before = [] ∨ ∃ l, before = l ++ [44]) ∧ (after = [] ∨ ∃ l, after = 44 :: l)

/-- What browsers send for `new WebSocket(url, protocol)`: the header `Connection` is "Upgrade", or "keep-alive, Upgrade". -/
structure FromBrowser (validKey : Bytes → Bool) (protocol : Bytes) (r : HttpReq) : Prop where
  get : r.method = str "GET"
  connection : r.header (str "Connection") = [str "Upgrade"] ∨ r.header (str "Connection") = [str "keep-alive, Upgrade"]
  upgrade : r.header (str "Upgrade") = [str "websocket"]
  version : r.header (str "Sec-Websocket-Version") = [str "13"]
  key : validKey (r.get (str "Sec-Websocket-Key")) = true
  protocol : r.header (str "Sec-Websocket-Protocol") = [protocol]

end Verif.Spec
