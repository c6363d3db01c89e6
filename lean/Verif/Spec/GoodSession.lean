import Verif.Spec.SessionScript

/-!
# Specification: a session in which nothing goes wrong

What the machine and the client have to do for a session to succeed, read off the events.
-/

namespace Verif.Spec
open Verif.Go Verif.Ndt5

/-- No call that fails: messages are sent, listeners opened, exactly one client comes to each test, the kernel gives its measurements, the deadline of the meta test
does not pass, and nothing crashes. What the client sends, how its upload ends and what becomes of the record on disk is not looked at here. -/
def worked : Ev → Prop
  | .call _ (.panic _) => False
  | .call (.send _) (.ok e) => e = none
  | .call (.listen _) (.ok r) => ∃ port, r = .ok port
  | .call (.accept _) (.ok r) => r = (true, none)
  | .call (.stopMeasuring _) (.ok r) => ∃ w, r = .ok w
  | .call .ctxErr (.ok e) => e = none
  | _ => True

/-- A TestMsg of a client, with any contents: the bytes as they are, or a JSON object in which `msg` and `tests`, if present, are strings or null. -/
def TestMessage : Messager → Bytes → Prop
  | .tlv, frame => ∃ contents, IsFrame frame 5 contents
  | .json, frame => ∃ doc kvs, IsFrame frame 5 doc ∧ IsJson doc (.obj kvs) ∧ MessageObject kvs

/-- Nothing goes wrong: every call works; after its login the client sends TestMsg messages only; it does not stop its upload with an error before nine seconds or without having
sent a byte. -/
structure GoodSession (m : Messager) (evs : List Ev) : Prop where
  calls : ∀ x ∈ evs, worked x
  client : ∃ login, ∃ replies : List Bytes, evs.filterMap recvAnswer = .ok login :: replies.map .ok ∧ ∀ r ∈ replies, TestMessage m r
  upload : uploadTooShort evs = false

/-- How the messages of a client after its login are used: the own download rate, if there is a download, and then the metadata, if they are requested. -/
structure Used (n : Int) (m : Messager) (reads : List (Except Err Bytes)) (reply : Option (Except Err Bytes)) (data : List (Except Err Bytes)) : Prop where
  all : ∃ own, reads = own ++ data ∧ own.length = (if requested n 2 then 1 else 0) ∧ reply = own.head?
  none : requested n 5 = false → data = []
  ending : requested n 5 = true → ((data.map fun r => m.receive r MsgType.testMsg).all isText = true ∧ data.length = 20) ∨
    ∃ before last, data = before ++ [last] ∧ (before.map fun r => m.receive r MsgType.testMsg).all isText = true ∧ ((m.receive last MsgType.testMsg).1.getD [] = [])

end Verif.Spec
