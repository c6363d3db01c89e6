import Verif.Ndt7.Receiver

/-!
# The limit on the messages of a client: `conn.SetReadLimit(spec.MaxMessageSize)` (ndt7/receiver/receiver.go:34)
-/

namespace Verif.Ndt7
open Verif.Go

/-- `spec.MaxMessageSize` (ndt7/spec/spec.go:18). -/
def maxMessageSize : Nat := 1 <<< 24

/-- What `conn.NextReader` gives for a binary message of this many bytes: the library refuses a frame with which the message gets longer than the limit (gorilla conn.go `advanceFrame`). -/
def arriving (size : Nat) : Incoming := if size > maxMessageSize then .broken (str "websocket: read limit exceeded") else .binary

end Verif.Ndt7
