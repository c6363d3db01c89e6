import Verif.Ndt5.Protocol
import Verif.Spec.Names
import Verif.Spec.Json
import Verif.Spec.Decimal

/-!
# Specification of ndt5 logins

Independent of the login code: what a login message is, in terms of the frame a client sends.
-/

namespace Verif.Spec
open Verif.Go Verif.Ndt5

/-- The frame is a message of type `t` with the given payload (type, big-endian length, payload). -/
def IsFrame (frame : Bytes) (t : MsgType) (payload : Bytes) : Prop :=
  ∃ hi lo : UInt8, frame = t :: hi :: lo :: payload ∧ hi.toNat * 256 + lo.toNat = payload.length

/-- The object is acceptable as a message: members called `msg` or `tests` (up to case, as encoding/json
matches names) are strings or null; other members are arbitrary. -/
def MessageObject (kvs : List (Bytes × Json)) : Prop :=
  ∀ kv ∈ kvs, SameName (str "msg") kv.1 ∨ SameName (str "tests") kv.1 → (∃ s, kv.2 = .str s) ∨ kv.2 = .null

/-- The member called `name` is not given as a string. -/
def NoString (name : String) (kvs : List (Bytes × Json)) : Prop :=
  ∀ kv ∈ kvs, SameName (str name) kv.1 → ¬ ∃ s', kv.2 = .str s'

/-- `s` is the text of the member called `name`: the last string given for it. -/
def LastString (name : String) (kvs : List (Bytes × Json)) (s : Bytes) : Prop :=
  ∃ before k after, kvs = before ++ (k, .str s) :: after ∧ SameName (str name) k ∧ NoString name after

/-- A legacy login asking for test mask `n`: type 2, one byte of payload. -/
def LegacyLogin (frame : Bytes) (n : Int) : Prop :=
  ∃ b : UInt8, IsFrame frame 2 [b] ∧ n = b.toNat

/-- An extended login asking for test mask `n`: type 11, a JSON object with the decimal
string `tests`. -/
def ExtendedLogin (frame : Bytes) (n : Int) : Prop :=
  ∃ doc kvs tests, IsFrame frame 11 doc ∧ IsJson doc (.obj kvs) ∧ MessageObject kvs ∧
    LastString "tests" kvs tests ∧ Decimal64 tests n

end Verif.Spec
