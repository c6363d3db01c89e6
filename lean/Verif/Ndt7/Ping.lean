import Verif.Go.Json

/-!
# ndt7/ping/ping.go
-/

namespace Verif.Ndt7
open Verif.Go

/-- The value of an `int64` computation: modulo 2^64, in the signed range. -/
def wrap64 (x : Int) : Int := x.bmod (2 ^ 64)

/-- The payload sent by `SendTicks` at time `now` (ping.go:11-20): `json.Marshal` of an `int64`. -/
def ticksPayload (now : Int) : Bytes := itoa now

/-- `json.Unmarshal(s, &prev)` for an `int64` that is zero before (encoding/json decode.go `literalStore`): a number whose literal
`ParseInt` accepts, or `null`, which leaves the variable unchanged. -/
def unmarshalInt64 (s : Bytes) : Option Int :=
  match parseJson s with
  | some (.num raw) => atoi raw
  | some .null => some 0
  | _ => none

/-- `ParseTicks` at time `now` (ping.go:22-31); `none` is an error. -/
def parseTicks (s : Bytes) (now : Int) : Option Int := (unmarshalInt64 s).map fun prev => wrap64 (now - prev)

end Verif.Ndt7
