import Verif.Go.Outcome
import Verif.Ndt5.World

/-!
# netx/net.go, bbr/bbr_linux.go, tcpinfox/tcpinfox_linux.go: kernel statistics of a connection
-/

namespace Verif.Netx
open Verif.Go Verif.Ndt5

/-- `inetdiag.BBRInfo`. -/
structure BbrInfo where
  bw : Int64 := 0
  minRTT : UInt32 := 0
  pacingGain : UInt32 := 0
  cwndGain : UInt32 := 0
deriving DecidableEq

/-- The errors of the kernel queries. -/
inductive KErr
  /-- from `SyscallConn` or `Control`: the file is closed -/
  | file
  /-- `bbr.ErrNoSupport` -/
  | noSupport
  /-- an errno -/
  | errno (n : Nat)
deriving DecidableEq

/-- Linux errno values. -/
def ENOSYS : Nat := 38
def EINVAL : Nat := 22
def EOVERFLOW : Nat := 75

/-- `struct tcp_bbr_info` (linux/inet_diag.h). -/
structure BbrWords where
  lo : UInt32
  hi : UInt32
  minRtt : UInt32
  pacing : UInt32
  cwnd : UInt32

/-- What the kernel does with `getsockopt(TCP_CC_INFO)`. -/
structure CcAnswer where
  /-- `SyscallConn` (bbr_linux.go:37) works -/
  syscallConn : Bool
  /-- `Control` (bbr_linux.go:42) works -/
  control : Bool
  errno : Nat
  /-- the size stored by the kernel -/
  size : UInt32
  words : BbrWords

/-- `sizeof(struct tcp_bbr_info)`: five 32 bit words. -/
def bbrInfoSize : UInt32 := 20

/-- `getMaxBandwidthAndMinRTT`, bbr_linux.go:33-86: the metrics and the error. -/
def getBBRInfo (k : CcAnswer) : BbrInfo × Option KErr :=
  if ¬ k.syscallConn then ({}, some .file)
  else if ¬ k.control then ({}, some .file)
  else if k.errno ≠ 0 then
    if k.errno = ENOSYS then ({}, some .noSupport) else ({}, some (.errno k.errno))
  else if k.size ≠ bbrInfoSize then ({}, some (.errno EINVAL))
  else
    let maxbw : UInt64 := (k.words.hi.toUInt64 <<< 32) ||| k.words.lo.toUInt64
    if maxbw > 9223372036854775807 then ({}, some (.errno EOVERFLOW))
    else ({ bw := maxbw.toInt64, minRTT := k.words.minRtt, pacingGain := k.words.pacing, cwndGain := k.words.cwnd }, none)

/-- What the kernel does with `getsockopt(TCP_INFO)`; it fills the structure in any case. -/
structure TcpAnswer where
  syscallConn : Bool
  control : Bool
  errno : Nat
  info : TcpInfo

/-- `getTCPInfo`, tcpinfox_linux.go:11-36. On failures before the system call the structure is zero. -/
def getTCPInfo (k : TcpAnswer) : TcpInfo × Option KErr :=
  if ¬ k.syscallConn then ({}, some .file)
  else if ¬ k.control then ({}, some .file)
  else if k.errno ≠ 0 then (k.info, some (.errno k.errno))
  else (k.info, none)

/-- `Conn.ReadInfo`, net.go:128-138, on the answers of the two queries. -/
def readInfo (bbr : CcAnswer) (tcp : TcpAnswer) : BbrInfo × TcpInfo × Option KErr :=
  let (bbrinfo, err) := getBBRInfo bbr
  let bbrinfo := if err.isSome then {} else bbrinfo
  let (tcpInfo, err) := getTCPInfo tcp
  match err with
  | some e => ({}, {}, some e)
  | none => (bbrinfo, tcpInfo, none)

/-- `Conn.GetUUID`, net.go:141-153, on the outcomes of the kernel query and of `guuid.NewUUID`. `rtx.Must` ends the process if the
latter fails; this is the panic outcome here. -/
def getUUID (kernel : Option Bytes) (fallback : Option Bytes) : Outcome (Bytes × Option KErr) :=
  match kernel with
  | some id => .ok (id, none)
  | none =>
    match fallback with
    | none => .panic (str "unable to fallback to uuid")
    | some id => .ok (id, none)

end Verif.Netx
