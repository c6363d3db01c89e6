import Verif.Ndt5.Protocol

/-!
# Reading messages from a TCP connection, and protocol sniffing

Models `netConnection.ReadMessage` (ndt5/protocol/protocol.go:253-263) and the sniffing part of
`sniffThenHandle` (ndt5/plain/plain.go:45-129).
-/

namespace Verif.Ndt5
open Verif.Go

/-- What is still to be read from a connection: the pieces in which the data becomes available, in order.
How the stream is cut into pieces is up to the network, the kernel and the 4096-byte buffer of
`bufio.Reader`; it is arbitrary here. An empty list is end of file. -/
abbrev Segs := List Bytes

/-- The text of `io.EOF`. -/
def eof : Err := str "EOF"

/-- One call `input.Read(p)` with `len(p) = n` on a `bufio.Reader` (Go's bufio.go `Read`): a request for no bytes
returns immediately; otherwise it returns what is available of the first piece, at most `n`
bytes; it never waits for `n` bytes. -/
def readOnce (n : Nat) (segs : Segs) : Except Err Bytes × Segs :=
  if n = 0 then (.ok [], segs)
  else match segs with
    | [] => (.error eof, [])
    | s :: rest =>
      if n < s.length then (.ok (s.take n), s.drop n :: rest) else (.ok s, rest)

/-- A byte slice of length `n` made with `make` into which `data` was read: the rest stays zero. -/
def padTo (n : Nat) (data : Bytes) : Bytes := data ++ List.replicate (n - data.length) 0

/-- `netConnection.ReadMessage` (protocol.go:253-263): the bytes returned, the error, and what is left to read. -/
def netReadMessage (segs : Segs) : (Bytes × Option Err) × Segs :=
  match readOnce 3 segs with
  | (.error e, segs1) => (([], some e), segs1)
  | (.ok h, segs1) =>
    let firstThree := padTo 3 h
    let size := (firstThree.getD 1 0).toNat * 256 + (firstThree.getD 2 0).toNat
    match readOnce size segs1 with
    | (.error e, segs2) => ((firstThree ++ padTo size [], some e), segs2)
    | (.ok body, segs2) => ((firstThree ++ padTo size body, none), segs2)

/-- What `ReadTLVMessage` gets from a TCP connection: the error, if any, otherwise the bytes. -/
def netReceive (segs : Segs) : Except Err Bytes × Segs :=
  match netReadMessage segs with
  | ((_, some e), rest) => (.error e, rest)
  | ((b, none), rest) => (.ok b, rest)

/-- Reading messages one after the other with `ReadTLVMessage` (protocol.go:341-363), accepting every type, until the first error
or until `n` messages were read. -/
def netReadAll : Nat → Segs → List (MsgType × Bytes) × Segs
  | 0, segs => ([], segs)
  | n + 1, segs =>
    match netReceive segs with
    | (.error _, rest) => ([], rest)
    | (.ok b, rest) =>
      match readTLV (.ok b) (b.take 1) with
      | .error _ => ([], rest)
      | .ok (p, t) => let (ms, r) := netReadAll n rest; ((t, p) :: ms, r)

/-- The loop of `bufio.Reader.Peek` with `acc` in the buffer. -/
def peekAux (n : Nat) : Bytes → Segs → Option (Bytes × Segs)
  | acc, [] => if n ≤ acc.length then some (acc.take n, [acc]) else none
  | acc, s :: rest => if n ≤ acc.length then some (acc.take n, acc :: s :: rest) else peekAux n (acc ++ s) rest

/-- `input.Peek(n)` on a fresh `bufio.Reader` (bufio.go): pieces are collected in the buffer until
`n` bytes are there; fails if the stream ends first. The buffer becomes the first piece of what is left to read. -/
def peek (n : Nat) (segs : Segs) : Option (Bytes × Segs) := peekAux n [] segs

/-- What `sniffThenHandle` does with a connection (plain.go:45-129). -/
inductive Sniffed
  /-- plain.go:58-61: fewer than three bytes arrived; the connection is closed -/
  | dropped
  /-- plain.go:62-115: these pieces are copied to the websocket server -/
  | forwarded (segs : Segs)
  /-- plain.go:117-128: the kickoff string is written, then the control channel reads these pieces -/
  | control (kickoff : Bytes) (segs : Segs)
  deriving DecidableEq, Repr

/-- The decision of `sniffThenHandle` (plain.go:45-129). A failing write of the kickoff string is only logged
(plain.go:124-127), and the failure to dial the websocket server (plain.go:72-76) is not modelled here. -/
def sniff (segs : Segs) : Sniffed :=
  match peek 3 segs with
  | none => .dropped
  | some (lead, segs') =>
    if lead = str "GET" then .forwarded segs'
    else .control (str "123456 654321") segs'

end Verif.Ndt5
