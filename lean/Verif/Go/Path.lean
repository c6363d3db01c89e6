import Verif.Go.Bytes

/-!
# Package `path`: `Clean` and `Join`

From knowledge of Go's `path` (not part of /repo; used by ndt5/ndt5.go:46, ndt5/protocol/protocol.go:113 and ndt7/results/file.go:34).
-/

namespace Verif.Go

/-- The backtracking of `path.Clean` over the last element: one byte is dropped, then bytes are dropped until the last one dropped was a slash or only `dotdot` bytes are left. The
buffer is given backwards. -/
def pathBack (dotdot : Nat) : Bytes → Bytes
  | [] => []
  | b :: out => if out.length > dotdot ∧ b ≠ 47 then pathBack dotdot out else out

/-- The loop of `path.Clean`: what is left of the path, the bytes written, and the length of what must not be dropped. Every round consumes a byte or more, so that as many rounds as
the path has bytes are enough. -/
def cleanLoop (rooted : Bool) : Nat → Bytes → Bytes → Nat → Bytes
  | 0, _, out, _ => out
  | _ + 1, [], out, _ => out
  | rounds + 1, b :: r, out, dotdot =>
    if b = 47 then cleanLoop rooted rounds r out dotdot
    else if b = 46 ∧ (r = [] ∨ r.head? = some 47) then cleanLoop rooted rounds r out dotdot
    else if b = 46 ∧ r.head? = some 46 ∧ (r.tail = [] ∨ r.tail.head? = some 47) then
      if out.length > dotdot then cleanLoop rooted rounds r.tail (pathBack dotdot out.reverse).reverse dotdot
      else if !rooted then
        let out := (if out.length > 0 then out ++ [47] else out) ++ [46, 46]
        cleanLoop rooted rounds r.tail out out.length
      else cleanLoop rooted rounds r.tail out dotdot
    else
      let out := if (rooted ∧ out.length ≠ 1) ∨ (!rooted ∧ out.length ≠ 0) then out ++ [47] else out
      cleanLoop rooted rounds (r.dropWhile (· ≠ 47)) (out ++ b :: r.takeWhile (· ≠ 47)) dotdot

/-- `path.Clean` -/
def pathClean (p : Bytes) : Bytes :=
  match p with
  | [] => [46]
  | b :: r =>
    let out := if b = 47 then cleanLoop true p.length r [47] 1 else cleanLoop false p.length p [] 0
    if out = [] then [46] else out

/-- The loop of `path.Join` that collects the elements: empty elements at the beginning are left out. -/
def joinLoop (buf : Bytes) : List Bytes → Bytes
  | [] => buf
  | e :: elems => joinLoop (if buf.length > 0 ∨ e ≠ [] then (if buf.length > 0 then buf ++ [47] else buf) ++ e else buf) elems

/-- `path.Join` -/
def pathJoin (elems : List Bytes) : Bytes :=
  if elems.flatten = [] then [] else pathClean (joinLoop [] elems)

end Verif.Go
