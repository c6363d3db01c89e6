import Verif.Web.Ndt7Download
import Verif.Ndt7.ReadLimit
import Verif.Ndt7.Test
import Verif.Spec.Decimal

/-!
# Specification: the ndt7 workers of a page

What is sent and posted, read off what the workers do.
-/

namespace Verif.Spec
open Verif.Go Verif.Ndt7 Verif.Web

/-- The sizes of the messages that were given to the browser, in order. -/
def givenSizes (log : List UpEv) : List Nat := log.filterMap fun
  | .send _ n => some n
  | _ => none

/-- How many bytes these are. -/
def givenBytes (log : List UpEv) : Nat := (givenSizes log).sum

/-- What was posted to the page, in order. -/
def posted (log : List UpEv) : List Post := log.filterMap fun
  | .post p => some p
  | _ => none

/-- The numbers of bytes in the client's measurements. -/
def reportedBytes (ps : List Post) : List Int := ps.filterMap fun
  | .client _ n => some n
  | _ => none

/-- The times in the client's measurements. -/
def reportedTimes (ps : List Post) : List Rat := ps.filterMap fun
  | .client t _ => some t
  | _ => none

/-- The messages of the server that were passed on. -/
def passedOn (ps : List Post) : List Bytes := ps.filterMap fun
  | .server m => some m
  | _ => none

/-- The messages that the upload worker got. -/
def upGot (as : List UpAct) : List Bytes := as.filterMap fun
  | .onmessage d => d
  | _ => none

/-- When the turns of the upload loop were, the first one when the connection opened. -/
def turnTimes (as : List UpAct) : List Rat := as.filterMap fun
  | .open _ t _ => some t
  | .turn t _ => some t
  | _ => none

/-- The last of these times that is 250 ms or more after the one before, where the first one counts from the start. -/
def lastQuarter (start : Rat) (ts : List Rat) : Rat := ts.foldl (fun p t => if p + 250 ≤ t then t else p) start

/-- The size of the message after one of size `n`, when this many bytes were given to the browser and this many of them are still there: double, if 16 such messages are out and 8 MiB are not reached. -/
def grown (n given buffered : Nat) : Nat := if n < 8388608 ∧ buffered + 16 * n ≤ given then 2 * n else n

/-- What is posted at the start, with times in seconds. -/
def startPost (start : Rat) : Post := .start (start / 1000) (some ((start + 10000) / 1000))

/-- What the page is told besides measurements. -/
def notices (ps : List Post) : List Post := ps.filter fun
  | .client _ _ => false
  | .server _ => false
  | _ => true

/-- What it has to be told in an upload: the start when the connection opens, each error, and the end the first time that the connection is reported closed. -/
def upTold : List UpAct → Bool → List Post
  | [], _ => []
  | .open start _ _ :: as, c => startPost start :: upTold as c
  | .onerror :: as, c => .error :: upTold as c
  | .onclose :: as, c => (if c then [] else [.complete]) ++ upTold as true
  | .turn _ _ :: as, c => upTold as c
  | .buffer _ :: as, c => upTold as c
  | .onmessage _ :: as, c => upTold as c

/-- Between the tasks of the worker `bufferedAmount` only goes down, as data goes out. -/
def HonestBuffer (as : List UpAct) : Prop := ∀ before n after s, as = before ++ .buffer n :: after → uploadWorker.Reaches before s → n ≤ s.buffered

/-- What the server's receiver gets are messages of these sizes, in order and from the first one on, and then perhaps the end of the connection; and the browser answers pings, as it must, with pongs that have the same payload. -/
structure FromWorker (sizes : List Nat) (as : List TAct) : Prop where
  messages : ∃ k tail, (as.filterMap fun | .rxNext _ i => some i | _ => none) = (sizes.take k).map arriving ++ tail ∧ (tail = [] ∨ ∃ e, tail = [.broken e])
  pongs : ∀ ps i, .rxNext ps i ∈ as → ∀ p ∈ ps, ∃ t, InInt64 t ∧ p.payload = ticksPayload t

/-- The messages that the download worker got. -/
def downGot (as : List DownAct) : List Data := as.filterMap fun
  | .onmessage d _ => some d
  | _ => none

/-- The bytes that a message stands for: the size of a `Blob`, the length of a text. -/
def dataBytes : Data → Nat
  | .text _ length => length
  | .blob size => size

/-- Those of them that are texts. -/
def textsGot (as : List DownAct) : List Bytes := (downGot as).filterMap fun
  | .text s _ => some s
  | .blob _ => none

/-- What the page has to be told in a download besides measurements: the start when the connection opens, each error, and each report that the connection is closed. -/
def downTold (as : List DownAct) : List Post := as.filterMap fun
  | .open t => some (.start t none)
  | .onclose => some .complete
  | .onerror => some .error
  | .onmessage _ _ => none

/-- The socket opens once, and before it does there are no messages. -/
def OpensOnce (as : List DownAct) : Prop := ∃ before t after, as = before ++ .open t :: after ∧ downGot before = [] ∧ ∀ t', .open t' ∉ before ∧ .open t' ∉ after

end Verif.Spec
