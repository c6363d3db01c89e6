import Verif.Web.Ndt7Upload

/-!
# The worker that runs an ndt7 download in the browser: html/ndt7-download-worker.js

One JavaScript task is one step. `ev.data.length` of a text is its number of UTF-16 code units, so the length is given beside the text. Times are readings of `now()`, in milliseconds; `MeanClientMbps` is left out.
-/

namespace Verif.Web
open Verif.Go

/-- `ev.data`: a text and its length, or a `Blob` and its size. -/
inductive Data
  | text (s : Bytes) (length : Nat)
  | blob (size : Nat)

/-- `ev.data.size`, or `ev.data.length` where there is no size (ndt7-download-worker.js:58-59). -/
def Data.size : Data → Nat
  | .text _ n => n
  | .blob n => n

/-- A text is passed along to the page (ndt7-download-worker.js:80-87). -/
def Data.passedAlong : Data → List Post
  | .text m _ => [.server m]
  | .blob _ => []

/-- The variables of `downloadTest` (ndt7-download-worker.js:41-43) and what was posted. -/
structure Down where
  start : Rat
  previous : Rat
  total : Nat
  posts : List Post

/-- The tasks of the worker, with the readings of the clock in them. -/
inductive DownAct
  | open (t : Rat)
  | onmessage (d : Data) (t : Rat)
  | onclose
  | onerror

/-- `onmessage` (ndt7-download-worker.js:57-88). -/
def Down.message (s : Down) (d : Data) (t : Rat) : Down :=
  let total := s.total + d.size
  let measures := t - s.previous > 250
  { s with
    total, previous := if measures then t else s.previous
    posts := s.posts ++ (if measures then [.client ((t - s.start) / 1000) total] else []) ++ d.passedAlong }

/-- One step: ndt7-download-worker.js:45-55 for `onopen`, 57-88 for `onmessage`, 28-32 for `onclose`, 34-39 for `onerror`. -/
def downStep (s : Down) : DownAct → Option Down
  | .open t => some { start := t, previous := t, total := 0, posts := s.posts ++ [.start t none] }
  | .onmessage d t => some (s.message d t)
  | .onclose => some { s with posts := s.posts ++ [.complete] }
  | .onerror => some { s with posts := s.posts ++ [.error] }

/-- The worker from the moment at which it has set the handlers, when the clock read `t0`. -/
def downloadWorker (t0 : Rat) : LTS Down DownAct where
  init := ⟨t0, t0, 0, []⟩
  step := downStep

end Verif.Web
