import Verif.Spec.SessionScript

/-!
# How a control connection is accounted for and archived

Vocabulary for statements about whole control connections.
-/

namespace Verif.Spec
open Verif.Go Verif.Ndt5

/-- The notes that account for a control connection: active tests, duration, panics and the control counter. -/
def accounting : Note → Bool
  | .activeTests _ _ => true
  | .duration _ _ => true
  | .panicCount _ _ => true
  | .controlCount _ _ => true
  | _ => false

/-- The accounting of a control connection, in order. -/
def accounts (evs : List Ev) : List Note := (notes evs).filter accounting

/-- The control connection is counted as okay. -/
def countedOkay (label : Bytes) (evs : List Ev) : Prop := .controlCount label (str "okay") ∈ notes evs

/-- The eleven labels of panics. -/
def panicLabels : List Bytes :=
  [str "Login", str "ParseInt", str "SrvQueue", str "MsgLoginVersion", str "MsgLoginTests", str "C2S", str "S2C",
   str "MsgResults", str "MsgLogout", str "META", str "panic"]

/-- The first space-separated word of a text is `word`. -/
def FirstWord (text word : Bytes) : Prop := 32 ∉ word ∧ (text = word ∨ ∃ rest, text = word ++ 32 :: rest)

/-- A record written to a file: the path, the record and the error. -/
def writeOf : Ev → Option (Bytes × Record)
  | .call (.write path r) (.ok none) => some (path, r)
  | _ => none

/-- The records written successfully, in order. -/
def written (evs : List Ev) : List (Bytes × Record) := evs.filterMap writeOf

/-- A failed file operation: it returned an error or panicked. -/
def diskFailure : Ev → Bool
  | .call (.mkdirAll _) (.panic _) => true
  | .call (.create _) (.panic _) => true
  | .call (.tempFile _) (.panic _) => true
  | .call (.write _ _) (.panic _) => true
  | .call (.mkdirAll _) (.ok (some _)) => true
  | .call (.create _) (.ok (some _)) => true
  | .call (.tempFile _) (.ok (.error _)) => true
  | .call (.write _ _) (.ok (some _)) => true
  | _ => false

/-- No file operation failed. -/
def DiskWorks (evs : List Ev) : Prop := ∀ e ∈ evs, diskFailure e = false

/-- The control connection is closed. -/
def closesControl : Ev → Bool
  | .call (.close .control) _ => true
  | _ => false

/-- An event of the file system. -/
def ofDisk : Ev → Bool
  | .call (.mkdirAll _) _ => true
  | .call (.create _) _ => true
  | .call (.tempFile _) _ => true
  | .call (.write _ _) _ => true
  | .call (.closeFile _) _ => true
  | _ => false

/-- Errors counted for any direction. -/
def anyError (label : Bytes) : Ev → Bool
  | .emit (.testError l _ _) => l = label
  | _ => false

/-- Erroneous results counted for any direction. -/
def anyErrorResult (label : Bytes) : Ev → Bool
  | .emit (.testResult l _ r) => l = label && (str "error").isPrefixOf r
  | _ => false

/-- Waiting for a client gives exactly one of a connection and an error. That it never gives neither is C30; that it can give both is
`C32_conn_with_error_false`. -/
def ServesOne (evs : List Ev) : Prop :=
  ∀ d b e, .call (.accept d) (.ok (b, e)) ∈ evs → (b = true ↔ e = none)

/-- A result or a rate of test `d` is counted. -/
def resultOf (d : Dir) : Ev → Bool
  | .emit (.testResult _ w _) => w = testText d
  | .emit (.testRate _ w _ _) => w = testText d
  | _ => false

/-- The test an event belongs to: 0 for the upload, 1 for the download, 2 for the meta test. Messages belong to none, they are the
subject of the script. -/
def testOf (x : Ev) : Option Nat :=
  if ofTest .c2s x || resultOf .c2s x then some 0
  else if ofTest .s2c x || resultOf .s2c x then some 1
  else match x with
    | .call .ctxErr _ => some 2
    | .emit (.metaValues _) => some 2
    | .emit (.testError _ w _) => if w = str "meta" then some 2 else none
    | _ => none

/-- The tests the events belong to, in order. -/
def testsSeen (evs : List Ev) : List Nat := evs.filterMap testOf

/-- The bit of the request for each of the tests. -/
def bitOf : Nat → Nat
  | 0 => 1
  | 1 => 2
  | _ => 5

/-- A counter of the requested tests. -/
def requestNote : Note → Bool
  | .requested _ _ => true
  | .suite _ _ => true
  | _ => false

/-- The names of the requested tests, in the order of the bits. -/
def requestedNames (tests : Int) : List Bytes :=
  [(0, str "mid"), (1, str "c2s"), (2, str "s2c"), (3, str "sfw"), (5, str "meta")].filterMap fun p =>
    if requested tests p.1 then some p.2 else none

/-- How the request is counted: each test, then their combination. -/
def requestCounts (label : Bytes) (tests : Int) : List Note :=
  (requestedNames tests).map (.requested label) ++ [.suite label ([45].intercalate (str "status" :: requestedNames tests))]

/-- The clock reading of an event. -/
def clockOf : Ev → Option Int
  | .clock t => some t
  | _ => none

end Verif.Spec
