import Verif.Spec.Control

/-!
# The archival record of a control connection

What has to be in the record, read off the events of the connection.
-/

namespace Verif.Spec
open Verif.Go Verif.Ndt5

/-- The clock readings, in order. -/
def clocks (evs : List Ev) : List Int := evs.filterMap clockOf

/-- The events from the first question whether the deadline of the meta test has passed. -/
def metaEvents (evs : List Ev) : List Ev :=
  evs.dropWhile fun x => match x with
    | .call .ctxErr _ => false
    | _ => true

/-- The name of the message encoding. -/
def encodingText : Messager → Bytes
  | .json => str "JSON"
  | .tlv => str "TLV"

/-- All rates in the record are numbers: neither infinite nor NaN. -/
def FiniteRates (r : Record) : Prop :=
  (∀ c, r.c2s = some c → ∃ q, c.mean = .fin q) ∧ (∀ d, r.s2c = some d → (∃ q, d.mean = .fin q) ∧ ∃ q, d.clientMbps = .fin q)

/-- The record tells what happened on the control connection. -/
structure Archived (cfg : Cfg) (evs : List Ev) (r : Record) : Prop where
  server : r.gitShortCommit = cfg.gitShortCommit ∧ r.version = cfg.version ∧ r.protocol = protocolText cfg.kind ∧ r.serverMetadata = cfg.metadata
  uuid : r.uuid = uuidOf .control evs
  addrs : Addrs.mk r.serverIP r.serverPort r.clientIP r.clientPort = addrsOf .control evs
  /-- the time is read when the connection starts, when it has its addresses, during the tests, when the record is complete, and when
  the connection is closed -/
  times : ∃ t0 during t1, clocks evs = t0 :: r.startTime :: (during ++ [r.endTime, t1])
  encoding : (∃ m n, Served cfg.kind evs m n ∧ r.messageProtocol = encodingText m) ∨
    ((¬ ∃ m n, Served cfg.kind evs m n) ∧ r.messageProtocol = [] ∧ r.c2s = none ∧ r.s2c = none ∧ r.clientMetadata = [])
  /-- the upload is in the record exactly if it has a result, with the text of an error exactly if that result is erroneous -/
  upload : (r.c2s = none ∧ count (countsResult (labelText cfg.kind) (str "c2s")) evs = 0) ∨
    (count (countsResult (labelText cfg.kind) (str "c2s")) evs = 1 ∧ ∃ error : Option Err, r.c2s = some { uploadRecord evs with error := error.getD [] } ∧
      count (countsErrorResult (labelText cfg.kind) (str "c2s")) evs = if error.isSome then 1 else 0)
  /-- the same for the download -/
  download : (r.s2c = none ∧ count (countsResult (labelText cfg.kind) (str "s2c")) evs = 0) ∨
    (count (countsResult (labelText cfg.kind) (str "s2c")) evs = 1 ∧ ∃ m n, Served cfg.kind evs m n ∧
      ∃ error : Option Err, r.s2c = some { downloadRecord cfg.lib m evs with error := error.getD [] } ∧
      count (countsErrorResult (labelText cfg.kind) (str "s2c")) evs = if error.isSome then 1 else 0)
  /-- the metadata of the client, if it was requested and the session did not fail -/
  metadata : (r.clientMetadata = [] ∧ (countedOkay (labelText cfg.kind) evs → ∀ m n, Served cfg.kind evs m n → requested n 5 = false)) ∨
    ∃ m n, Served cfg.kind evs m n ∧ requested n 5 = true ∧ r.clientMetadata = (texts m (metaEvents evs)).filterMap pairOf

end Verif.Spec
