import Verif.Ndt5.SendMetrics
import Verif.Spec.Session

/-!
# The NDT5 message script

What a server sends on the control connection, in order, according to the NDT5 protocol.
-/

namespace Verif.Spec
open Verif.Go Verif.Ndt5

/-- The frames of an upload test: the port, the start signal, the measured rate, the end. -/
def c2sScript (m : Messager) (port : Nat) (kbps : Int) : List Bytes :=
  [m.frame MsgType.testPrepare (itoa port), m.frame MsgType.testStart [], m.frame MsgType.testMsg (itoa kbps),
   m.frame MsgType.testFinalize []]

mutual
/-- The lines `prefix+path: value` of the exportable fields of a structure, in declaration order. -/
def metricLines (pre : Bytes) : List (Bytes × MVal) → List Bytes
  | [] => []
  | (name, v) :: rest => metricLine pre name v ++ metricLines pre rest

/-- The lines of one field. -/
def metricLine (pre name : Bytes) : MVal → List Bytes
  | .num text => [pre ++ name ++ str ": " ++ text ++ [10]]
  | .text s => [pre ++ name ++ str ": " ++ s ++ [10]]
  | .stringer s => [pre ++ name ++ str ": " ++ s ++ [10]]
  | .struct fields => metricLines (pre ++ name ++ str ".") fields
  | .other => []
end

mutual
/-- Name and value of the exportable fields of a structure, in declaration order; the name is the path with dots. -/
def metricEntries (pre : Bytes) : List (Bytes × MVal) → List (Bytes × Bytes)
  | [] => []
  | (name, v) :: rest => metricEntry pre name v ++ metricEntries pre rest

/-- Names and values of one field. -/
def metricEntry (pre name : Bytes) : MVal → List (Bytes × Bytes)
  | .num text => [(pre ++ name, text)]
  | .text s => [(pre ++ name, s)]
  | .stringer s => [(pre ++ name, s)]
  | .struct fields => metricEntries (pre ++ name ++ str ".") fields
  | .other => []
end

mutual
/-- Fields as Go allows them: the names in a structure differ, and identifiers contain no dot. -/
def GoFields : List (Bytes × MVal) → Prop
  | [] => True
  | (name, v) :: rest => 46 ∉ name ∧ name ∉ rest.map Prod.fst ∧ GoValue v ∧ GoFields rest

/-- The same for a value. -/
def GoValue : MVal → Prop
  | .struct fields => GoFields fields
  | _ => True
end

/-- The lines that end a download test: the kernel metrics and the archival data. -/
def resultLines (lib : Lib) (w : Metrics) (r : S2CRecord) : List Bytes :=
  metricLines [] w.reflect ++ metricLines (str "NDTResult.S2C.") (r.reflect lib)

/-- The frames of a download test: the port, the start signal, the results, the metric lines, the end. -/
def s2cScript (m : Messager) (port : Nat) (kbps acked : Int) (lines : List Bytes) : List Bytes :=
  [m.frame MsgType.testPrepare (itoa port), m.frame MsgType.testStart [], m.s2cFrame kbps 0 acked] ++
    lines.map (m.frame MsgType.testMsg) ++ [m.frame MsgType.testFinalize []]

/-- The frames of a meta test. -/
def metaScript (m : Messager) : List Bytes :=
  [m.frame MsgType.testPrepare [], m.frame MsgType.testStart [], m.frame MsgType.testFinalize []]

/-- The events keep to a script: what the server tried to send is a beginning of the script, only the last attempt may have
failed, and if the run is `done` the whole script was sent. If no call into the environment crashed, the whole script is
sent only by runs that are `done`. -/
structure OnScript (script : List Bytes) (evs : List Ev) (done : Prop) : Prop where
  isPrefix : attempts evs <+: script
  failStop : attempts evs = sent evs ∨ ∃ f, attempts evs = sent evs ++ [f]
  complete : done → sent evs = script
  converse : NoCrash evs → sent evs = script → done

/-- Sending frames one after another until the first failure: the events and the outcome, which is the first failure. -/
inductive Sends : List Bytes → List Ev → Outcome (Option Err) → Prop
  | done : Sends [] [] (.ok none)
  | sent (f : Bytes) (rest : List Bytes) (evs : List Ev) (out : Outcome (Option Err)) :
      Sends rest evs out → Sends (f :: rest) (.call (.send f) (.ok none) :: evs) out
  | failed (f : Bytes) (rest : List Bytes) (e : Err) :
      Sends (f :: rest) [.call (.send f) (.ok (some e))] (.ok (some e))
  | crashed (f : Bytes) (rest : List Bytes) (msg : Bytes) :
      Sends (f :: rest) [.call (.send f) (.panic msg)] (.panic msg)

end Verif.Spec
