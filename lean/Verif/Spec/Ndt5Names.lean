import Verif.Ndt5.World

/-!
# The texts by which ndt5 records and counters name servers and tests
-/

namespace Verif.Spec
open Verif.Go Verif.Ndt5

/-- The text by which counters name the protocol of a server. -/
def labelText : Kind → Bytes
  | .plain => str "ndt5+plain"
  | .ws => str "ndt5+ws"
  | .wss => str "ndt5+wss"

/-- The text by which records, and the counters of test servers, name the protocol of a server. -/
def protocolText : Kind → Bytes
  | .plain => str "PLAIN"
  | .ws => str "WS"
  | .wss => str "WSS"

/-- The text by which counters name a test. -/
def testText : Dir → Bytes
  | .c2s => str "c2s"
  | .s2c => str "s2c"

/-- The model's label of a server is that text. -/
theorem label_eq (cfg : Cfg) : labelText cfg.kind = cfg.label := by unfold Cfg.label; cases cfg.kind <;> decide

/-- The model's name of a protocol is that text. -/
theorem protocol_eq (k : Kind) : protocolText k = k.name := by cases k <;> rfl

/-- The model's name of a test is that text. -/
theorem test_eq (d : Dir) : testText d = d.name := by cases d <;> rfl

end Verif.Spec
