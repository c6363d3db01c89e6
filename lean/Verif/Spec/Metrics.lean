import Verif.Main.Registry
import Mathlib.Order.Defs.LinearOrder

/-!
# Specification: what the Prometheus library demands of metrics, at the price of a panic
-/

namespace Verif.Spec
open Verif.Go Verif.Main

/-- A letter, a digit or an underscore. -/
def WordByte (b : UInt8) : Prop := (97 ≤ b ∧ b ≤ 122) ∨ (65 ≤ b ∧ b ≤ 90) ∨ (48 ≤ b ∧ b ≤ 57) ∨ b = 95

instance : DecidablePred WordByte := fun b => by unfold WordByte; infer_instance

/-- A name that metrics and labels may have: letters, digits and underscores, no digit first, no two underscores first. -/
def GoodName (n : Bytes) : Prop := n ≠ [] ∧ (∀ b ∈ n, WordByte b) ∧ (∀ b ∈ n.take 1, ¬ (48 ≤ b ∧ b ≤ 57)) ∧ ¬ str "__" <+: n

instance : DecidablePred GoodName := fun n => by unfold GoodName; infer_instance

/-- A metric that can be registered: good names, no label twice, and for a histogram, growing bounds and no label `le`. -/
def Registrable (m : Metric) : Prop :=
  GoodName m.name ∧ (∀ l ∈ m.labels, GoodName l) ∧ m.labels.Nodup ∧
    match m.kind with
    | .histogram buckets => buckets.Pairwise (· < ·) ∧ str "le" ∉ m.labels
    | _ => True

/-- A use of a metric that does not panic: the metric is registered, there are as many values as labels, and the values are texts, here even of ASCII characters only. -/
def SampleFits (s : Sample) : Prop := ∃ m ∈ registry, m.name = s.metric ∧ s.values.length = m.labels.length ∧ ∀ v ∈ s.values, ∀ b ∈ v, b < 128

end Verif.Spec
