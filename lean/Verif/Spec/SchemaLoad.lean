import Verif.Data.Schema
import Verif.Spec.TimeText
import Verif.Spec.Json

/-!
# Specification: which JSON texts a table takes
-/

namespace Verif.Spec
open Verif.Go Verif.Data

/-- The name of a column. -/
def Column.name : Column → Bytes
  | .mk n _ _ _ _ => n
/-- Whether a column is required. -/
def Column.required : Column → Bool
  | .mk _ _ _ r _ => r

/-- A column takes a JSON value: `null` unless it is required (for a repeated column `null` is no elements), a string, a 64-bit integer, a number, a string that is a time, an
array of elements that are not null, an object. In an object every member needs a column of its name, and every required column a member. -/
inductive Takes : Column → Json → Prop
  | null (n : Bytes) (t : ColType) (rep : Bool) (cs : List Column) : Takes (.mk n t rep false cs) .null
  | text (n : Bytes) (r : Bool) (cs : List Column) (s : Bytes) : Takes (.mk n .string false r cs) (.str s)
  | int (n : Bytes) (r : Bool) (cs : List Column) (i : Int) : -2 ^ 63 ≤ i → i < 2 ^ 63 → Takes (.mk n .integer false r cs) (.num (itoa i))
  | float (n : Bytes) (r : Bool) (cs : List Column) (raw : Bytes) : Takes (.mk n .float false r cs) (.num raw)
  | time (n : Bytes) (r : Bool) (cs : List Column) (s : Bytes) : (∃ ns z, IsTimeText s ns z) → Takes (.mk n .timestamp false r cs) (.str s)
  | array (n : Bytes) (t : ColType) (r : Bool) (cs : List Column) (vs : List Json) : (∀ v ∈ vs, Takes (.mk n t false true cs) v) → Takes (.mk n t true r cs) (.arr vs)
  | record (n : Bytes) (r : Bool) (cs : List Column) (kvs : List (Bytes × Json)) (column : Bytes × Json → Column) :
      (∀ kv ∈ kvs, column kv ∈ cs ∧ Column.name (column kv) = kv.1) → (∀ kv ∈ kvs, Takes (column kv) kv.2) →
      (∀ c ∈ cs, Column.required c = true → ∃ kv ∈ kvs, kv.1 = Column.name c) → Takes (.mk n .record false r cs) (.obj kvs)

/-- A table with this schema takes this text as a record. -/
def TakesText (schema : List Column) (text : Bytes) : Prop := ∃ j, IsJson text j ∧ Takes (.mk [] .record false true schema) j

end Verif.Spec
