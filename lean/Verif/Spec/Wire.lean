import Verif.Go.Marshal
import Verif.Spec.Names
import Verif.Spec.Json
import Verif.Spec.TimeText

/-!
# Specification: what a value is after writing it as JSON and reading it again, and which JSON values are acceptable for a type

Independent of how `json.Marshal` and `json.Unmarshal` work.
-/

namespace Verif.Spec
open Verif.Go

mutual
/-- A value as its reader sees it: bytes of strings that are not UTF-8 are replaced by U+FFFD, and an `omitempty` field that is an empty slice is nil. Everything else is the
same. -/
def asRead : Ty → Val → Val
  | .string, .str s => .str (toValid s)
  | .ptr t, .ref v => .ref (asRead t v)
  | .slice t, .list vs => .list (vs.map (asRead t))
  | .struct fs, .struct vs => .struct (asReads fs vs)
  | _, v => v
/-- The fields of a structure as read. -/
def asReads : List TyField → List Val → List Val
  | (_, optional, t) :: fs, v :: vs =>
    (match optional, v with
      | true, .list [] => .nil
      | _, v => asRead t v) :: asReads fs vs
  | _, _ => []
end

/-- A type with a structure of its own in JSON: neither a pointer nor a slice. -/
def Ty.Plain : Ty → Prop
  | .ptr _ => False
  | .slice _ => False
  | _ => True

mutual
/-- The types that can be told apart in JSON: integer types of at most 64 bits, names of fields ASCII and distinct, no pointers to pointers or slices, nested at most
`n` deep. -/
def Ty.Clear : Nat → Ty → Prop
  | _, .string => True
  | _, .int _ bits => 1 ≤ bits ∧ bits ≤ 64
  | _, .float => True
  | _, .time => True
  | n, .ptr t => Ty.Plain t ∧ Ty.Clear n t
  | 0, .slice _ => False
  | n + 1, .slice t => Ty.Clear n t
  | 0, .struct _ => False
  | n + 1, .struct fs => (fs.map Prod.fst).Nodup ∧ Fields.Clear n fs
def Fields.Clear : Nat → List TyField → Prop
  | _, [] => True
  | n, (name, _, t) :: fs => AsciiName name ∧ Ty.Clear n t ∧ Fields.Clear n fs
end

mutual
/-- A value without anything that JSON cannot express: all numbers are finite and read back by the reader of floating point numbers, all times are writable. -/
def Expressible (ft : FloatText) : Ty → Val → Prop
  | .float, .float x => ∃ q, x = .fin q ∧ IsNumber (ft.write x) ∧ ft.read (ft.write x) = some x
  | .time, .time t => t.Writable
  | .ptr t, .ref v => Expressible ft t v
  | .slice t, .list vs => ∀ v ∈ vs, Expressible ft t v
  | .struct fs, .struct vs => Expressibles ft fs vs
  | _, _ => True
def Expressibles (ft : FloatText) : List TyField → List Val → Prop
  | (_, _, t) :: fs, v :: vs => Expressible ft t v ∧ Expressibles ft fs vs
  | _, _ => True
end

mutual
/-- A value in which every floating point number is finite and every time has a year of four digits and a zone less than 24 hours from UTC. -/
def Sound : Val → Prop
  | .float x => ∃ q, x = .fin q
  | .time t => t.Writable
  | .ref v => Sound v
  | .list vs => Sounds vs
  | .struct vs => Sounds vs
  | _ => True
def Sounds : List Val → Prop
  | [] => True
  | v :: vs => Sound v ∧ Sounds vs
end

mutual
/-- Every time in a value has a property. -/
def AllTimes (P : Stamp → Prop) : Val → Prop
  | .time t => P t
  | .ref v => AllTimes P v
  | .list vs => AllTimesL P vs
  | .struct vs => AllTimesL P vs
  | _ => True
def AllTimesL (P : Stamp → Prop) : List Val → Prop
  | [] => True
  | v :: vs => AllTimes P v ∧ AllTimesL P vs
end

/-- An integer written with digits only, or with a minus sign and digits if it is of a signed type. -/
def IntLiteral (signed : Bool) (raw : Bytes) (n : Int) : Prop :=
  (∃ m : Nat, Decimal raw m ∧ n = m) ∨ signed = true ∧ ∃ rest, ∃ m : Nat, raw = 45 :: rest ∧ Decimal rest m ∧ n = -(m : Int)

/-- A key of a JSON object stands for the field of that name, or else, if there is none, for the first field whose name differs only in case. -/
def Names (fs : List TyField) (key : Bytes) (i : Nat) : Prop :=
  ∃ f, fs[i]? = some f ∧ (f.1 = key ∨ (∀ g ∈ fs, g.1 ≠ key) ∧ SameName f.1 key ∧ ∀ k g, k < i → fs[k]? = some g → ¬ SameName g.1 key)

mutual
/-- The JSON values that are acceptable for a type: `null` always; otherwise the right kind of JSON value, integers written without fraction and exponent and within the range
of the type, texts that are times, arrays of acceptable elements, and objects whose members are acceptable for the field they name, if any. -/
def Fits (ft : FloatText) : Ty → Json → Prop
  | .string, j => j = .null ∨ ∃ s, j = .str s
  | .int signed bits, j => j = .null ∨ ∃ raw n, j = .num raw ∧ IntLiteral signed raw n ∧ IntRange signed bits n
  | .float, j => j = .null ∨ ∃ raw x, j = .num raw ∧ ft.read raw = some x
  | .time, j => j = .null ∨ ∃ s ns z, j = .str s ∧ IsTimeText s ns z
  | .ptr t, j => j = .null ∨ Fits ft t j
  | .slice t, j => j = .null ∨ ∃ js, j = .arr js ∧ ∀ v ∈ js, Fits ft t v
  | .struct fs, j => j = .null ∨ ∃ kvs, j = .obj kvs ∧ ∀ kv ∈ kvs, ∀ i, Names fs kv.1 i → FitsField ft fs i kv.2
def FitsField (ft : FloatText) : List TyField → Nat → Json → Prop
  | (_, _, t) :: _, 0, j => Fits ft t j
  | _ :: fs, i + 1, j => FitsField ft fs i j
  | [], _, _ => False
end

end Verif.Spec
