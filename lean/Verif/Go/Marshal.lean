import Verif.Go.JsonTree
import Verif.Go.Rfc3339
import Verif.Go.Float

/-!
# `json.Marshal` and `json.Unmarshal` for Go types

From knowledge of encoding/json (encode.go, decode.go). The types are those that results and measurements are made of.
-/

namespace Verif.Go

/-- Go types. Fields have the name used in JSON, whether they are tagged `omitempty`, and a type; the fields of embedded structures are promoted, so they are listed among
the fields (encode.go `typeFields`). -/
inductive Ty
  | string
  | int (signed : Bool) (bits : Nat)
  | float
  | time
  | ptr (pointee : Ty)
  | slice (of : Ty)
  | struct (fields : List (Bytes × Bool × Ty))

/-- A named, perhaps `omitempty`, field. -/
abbrev TyField := Bytes × Bool × Ty

/-- Values of these types; `nil` is a nil pointer or a nil slice. -/
inductive Val
  | str (s : Bytes)
  | int (n : Int)
  | float (x : F64)
  | time (t : Stamp)
  | nil
  | ref (v : Val)
  | list (vs : List Val)
  | struct (vs : List Val)

/-- How `strconv` writes and reads a `float64`; not modelled further. -/
structure FloatText where
  write : F64 → Bytes
  read : Bytes → Option F64

/-- The values of an integer type. -/
def IntRange (signed : Bool) (bits : Nat) (n : Int) : Prop :=
  if signed then -(2 ^ (bits - 1) : Int) ≤ n ∧ n < 2 ^ (bits - 1) else 0 ≤ n ∧ n < 2 ^ bits

instance (s : Bool) (b : Nat) (n : Int) : Decidable (IntRange s b n) := by unfold IntRange; infer_instance

mutual
/-- A value has a type. -/
def HasTy : Ty → Val → Prop
  | .string, .str _ => True
  | .int s b, .int n => IntRange s b n
  | .float, .float _ => True
  | .time, .time _ => True
  | .ptr _, .nil => True
  | .ptr t, .ref v => HasTy t v
  | .slice _, .nil => True
  | .slice t, .list vs => ∀ v ∈ vs, HasTy t v
  | .struct fs, .struct vs => HasTys fs vs
  | _, _ => False
/-- The values have the types of the fields. -/
def HasTys : List TyField → List Val → Prop
  | [], [] => True
  | (_, _, t) :: fs, v :: vs => HasTy t v ∧ HasTys fs vs
  | _, _ => False
end

mutual
/-- The zero value of a type. -/
def zeroVal : Ty → Val
  | .string => .str []
  | .int _ _ => .int 0
  | .float => .float (.fin 0)
  | .time => .time Stamp.zero
  | .ptr _ => .nil
  | .slice _ => .nil
  | .struct fs => .struct (zeroVals fs)
/-- The zero values of fields. -/
def zeroVals : List TyField → List Val
  | [] => []
  | (_, _, t) :: fs => zeroVal t :: zeroVals fs
end

/-! ## Encoding -/

/-- encode.go `isEmptyValue`: structures, `time.Time` among them, are never empty. -/
def Val.isEmpty : Val → Bool
  | .str s => s.isEmpty
  | .int n => n == 0
  | .float x => x == .fin 0
  | .time _ => false
  | .nil => true
  | .ref _ => false
  | .list vs => vs.isEmpty
  | .struct _ => false

mutual
/-- `json.Marshal`: the JSON value for a Go value, `none` for an error. Infinities, NaN and times that RFC 3339 cannot express are errors. -/
def toJson (ft : FloatText) : Ty → Val → Option Json
  | .string, .str s => some (.str s)
  | .int _ _, .int n => some (.num (itoa n))
  | .float, .float x => match x with
    | .fin q => some (.num (ft.write (.fin q)))
    | _ => none
  | .time, .time t => if t.Writable then some (.str (formatRFC3339 t)) else none
  | .ptr _, .nil => some .null
  | .ptr t, .ref v => toJson ft t v
  | .slice _, .nil => some .null
  | .slice t, .list vs => (vs.mapM (toJson ft t)).map .arr
  | .struct fs, .struct vs => (toMembers ft fs vs).map .obj
  | _, _ => none
/-- encode.go `structEncoder.encode`: the fields in order, without the empty ones that are tagged `omitempty`. -/
def toMembers (ft : FloatText) : List TyField → List Val → Option (List (Bytes × Json))
  | [], [] => some []
  | (name, opt, t) :: fs, v :: vs =>
    if opt = true ∧ v.isEmpty = true then toMembers ft fs vs
    else match toJson ft t v, toMembers ft fs vs with
      | some j, some rest => some ((name, j) :: rest)
      | _, _ => none
  | _, _ => none
end

/-- `json.Marshal(v)`. -/
def marshal (ft : FloatText) (t : Ty) (v : Val) : Option Bytes := (toJson ft t v).map Json.text

/-! ## Decoding -/

/-- fold.go `foldName`: upper case for ASCII letters; the Kelvin sign and the long s fold to ASCII letters. Other runes fold to runes that are not ASCII, and since the names of
fields are ASCII they are left alone here. -/
def foldChunk : Chunk → Bytes
  | .ascii b => [if 97 ≤ b ∧ b ≤ 122 then b - 32 else b]
  | .multi bs => if bs = [0xE2, 0x84, 0xAA] then [75] else if bs = [0xC5, 0xBF] then [83] else bs
  | .bad b => [b]

/-- `foldName`. -/
def foldName (s : Bytes) : Bytes := (chunks s).flatMap foldChunk

/-- decode.go `object`: the field with exactly this name, or else the first field whose name is equal under case folding. -/
def findField (fs : List TyField) (key : Bytes) : Option Nat :=
  match fs.findIdx? (fun f => f.1 == key) with
  | some i => some i
  | none => fs.findIdx? (fun f => foldName f.1 == foldName key)

/-- decode.go `literalStore` for numbers into integers: `strconv.ParseInt` and `strconv.ParseUint` in base 10, and the range of the type. -/
def readInt (signed : Bool) (bits : Nat) (raw : Bytes) : Option Int :=
  match (if signed then atoi raw else match parseNat raw with
    | some n => if n < 2 ^ 64 then some (n : Int) else none
    | none => none) with
  | some n => if IntRange signed bits n then some n else none
  | none => none

mutual
/-- `json.Unmarshal` of a JSON value into a variable that holds `old`; `none` for an error (type mismatches are errors of `Unmarshal` although it goes on decoding).
`null` changes nothing except that it makes pointers and slices nil. Simplified: a time whose JSON string contains escapes is decoded first, where the library hands the raw
literal to `UnmarshalJSON` and fails; the elements of a slice that is decoded twice, because a key is repeated, start from zero values. -/
def fromJson (ft : FloatText) : Ty → Val → Json → Option Val
  | .string, old, j => match j with
    | .null => some old
    | .str s => some (.str s)
    | _ => none
  | .int s b, old, j => match j with
    | .null => some old
    | .num raw => (readInt s b raw).map .int
    | _ => none
  | .float, old, j => match j with
    | .null => some old
    | .num raw => (ft.read raw).map .float
    | _ => none
  | .time, old, j => match j with
    | .null => some old
    | .str s => (parseRFC3339 s).map .time
    | _ => none
  | .ptr t, old, j => match j with
    | .null => some .nil
    | j => match old with
      | .ref v => (fromJson ft t v j).map .ref
      | _ => (fromJson ft t (zeroVal t) j).map .ref
  | .slice t, _, j => match j with
    | .null => some .nil
    | .arr js => (js.mapM (fromJson ft t (zeroVal t))).map .list
    | _ => none
  | .struct fs, old, j => match j with
    | .null => some old
    | .obj kvs => match old with
      | .struct vs => (kvs.foldlM (fun (vs : List Val) (kv : Bytes × Json) => match findField fs kv.1 with
          | some i => setField ft fs i vs kv.2
          | none => some vs) vs).map .struct
      | _ => none
    | _ => none
/-- Decode into the `i`-th field. -/
def setField (ft : FloatText) : List TyField → Nat → List Val → Json → Option (List Val)
  | (_, _, t) :: _, 0, v :: vs, j => (fromJson ft t v j).map (· :: vs)
  | _ :: fs, i + 1, v :: vs, j => (setField ft fs i vs j).map (v :: ·)
  | _, _, _, _ => none
end

/-- `json.Unmarshal(data, &v)` for a new variable. -/
def unmarshal (ft : FloatText) (t : Ty) (data : Bytes) : Option Val :=
  match parseJson data with
  | none => none
  | some j => fromJson ft t (zeroVal t) j

end Verif.Go
