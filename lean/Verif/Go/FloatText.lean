import Verif.Go.Marshal
import Verif.Go.Float

/-!
# The text of floating point numbers in JSON: `strconv.ParseFloat`, `strconv.FormatFloat` with the smallest precision, and what encoding/json makes of them

The digits themselves (Go finds the shortest ones with the algorithm Ryu) are a parameter here; `Spec/FloatText` says which ones they are.
-/

namespace Verif.Go

/-- A digit. -/
def isNumeral (c : UInt8) : Bool := 48 ≤ c && c ≤ 57

/-- The number with these digits. -/
def numeralsVal (ds : Bytes) : Nat := ds.foldl (fun n c => 10 * n + (c.toNat - 48)) 0

/-- The exponent in a number, from the letter e on. -/
def exponentOf : Bytes → Int
  | [] => 0
  | _ :: 45 :: ds => - (numeralsVal ds : Int)
  | _ :: 43 :: ds => numeralsVal ds
  | _ :: ds => numeralsVal ds

/-- The number that a JSON number stands for, without its sign. -/
def magnitudeOf (s : Bytes) : Rat :=
  let int := s.takeWhile isNumeral
  match s.dropWhile isNumeral with
  | 46 :: t => (numeralsVal (int ++ t.takeWhile isNumeral) : Rat) * 10 ^ (exponentOf (t.dropWhile isNumeral) - (t.takeWhile isNumeral).length)
  | rest => (numeralsVal int : Rat) * 10 ^ (exponentOf rest)

/-- The number that a JSON number stands for. -/
def decimalOf : Bytes → Rat
  | 45 :: s => - magnitudeOf s
  | s => magnitudeOf s

/-- `strconv.ParseFloat(s, 64)` for a JSON number: the exact value is rounded; too large numbers are an error (encoding/json, `convertNumber` and `literalStore`). -/
def readFloat (s : Bytes) : Option F64 :=
  match F64.round (decimalOf s) with
  | .fin q => some (.fin q)
  | _ => none

/-- `%f` with the smallest precision (strconv/ftoa.go, `fmtF`): digits `ds` with the point before position `dp`. -/
def formatF (ds : Bytes) (dp : Int) : Bytes :=
  if 0 < dp then
    if ds.length ≤ dp.toNat then ds ++ List.replicate (dp.toNat - ds.length) 48
    else ds.take dp.toNat ++ 46 :: ds.drop dp.toNat
  else 48 :: 46 :: (List.replicate (-dp).toNat 48 ++ ds)

/-- `%e` with the smallest precision (strconv/ftoa.go, `fmtE`), after encoding/json has shortened e-09 to e-9 (`floatEncoder`). Exponents without sign minus are at least 21 where this is used, so that their two digits are as here. -/
def formatE (ds : Bytes) (dp : Int) : Bytes :=
  ds.take 1 ++ ((if 1 < ds.length then 46 :: ds.drop 1 else []) ++ 101 :: ((if dp - 1 < 0 then 45 else 43) :: natDec (dp - 1).natAbs))

/-- The number `0.ds` times `10^dp`. -/
def digitsValue (d : Bytes × Int) : Rat := (numeralsVal d.1 : Rat) * 10 ^ (d.2 - d.1.length)

/-- `floatEncoder.encode` of encoding/json, where `digits` gives the digits of positive numbers. Numbers that are not finite are refused before. -/
def writeFloat (digits : Rat → Bytes × Int) : F64 → Bytes
  | .fin q =>
    if q = 0 then [48]
    else
      let a := if q < 0 then -q else q
      (if q < 0 then [45] else []) ++
        if a < 1 / 10 ^ 6 ∨ 10 ^ 21 ≤ a then formatE (digits a).1 (digits a).2 else formatF (digits a).1 (digits a).2
  | _ => []

/-- Writing and reading of floating point numbers. -/
def goFloats (digits : Rat → Bytes × Int) : FloatText where
  write := writeFloat digits
  read := readFloat

end Verif.Go
