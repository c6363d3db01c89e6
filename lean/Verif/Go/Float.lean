import Verif.Go.Num

/-!
# Go `float64`

IEEE-754 binary64 values as exact rationals with explicit rounding to nearest even. Simplified: zero has no
sign (the sign of zero is not observable in any of the modelled uses, where dividends and divisors are counts and durations).
-/

namespace Verif.Go

/-- A `float64`: not a number, an infinity, or a finite number. -/
inductive F64
  | nan
  | inf (neg : Bool)
  | fin (q : Rat)
  deriving DecidableEq, Repr

namespace F64

/-- `2^e` for any integer `e`. -/
def pow2 (e : Int) : Rat := if 0 ≤ e then ((2 ^ e.toNat : Nat) : Rat) else 1 / ((2 ^ (-e).toNat : Nat) : Rat)

/-- The nearest integer, ties to even. -/
def roundHalfEven (q : Rat) : Int :=
  let f := q.floor
  let r := q - f
  if r < 1 / 2 then f else if 1 / 2 < r then f + 1 else if f % 2 = 0 then f else f + 1

/-- For positive `q`: the exponent `e` of the unit in the last place of binary64 numbers near `q`:
`2^52 ≤ q / 2^e < 2^53` for normal numbers, at least -1074. -/
def ulpExp (q : Rat) : Int :=
  let k : Int := (Nat.log2 q.num.toNat : Int) - (Nat.log2 q.den : Int)
  let e := if q < pow2 k then k - 53 else k - 52
  if e < -1074 then -1074 else e

/-- Rounding a positive rational to binary64 (IEEE-754 roundTiesToEven). -/
def roundPos (q : Rat) : F64 :=
  let e := ulpExp q
  let v := (roundHalfEven (q / pow2 e) : Rat) * pow2 e
  if pow2 1024 ≤ v then .inf false else .fin v

/-- Rounding a rational to binary64. -/
def round (q : Rat) : F64 :=
  if q = 0 then .fin 0
  else if 0 < q then roundPos q
  else match roundPos (-q) with
    | .fin v => .fin (-v)
    | _ => .inf true

/-- `float64(n)` for an integer. -/
def ofInt (n : Int) : F64 := round n

/-- Negative (for the sign rules of infinities). -/
def isNeg : F64 → Bool
  | .nan => false
  | .inf n => n
  | .fin q => q < 0

/-- Equal to zero. -/
def isZero : F64 → Bool
  | .fin q => q == 0
  | _ => false

/-- `x + y`. -/
def add : F64 → F64 → F64
  | .nan, _ => .nan
  | _, .nan => .nan
  | .inf a, .inf b => if a = b then .inf a else .nan
  | .inf a, .fin _ => .inf a
  | .fin _, .inf b => .inf b
  | .fin a, .fin b => round (a + b)

/-- `x * y`. -/
def mul : F64 → F64 → F64
  | .nan, _ => .nan
  | _, .nan => .nan
  | .fin a, .fin b => round (a * b)
  | x, y => if x.isZero || y.isZero then .nan else .inf (x.isNeg != y.isNeg)

/-- `x / y`. -/
def div : F64 → F64 → F64
  | .nan, _ => .nan
  | _, .nan => .nan
  | .inf _, .inf _ => .nan
  | .fin _, .inf _ => .fin 0
  | .inf a, .fin b => .inf (a != decide (b < 0))
  | .fin a, .fin b => if b = 0 then (if a = 0 then .nan else .inf (decide (a < 0))) else round (a / b)

/-- `x < y`. -/
def lt : F64 → F64 → Bool
  | .nan, _ => false
  | _, .nan => false
  | .inf a, .inf b => a && !b
  | .inf a, .fin _ => a
  | .fin _, .inf b => !b
  | .fin a, .fin b => a < b

/-- Finite numbers, the ones `encoding/json` can encode (encode.go `floatEncoder`: NaN and infinities are an
`UnsupportedValueError`). -/
def isFinite : F64 → Bool
  | .fin _ => true
  | _ => false

/-- The integer part, towards zero. -/
def truncRat (q : Rat) : Int := if 0 ≤ q then q.floor else -((-q).floor)

/-- `int64(x)`: truncation; values outside the range (and NaN) give the smallest integer, as the amd64 instruction
does (the Go specification leaves the result open). -/
def toInt64 : F64 → Int
  | .fin q => let t := truncRat q; if -2 ^ 63 ≤ t ∧ t < 2 ^ 63 then t else -2 ^ 63
  | _ => -2 ^ 63

/-- Decimal digits of `n`, at least `w` of them. -/
def padDigits (w n : Nat) : Bytes :=
  let d := natDec n
  List.replicate (w - d.length) 48 ++ d

/-- `fmt.Sprintf("%.4f", x)`. -/
def fmt4 : F64 → Bytes
  | .nan => str "NaN"
  | .inf n => if n then str "-Inf" else str "+Inf"
  | .fin q =>
    let n := (roundHalfEven ((if q < 0 then -q else q) * 10000)).toNat
    (if q < 0 then [45] else []) ++ natDec (n / 10000) ++ [46] ++ padDigits 4 (n % 10000)

/-- `Duration.Seconds()` (time.go): whole seconds plus the fraction, both as `float64`. -/
def seconds (ns : Int) : F64 :=
  add (ofInt (ns.tdiv 1000000000)) (div (ofInt (ns.tmod 1000000000)) (ofInt 1000000000))

end F64
end Verif.Go
