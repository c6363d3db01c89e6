import Verif.Go.Utf8
import Verif.Go.Num

/-!
# The parts of `encoding/json` used for ndt5 messages

* `quote` models the string encoder of `json.Marshal` (encode.go `appendString` with `escapeHTML`).
* `parseJson` models the syntax accepted by `json.Unmarshal` (scanner.go, decode.go `unquote`).
-/

namespace Verif.Go

/-! ## Encoding strings -/

/-- Lower-case hexadecimal digit (`hex = "0123456789abcdef"` in encode.go). -/
def hexDigit (n : Nat) : UInt8 := if n < 10 then UInt8.ofNat (48 + n) else UInt8.ofNat (87 + n)

/-- What `json.Marshal` writes for one rune of a string. -/
def quoteChunk : Chunk → Bytes
  | .ascii b =>
    if b = 34 ∨ b = 92 then [92, b]
    else if b = 8 then [92, 98]
    else if b = 12 then [92, 102]
    else if b = 10 then [92, 110]
    else if b = 13 then [92, 114]
    else if b = 9 then [92, 116]
    else if b < 0x20 ∨ b = 60 ∨ b = 62 ∨ b = 38 then
      [92, 117, 48, 48, hexDigit (b.toNat / 16), hexDigit (b.toNat % 16)]
    else [b]
  | .multi bs =>
    if bs = [0xE2, 0x80, 0xA8] then [92, 117, 50, 48, 50, 56]
    else if bs = [0xE2, 0x80, 0xA9] then [92, 117, 50, 48, 50, 57]
    else bs
  | .bad _ => [92, 117, 102, 102, 102, 100]

/-- The contents of the JSON string literal for `s`, without the surrounding quotes. -/
def quoteBody (s : Bytes) : Bytes := (chunks s).flatMap quoteChunk

/-- The JSON string literal `json.Marshal` writes for `s`. -/
def quote (s : Bytes) : Bytes := 34 :: quoteBody s ++ [34]

/-- The JSON object `json.Marshal` writes for string members in the given order. -/
def objectOfStrings (kvs : List (Bytes × Bytes)) : Bytes :=
  123 :: join [44] (kvs.map fun p => quote p.1 ++ 58 :: quote p.2) ++ [125]

/-! ## Decoding -/

/-- Value of a hexadecimal digit. -/
def hexVal (c : UInt8) : Option Nat :=
  if 48 ≤ c ∧ c ≤ 57 then some (c.toNat - 48)
  else if 97 ≤ c ∧ c ≤ 102 then some (c.toNat - 87)
  else if 65 ≤ c ∧ c ≤ 70 then some (c.toNat - 55)
  else none

/-- Four hexadecimal digits. -/
def hex4 : Bytes → Option (Nat × Bytes)
  | a :: b :: c :: d :: rest =>
    match hexVal a, hexVal b, hexVal c, hexVal d with
    | some a, some b, some c, some d => some (((a * 16 + b) * 16 + c) * 16 + d, rest)
    | _, _, _, _ => none
  | _ => none

/-- The second half of a surrogate pair, if the input continues with one. -/
def lowSurrogate : Bytes → Option (Nat × Bytes)
  | 92 :: 117 :: rest =>
    match hex4 rest with
    | some (n, rest') => if 0xDC00 ≤ n ∧ n < 0xE000 then some (n, rest') else none
    | none => none
  | _ => none

/-- The character of a `\uXXXX` escape (decode.go `unquote`): surrogate pairs are combined, a lone surrogate is U+FFFD. -/
def unescapeU (rest : Bytes) : Option (Bytes × Bytes) :=
  match hex4 rest with
  | none => none
  | some (n, rest') =>
    if 0xD800 ≤ n ∧ n < 0xE000 then
      match (if n < 0xDC00 then lowSurrogate rest' else none) with
      | some (m, rest'') => some (encodeRune (0x10000 + (n - 0xD800) * 1024 + (m - 0xDC00)), rest'')
      | none => some (replacement, rest')
    else some (encodeRune n, rest')

/-- One escape sequence after the backslash. -/
def unescape : Bytes → Option (Bytes × Bytes)
  | [] => none
  | c :: rest =>
    if c = 34 ∨ c = 92 ∨ c = 47 then some ([c], rest)
    else if c = 98 then some ([8], rest)
    else if c = 102 then some ([12], rest)
    else if c = 110 then some ([10], rest)
    else if c = 114 then some ([13], rest)
    else if c = 116 then some ([9], rest)
    else if c = 117 then unescapeU rest
    else none

/-- The contents of a string literal after its opening quote; returns the decoded text and what
follows the closing quote. Go finds the closing quote first and decodes afterwards; since a
quote is not part of any multi-byte rune the result is the same. -/
def parseStr : Nat → Bytes → Option (Bytes × Bytes)
  | 0, _ => none
  | _ + 1, [] => none
  | f + 1, b :: t =>
    if b = 34 then some ([], t)
    else if b = 92 then
      match unescape t with
      | none => none
      | some (out, rest) => (parseStr f rest).map fun p => (out ++ p.1, p.2)
    else if b < 0x20 then none
    else
      let c := headChunk b t
      (parseStr f ((b :: t).drop c.raw.length)).map fun p => (c.fixed ++ p.1, p.2)

/-- JSON values. Numbers keep their text: ndt5 messages never use them as numbers. -/
inductive Json
  | null
  | bool (b : Bool)
  | num (raw : Bytes)
  | str (s : Bytes)
  | arr (vs : List Json)
  | obj (kvs : List (Bytes × Json))

/-- JSON white space. -/
def isWs (c : UInt8) : Bool := c == 32 || c == 9 || c == 10 || c == 13

/-- Skip white space. -/
def skipWs (s : Bytes) : Bytes := s.dropWhile isWs

/-- Digits at the start of the input. -/
def spanDigits (s : Bytes) : Bytes × Bytes := s.span (fun c => decide (IsDigit c))

/-- Optional fraction of a number. -/
def numFrac (s : Bytes) : Option (Bytes × Bytes) :=
  match s with
  | 46 :: rest =>
    match spanDigits rest with
    | ([], _) => none
    | (ds, rest') => some (46 :: ds, rest')
  | _ => some ([], s)

/-- Optional exponent of a number. -/
def numExp (s : Bytes) : Option (Bytes × Bytes) :=
  match s with
  | [] => some ([], s)
  | e :: rest =>
    if e = 101 ∨ e = 69 then
      let (sign, rest1) : Bytes × Bytes := match rest with
        | 43 :: r => ([43], r)
        | 45 :: r => ([45], r)
        | r => ([], r)
      match spanDigits rest1 with
      | ([], _) => none
      | (ds, rest') => some (e :: sign ++ ds, rest')
    else some ([], s)

/-- Integer part of a number: `0` or a digit string not starting with `0`. -/
def numInt (s : Bytes) : Option (Bytes × Bytes) :=
  match s with
  | 48 :: rest => some ([48], rest)
  | _ => match spanDigits s with
    | ([], _) => none
    | (ds, rest) => some (ds, rest)

/-- A JSON number. -/
def parseNum (s : Bytes) : Option (Bytes × Bytes) :=
  let (sign, s1) : Bytes × Bytes := match s with
    | 45 :: r => ([45], r)
    | r => ([], r)
  match numInt s1 with
  | none => none
  | some (i, s2) =>
    match numFrac s2 with
    | none => none
    | some (fr, s3) =>
      match numExp s3 with
      | none => none
      | some (ex, s4) => some (sign ++ i ++ fr ++ ex, s4)

/-- Nesting limit of encoding/json (scanner.go `maxNestingDepth`). -/
def maxNesting : Nat := 10000

mutual
/-- One JSON value, with leading white space. `depth` counts the enclosing arrays and objects. -/
def parseValue : Nat → Nat → Bytes → Option (Json × Bytes)
  | 0, _, _ => none
  | f + 1, depth, s =>
    match skipWs s with
    | [] => none
    | c :: t =>
      if c = 34 then (parseStr (t.length + 1) t).map fun p => (.str p.1, p.2)
      else if c = 123 then
        if maxNesting ≤ depth then none
        else match skipWs t with
          | 125 :: r => some (.obj [], r)
          | _ => (parseMembers f (depth + 1) t).map fun p => (.obj p.1, p.2)
      else if c = 91 then
        if maxNesting ≤ depth then none
        else match skipWs t with
          | 93 :: r => some (.arr [], r)
          | _ => (parseElems f (depth + 1) t).map fun p => (.arr p.1, p.2)
      else if hasPrefix (c :: t) (str "true") then some (.bool true, t.drop 3)
      else if hasPrefix (c :: t) (str "false") then some (.bool false, t.drop 4)
      else if hasPrefix (c :: t) (str "null") then some (.null, t.drop 3)
      else (parseNum (c :: t)).map fun p => (.num p.1, p.2)
/-- Members of an object up to and including the closing brace. -/
def parseMembers : Nat → Nat → Bytes → Option (List (Bytes × Json) × Bytes)
  | 0, _, _ => none
  | f + 1, depth, s =>
    match skipWs s with
    | 34 :: t =>
      match parseStr (t.length + 1) t with
      | none => none
      | some (k, r) =>
        match skipWs r with
        | 58 :: r1 =>
          match parseValue f depth r1 with
          | none => none
          | some (v, r2) =>
            match skipWs r2 with
            | 125 :: r3 => some ([(k, v)], r3)
            | 44 :: r3 => (parseMembers f depth r3).map fun p => ((k, v) :: p.1, p.2)
            | _ => none
        | _ => none
    | _ => none
/-- Elements of an array up to and including the closing bracket. -/
def parseElems : Nat → Nat → Bytes → Option (List Json × Bytes)
  | 0, _, _ => none
  | f + 1, depth, s =>
    match parseValue f depth s with
    | none => none
    | some (v, r) =>
      match skipWs r with
      | 93 :: r1 => some ([v], r1)
      | 44 :: r1 => (parseElems f depth r1).map fun p => (v :: p.1, p.2)
      | _ => none
end

/-- A whole JSON document (white space around the value, nothing else); `none` is a syntax error.
Each nested call consumes a byte or moves from a value to its first element, so twice the length is enough fuel. -/
def parseJson (s : Bytes) : Option Json :=
  match parseValue (2 * s.length + 2) 0 s with
  | none => none
  | some (v, r) => if skipWs r = [] then some v else none

end Verif.Go
