import Verif.Go.Json

/-!
# net/url: query strings

From the source of Go 1.25's `net/url` (not part of /repo; used by ndt7/handler/handler.go:76 and 111 through `req.URL.Query()`).
-/

namespace Verif.Go

/-- `unescape(s, encodeQueryComponent)` as called by `QueryUnescape`: `+` is a space, `%` must be followed by two hexadecimal digits; `none` is an error. -/
def queryUnescape : Bytes → Option Bytes
  | [] => some []
  | 37 :: d :: e :: s =>
    match hexVal d, hexVal e with
    | some x, some y => (queryUnescape s).map (UInt8.ofNat (x * 16 + y) :: ·)
    | _, _ => none
  | c :: s => if c = 37 then none else (queryUnescape s).map ((if c = 43 then 32 else c) :: ·)

/-- A `url.Values` map; the entries are in the order in which their names were first added. -/
abbrev Values := List (Bytes × List Bytes)

/-- `m[key] = append(m[key], value)`. -/
def Values.add (key value : Bytes) : Values → Values
  | [] => [(key, [value])]
  | (k, vs) :: m => if k = key then (k, vs ++ [value]) :: m else (k, vs) :: Values.add key value m

/-- One turn of the loop of `parseQuery`, for the text `pair` between two `&`: the pair to add, nothing, or an error. -/
def queryPair (pair : Bytes) : Option (Option (Bytes × Bytes)) :=
  if pair.contains 59 then none
  else if pair.isEmpty then some none
  else
    let (key, value) := (cut 61 pair).getD (pair, [])
    match queryUnescape key with
    | none => none
    | some key =>
      match queryUnescape value with
      | none => none
      | some value => some (some (key, value))

theorem cut_length {sep : UInt8} {s a b : Bytes} (h : cut sep s = some (a, b)) : b.length < s.length := by
  rw [cut_eq_some] at h
  rw [h.1]; simp; omega

/-- `parseQuery`: the map, and whether there was an error. An erroneous pair is skipped. (Go releases from 1.25.6 on refuse queries with more than 10000 parameters
altogether; this is not modelled.) -/
def parseQueryInto (m : Values) (failed : Bool) (query : Bytes) : Values × Bool :=
  if query = [] then (m, failed)
  else
    match hc : cut 38 query with
    | none =>
      match queryPair query with
      | none => (m, true)
      | some none => (m, failed)
      | some (some (k, v)) => (m.add k v, failed)
    | some (pair, rest) =>
      match queryPair pair with
      | none => parseQueryInto m true rest
      | some none => parseQueryInto m failed rest
      | some (some (k, v)) => parseQueryInto (m.add k v) failed rest
termination_by query.length
decreasing_by all_goals exact cut_length hc

/-- `ParseQuery`. -/
def parseQuery (query : Bytes) : Values × Bool := parseQueryInto [] false query

/-- `URL.Query` for a URL with the given `RawQuery`: it drops the error of `ParseQuery`. -/
def urlQuery (raw : Bytes) : Values := (parseQuery raw).1

end Verif.Go
