import Verif.Web.Ndt7Upload

/-!
# The URLs that the ndt7 client for browsers makes: html/ndt7.js, `discoverServerURLs`

For a configuration that names a server, as that of html/ndt7.html does. Strings are the bytes of their UTF-8 form, which is what `URLSearchParams` encodes (a string with an unpaired surrogate has none, and is not modelled). The
properties of an object are listed in the order in which they were made; JavaScript lists those whose names are array indices first, so what is proved is proved for every order.
-/

namespace Verif.Web
open Verif.Go

/-- An object whose properties are strings. -/
abbrev JsObj := List (Bytes × Bytes)

/-- `obj[name] = value`. -/
def JsObj.set (name value : Bytes) : JsObj → JsObj
  | [] => [(name, value)]
  | (n, v) :: ps => if n = name then (n, value) :: ps else (n, v) :: JsObj.set name value ps

/-- `Object.assign(target, source)`. -/
def JsObj.assign (target source : JsObj) : JsObj := source.foldl (fun t p => t.set p.1 p.2) target

/-- `staticMetadata` (ndt7.js:20-23). -/
def staticMetadata : JsObj := [(str "client_library_name", str "ndt7-js"), (str "client_library_version", str "0.0.6")]

/-- `config.metadata` after ndt7.js:60-61; without `metadata` in the configuration, `user` is empty. -/
def pageMetadata (user : JsObj) : JsObj := (JsObj.assign [] user).assign staticMetadata

/-- The bytes that the serializer of `application/x-www-form-urlencoded` leaves alone: `*`, `-`, `.`, `_`, digits and letters. -/
def formPlain (b : UInt8) : Bool :=
  b = 42 || b = 45 || b = 46 || b = 95 || (48 ≤ b && b ≤ 57) || (65 ≤ b && b ≤ 90) || (97 ≤ b && b ≤ 122)

/-- An upper-case hexadecimal digit. -/
def upperHex (n : Nat) : UInt8 := if n < 10 then UInt8.ofNat (48 + n) else UInt8.ofNat (55 + n)

/-- The serializer of `application/x-www-form-urlencoded` for one string. -/
def formEncode : Bytes → Bytes
  | [] => []
  | b :: s => (if formPlain b then [b] else if b = 32 then [43] else [37, upperHex (b.toNat / 16), upperHex (b.toNat % 16)]) ++ formEncode s

/-- `new URLSearchParams(obj)` converted to a string (ndt7.js:72 and 78-79). -/
def searchParams : JsObj → Bytes
  | [] => []
  | [(n, v)] => formEncode n ++ 61 :: formEncode v
  | (n, v) :: rest => formEncode n ++ 61 :: formEncode v ++ 38 :: searchParams rest

/-- The URLs for a server (ndt7.js:74-84): of the download and of the upload. Setting `search` puts `?` before the text; nothing in it is encoded again, since none of its bytes is in the query percent-encode set. -/
def serverURLs (protocol server : Bytes) (ps : JsObj) : Bytes × Bytes :=
  (protocol ++ str "://" ++ server ++ str "/ndt/v7/download" ++ str "?" ++ searchParams ps, protocol ++ str "://" ++ server ++ str "/ndt/v7/upload" ++ str "?" ++ searchParams ps)

end Verif.Web
