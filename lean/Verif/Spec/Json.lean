import Verif.Go.Json

/-!
# Specification: UTF-8 and the grammar of JSON

RFC 8259 as an inductive definition, with the choices that encoding/json makes where the RFC leaves them open: bytes that are not UTF-8 and escapes of lone surrogates stand for
U+FFFD, keys may occur more than once, and values are nested at most 10000 deep.  UTF-8 is the encoding of characters by Lean's own `String.utf8EncodeChar`.
-/

namespace Verif.Spec
open Verif.Go

/-- U+FFFD in UTF-8. -/
def fffd : Bytes := String.utf8EncodeChar (Char.ofNat 0xFFFD)

/-- No character of UTF-8 starts here. -/
def NoRune (s : Bytes) : Prop := ∀ c : Char, ¬ String.utf8EncodeChar c <+: s

/-- The text `t` is `s` with U+FFFD for every byte that is not part of the encoding of a character. -/
inductive Repaired : Bytes → Bytes → Prop
  | nil : Repaired [] []
  | char {s t : Bytes} (c : Char) : Repaired s t → Repaired (String.utf8EncodeChar c ++ s) (String.utf8EncodeChar c ++ t)
  | bad {s t : Bytes} {b : UInt8} : NoRune (b :: s) → Repaired s t → Repaired (b :: s) (fffd ++ t)

/-- The value of a hexadecimal digit. -/
def IsHex (c : UInt8) (n : Nat) : Prop :=
  (48 ≤ c ∧ c ≤ 57 ∧ n = c.toNat - 48) ∨ (97 ≤ c ∧ c ≤ 102 ∧ n = c.toNat - 97 + 10) ∨ (65 ≤ c ∧ c ≤ 70 ∧ n = c.toNat - 65 + 10)

/-- Four hexadecimal digits with value `n`. -/
def IsHex4 (s : Bytes) (n : Nat) : Prop :=
  ∃ a b c d na nb nc nd, s = [a, b, c, d] ∧ IsHex a na ∧ IsHex b nb ∧ IsHex c nc ∧ IsHex d nd ∧ n = na * 4096 + nb * 256 + nc * 16 + nd

/-- A text that continues with the escape of a low surrogate. -/
def StartsLow (s : Bytes) : Prop := ∃ l n s', s = 92 :: 117 :: l ++ s' ∧ IsHex4 l n ∧ 0xDC00 ≤ n ∧ n < 0xE000

/-- The characters with an escape of two characters: the second character and the meaning. -/
def shortEscapes : List (UInt8 × UInt8) := [(34, 34), (92, 92), (47, 47), (98, 8), (102, 12), (110, 10), (114, 13), (116, 9)]

/-- What stands between the quotes of a string, and the text it denotes. -/
inductive StringBody : Bytes → Bytes → Prop
  | nil : StringBody [] []
  | char {s t : Bytes} (c : Char) : 0x20 ≤ c.val → c ≠ '"' → c ≠ '\\' → StringBody s t → StringBody (String.utf8EncodeChar c ++ s) (String.utf8EncodeChar c ++ t)
  | bad {s t : Bytes} {b : UInt8} : NoRune (b :: s) → StringBody s t → StringBody (b :: s) (fffd ++ t)
  | short {s t : Bytes} {e x : UInt8} : (e, x) ∈ shortEscapes → StringBody s t → StringBody (92 :: e :: s) (x :: t)
  | unicode {s t h : Bytes} (c : Char) : IsHex4 h c.val.toNat → StringBody s t → StringBody (92 :: 117 :: h ++ s) (String.utf8EncodeChar c ++ t)
  | pair {s t h l : Bytes} {hi lo : Nat} (c : Char) : IsHex4 h hi → IsHex4 l lo → 0xD800 ≤ hi → hi < 0xDC00 → 0xDC00 ≤ lo → lo < 0xE000 →
      c.val.toNat = 0x10000 + (hi - 0xD800) * 1024 + (lo - 0xDC00) → StringBody s t →
      StringBody (92 :: 117 :: h ++ (92 :: 117 :: l ++ s)) (String.utf8EncodeChar c ++ t)
  | lone {s t h : Bytes} {n : Nat} : IsHex4 h n → 0xD800 ≤ n → n < 0xE000 → ¬ (n < 0xDC00 ∧ StartsLow s) → StringBody s t → StringBody (92 :: 117 :: h ++ s) (fffd ++ t)

/-- One or more decimal digits. -/
def IsDigits (s : Bytes) : Prop := s ≠ [] ∧ ∀ c ∈ s, 48 ≤ c ∧ c ≤ 57

/-- A number: optional minus sign, integer without leading zeros, optional fraction, optional exponent. -/
def IsNumber (raw : Bytes) : Prop :=
  ∃ sign int frac exp, raw = sign ++ (int ++ (frac ++ exp)) ∧ (sign = [] ∨ sign = [45]) ∧ (int = [48] ∨ IsDigits int ∧ int.head? ≠ some 48) ∧
    (frac = [] ∨ ∃ ds, frac = 46 :: ds ∧ IsDigits ds) ∧
    (exp = [] ∨ ∃ e sg ds, exp = e :: (sg ++ ds) ∧ (e = 101 ∨ e = 69) ∧ (sg = [] ∨ sg = [43] ∨ sg = [45]) ∧ IsDigits ds)

/-- White space. -/
def Blank (s : Bytes) : Prop := ∀ c ∈ s, c = 32 ∨ c = 9 ∨ c = 10 ∨ c = 13

mutual
/-- A value without surrounding white space, nested at most as deep as the number says. -/
inductive IsValue : Nat → Bytes → Json → Prop
  | null {n : Nat} : IsValue n (str "null") .null
  | true {n : Nat} : IsValue n (str "true") (.bool true)
  | false {n : Nat} : IsValue n (str "false") (.bool false)
  | number {n : Nat} {raw : Bytes} : IsNumber raw → IsValue n raw (.num raw)
  | string {n : Nat} {body text : Bytes} : StringBody body text → IsValue n (34 :: body ++ [34]) (.str text)
  | emptyArray {n : Nat} {w : Bytes} : Blank w → IsValue (n + 1) (91 :: w ++ [93]) (.arr [])
  | array {n : Nat} {s : Bytes} {vs : List Json} : IsElements n s vs → IsValue (n + 1) (91 :: s ++ [93]) (.arr vs)
  | emptyObject {n : Nat} {w : Bytes} : Blank w → IsValue (n + 1) (123 :: w ++ [125]) (.obj [])
  | object {n : Nat} {s : Bytes} {kvs : List (Bytes × Json)} : IsMembers n s kvs → IsValue (n + 1) (123 :: s ++ [125]) (.obj kvs)
/-- Values separated by commas. -/
inductive IsElements : Nat → Bytes → List Json → Prop
  | one {n : Nat} {w s w' : Bytes} {v : Json} : Blank w → IsValue n s v → Blank w' → IsElements n (w ++ (s ++ w')) [v]
  | more {n : Nat} {w s w' rest : Bytes} {v : Json} {vs : List Json} : Blank w → IsValue n s v → Blank w' → IsElements n rest vs →
      IsElements n (w ++ (s ++ (w' ++ 44 :: rest))) (v :: vs)
/-- Members separated by commas. -/
inductive IsMembers : Nat → Bytes → List (Bytes × Json) → Prop
  | one {n : Nat} {w body key w1 w2 s w' : Bytes} {v : Json} : Blank w → StringBody body key → Blank w1 → Blank w2 → IsValue n s v → Blank w' →
      IsMembers n (w ++ (34 :: body ++ 34 :: (w1 ++ 58 :: (w2 ++ (s ++ w'))))) [(key, v)]
  | more {n : Nat} {w body key w1 w2 s w' rest : Bytes} {v : Json} {kvs : List (Bytes × Json)} : Blank w → StringBody body key → Blank w1 → Blank w2 → IsValue n s v →
      Blank w' → IsMembers n rest kvs → IsMembers n (w ++ (34 :: body ++ 34 :: (w1 ++ 58 :: (w2 ++ (s ++ (w' ++ 44 :: rest)))))) ((key, v) :: kvs)
end

/-- A JSON text. -/
def IsJson (doc : Bytes) (v : Json) : Prop := ∃ w s w', doc = w ++ (s ++ w') ∧ Blank w ∧ IsValue 10000 s v ∧ Blank w'

end Verif.Spec
